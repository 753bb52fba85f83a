import Verif.Lemmas.CellListDErr
import Verif.Lemmas.AveragesMsd

/-! # Rounding errors of the interplanar distances -/

namespace MaterSDK

open Classical Matrix

theorem sum1_nonneg (v : Vec ℝ) : 0 ≤ sum1 v := by unfold sum1; positivity

theorem abs_le_sum1 (v : Vec ℝ) (i : Fin 3) : |v i| ≤ sum1 v := by
  unfold sum1
  have a0 := abs_nonneg (v 0)
  have a1 := abs_nonneg (v 1)
  have a2 := abs_nonneg (v 2)
  fin_cases i <;> simp <;> linarith

theorem abs_le_norm3 (v : Vec ℝ) (i : Fin 3) : |v i| ≤ norm3 v := by
  have := comp_le_dist3 v 0 i
  rwa [← norm3_eq, Pi.zero_apply, sub_zero] at this

theorem norm3_le_sum1 (v : Vec ℝ) : norm3 v ≤ sum1 v := by
  unfold norm3
  rw [Real.sqrt_le_left (sum1_nonneg v)]
  unfold sum1
  have a0 := abs_nonneg (v 0)
  have a1 := abs_nonneg (v 1)
  have a2 := abs_nonneg (v 2)
  rw [← sq_abs (v 0), ← sq_abs (v 1), ← sq_abs (v 2)]
  nlinarith [mul_nonneg a0 a1, mul_nonneg a0 a2, mul_nonneg a1 a2]

/-- Difference of two rounded products. -/
theorem near_prod_diff {G a b : ℝ} (h : |a| + |b| ≤ G) : NearR G 4 (flR (flR a - flR b)) (a - b) := by
  have ha := abs_nonneg a
  have hb := abs_nonneg b
  have h1 : NearR G 1 (flR a) a := nearR_round (by linarith)
  have h2 : NearR G 1 (flR b) b := nearR_round (by linarith)
  have h3 : |a - b| ≤ G := by
    have := abs_sub a b
    linarith
  exact ((h1.sub h2).round h3 (by norm_num)).mono (by linarith) (by norm_num)

theorem cross_pairs (v w : Vec ℝ) :
    (|v 1 * w 2| + |v 2 * w 1|) + (|v 2 * w 0| + |v 0 * w 2|) + (|v 0 * w 1| + |v 1 * w 0|)
      ≤ sum1 v * sum1 w := by
  unfold sum1
  simp only [abs_mul]
  have := mul_nonneg (abs_nonneg (v 0)) (abs_nonneg (w 0))
  have := mul_nonneg (abs_nonneg (v 1)) (abs_nonneg (w 1))
  have := mul_nonneg (abs_nonneg (v 2)) (abs_nonneg (w 2))
  nlinarith

theorem near_cross (v w : Vec ℝ) (i : Fin 3) :
    NearR (sum1 v * sum1 w) 4 (dCross flR v w i) (cCross v w i) := by
  have h := cross_pairs v w
  have a := abs_nonneg (v 1 * w 2)
  have b := abs_nonneg (v 2 * w 1)
  have c := abs_nonneg (v 2 * w 0)
  have d := abs_nonneg (v 0 * w 2)
  have e := abs_nonneg (v 0 * w 1)
  have f := abs_nonneg (v 1 * w 0)
  fin_cases i
  · exact near_prod_diff (by linarith)
  · exact near_prod_diff (by linarith)
  · exact near_prod_diff (by linarith)

theorem sum1_cross_le (v w : Vec ℝ) : sum1 (cCross v w) ≤ sum1 v * sum1 w := by
  refine le_trans ?_ (cross_pairs v w)
  show |v 1 * w 2 - v 2 * w 1| + |v 2 * w 0 - v 0 * w 2| + |v 0 * w 1 - v 1 * w 0| ≤ _
  exact add_le_add (add_le_add (abs_sub _ _) (abs_sub _ _)) (abs_sub _ _)

theorem abs_cDot_le_norm (b c : Vec ℝ) : |cDot b c| ≤ sum1 b * norm3 c := by
  unfold cDot sum1
  refine (abs_add_le _ _).trans ?_
  have h1 := abs_add_le (b 0 * c 0) (b 1 * c 1)
  have k : ∀ i, |b i * c i| ≤ |b i| * norm3 c := fun i => abs_mul_le (abs_le_norm3 c i)
  linarith [k 0, k 1, k 2]

theorem norm3_diff (a c : Vec ℝ) : |norm3 a - norm3 c| ≤ sum1 (a - c) := by
  have h1 := norm3_add_le (a - c) c
  have h2 := norm3_add_le (c - a) a
  rw [sub_add_cancel] at h1 h2
  have h3 := norm3_le_sum1 (a - c)
  have h4 := norm3_le_sum1 (c - a)
  have e : sum1 (c - a) = sum1 (a - c) := by
    unfold sum1
    simp only [Pi.sub_apply]
    rw [abs_sub_comm (c 0), abs_sub_comm (c 1), abs_sub_comm (c 2)]
  rw [abs_le]
  constructor <;> linarith

/-- Rounded sum of three rounded squares. -/
theorem sumsq_bounds (a b c : ℝ) :
    (1 - uR) ^ 3 * (a ^ 2 + b ^ 2 + c ^ 2) ≤ flR (flR (flR (a ^ 2) + flR (b ^ 2)) + flR (c ^ 2)) ∧
    flR (flR (flR (a ^ 2) + flR (b ^ 2)) + flR (c ^ 2)) ≤ (1 + uR) ^ 3 * (a ^ 2 + b ^ 2 + c ^ 2) := by
  have hu := uR_pos
  have hu1 : uR ≤ 1 := by rw [uR_eq]; norm_num
  have key : ∀ x : ℝ, 0 ≤ x → (1 - uR) * x ≤ flR x ∧ flR x ≤ (1 + uR) * x := by
    intro x hx
    have := abs_le.1 (flR_err x)
    rw [abs_of_nonneg hx] at this
    constructor <;> linarith [this.1, this.2]
  obtain ⟨a1, a2⟩ := key (a ^ 2) (sq_nonneg _)
  obtain ⟨b1, b2⟩ := key (b ^ 2) (sq_nonneg _)
  obtain ⟨c1, c2⟩ := key (c ^ 2) (sq_nonneg _)
  have a0 := flR_nonneg (sq_nonneg a)
  have b0 := flR_nonneg (sq_nonneg b)
  have c0 := flR_nonneg (sq_nonneg c)
  obtain ⟨d1, d2⟩ := key (flR (a ^ 2) + flR (b ^ 2)) (by linarith)
  have d0 := flR_nonneg (show 0 ≤ flR (a ^ 2) + flR (b ^ 2) by linarith)
  obtain ⟨e1, e2⟩ := key (flR (flR (a ^ 2) + flR (b ^ 2)) + flR (c ^ 2)) (by linarith)
  have qa := sq_nonneg a
  have qb := sq_nonneg b
  have qc := sq_nonneg c
  constructor
  · refine le_trans ?_ e1
    have h1 : (1 - uR) * ((1 - uR) * (a ^ 2 + b ^ 2)) ≤ flR (flR (a ^ 2) + flR (b ^ 2)) := by
      refine le_trans ?_ d1
      exact mul_le_mul_of_nonneg_left (by linarith) (by linarith)
    have h2 : (1 - uR) * ((1 - uR) * c ^ 2) ≤ flR (c ^ 2) := by
      refine le_trans ?_ c1
      have : 0 ≤ (1 - uR) * c ^ 2 := mul_nonneg (by linarith) qc
      nlinarith
    have h3 : (1 - uR) ^ 3 * (a ^ 2 + b ^ 2 + c ^ 2) =
        (1 - uR) * ((1 - uR) * ((1 - uR) * (a ^ 2 + b ^ 2)) + (1 - uR) * ((1 - uR) * c ^ 2)) := by ring
    rw [h3]
    exact mul_le_mul_of_nonneg_left (by linarith) (by linarith)
  · refine le_trans e2 ?_
    have h1 : flR (flR (a ^ 2) + flR (b ^ 2)) ≤ (1 + uR) * ((1 + uR) * (a ^ 2 + b ^ 2)) := by
      refine le_trans d2 ?_
      exact mul_le_mul_of_nonneg_left (by linarith) (by linarith)
    have h2 : flR (c ^ 2) ≤ (1 + uR) * ((1 + uR) * c ^ 2) := by
      refine le_trans c2 ?_
      have : 0 ≤ (1 + uR) * c ^ 2 := mul_nonneg (by linarith) qc
      nlinarith
    have h3 : (1 + uR) ^ 3 * (a ^ 2 + b ^ 2 + c ^ 2) =
        (1 + uR) * ((1 + uR) * ((1 + uR) * (a ^ 2 + b ^ 2)) + (1 + uR) * ((1 + uR) * c ^ 2)) := by ring
    rw [h3]
    exact mul_le_mul_of_nonneg_left (by linarith) (by linarith)

/-- Rounded length of a vector. -/
theorem normD_bounds (c : Vec ℝ) :
    (1 - 3 * uR) * norm3 c ≤ flR (Real.sqrt (flR (flR (flR (c 0 ^ 2) + flR (c 1 ^ 2)) + flR (c 2 ^ 2)))) ∧
    flR (Real.sqrt (flR (flR (flR (c 0 ^ 2) + flR (c 1 ^ 2)) + flR (c 2 ^ 2)))) ≤ (1 + 4 * uR) * norm3 c := by
  have hu := uR_pos
  have hu1 : uR ≤ 1 / 1000 := by rw [uR_eq]; norm_num
  obtain ⟨h1, h2⟩ := sumsq_bounds (c 0) (c 1) (c 2)
  have hn := norm3_sq c
  rw [← hn] at h1 h2
  have hn0 := norm3_nonneg c
  set n := norm3 c
  set Q := flR (flR (flR (c 0 ^ 2) + flR (c 1 ^ 2)) + flR (c 2 ^ 2))
  clear_value n Q
  have l1 : (1 - 2 * uR) * n ≤ Real.sqrt Q := by
    apply Real.le_sqrt_of_sq_le
    refine le_trans ?_ h1
    have : (1 - 2 * uR) ^ 2 ≤ (1 - uR) ^ 3 := by nlinarith [sq_nonneg uR]
    calc ((1 - 2 * uR) * n) ^ 2 = (1 - 2 * uR) ^ 2 * n ^ 2 := by ring
      _ ≤ (1 - uR) ^ 3 * n ^ 2 := mul_le_mul_of_nonneg_right this (sq_nonneg _)
  have l2 : Real.sqrt Q ≤ (1 + 2 * uR) * n := by
    apply Real.sqrt_le_iff.2
    refine ⟨mul_nonneg (by linarith) hn0, le_trans h2 ?_⟩
    have : (1 + uR) ^ 3 ≤ (1 + 2 * uR) ^ 2 := by nlinarith [sq_nonneg uR, mul_pos hu hu]
    calc (1 + uR) ^ 3 * n ^ 2 ≤ (1 + 2 * uR) ^ 2 * n ^ 2 := mul_le_mul_of_nonneg_right this (sq_nonneg _)
      _ = ((1 + 2 * uR) * n) ^ 2 := by ring
  have hr := abs_le.1 (flR_err (Real.sqrt Q))
  rw [abs_of_nonneg (Real.sqrt_nonneg Q)] at hr
  constructor
  · have : (1 - 2 * uR) * n * (1 - uR) ≤ Real.sqrt Q * (1 - uR) :=
      mul_le_mul_of_nonneg_right l1 (by linarith)
    have h3 : (1 - 3 * uR) * n ≤ (1 - 2 * uR) * n * (1 - uR) := by nlinarith [mul_nonneg hu.le (mul_nonneg hu.le hn0)]
    linarith [hr.1]
  · have : Real.sqrt Q * (1 + uR) ≤ (1 + 2 * uR) * n * (1 + uR) :=
      mul_le_mul_of_nonneg_right l2 (by linarith)
    have h3 : (1 + 2 * uR) * n * (1 + uR) ≤ (1 + 4 * uR) * n := by
      have : uR * (uR * n) ≤ 1 / 1000 * (uR * n) := mul_le_mul_of_nonneg_right hu1 (mul_nonneg hu.le hn0)
      nlinarith [mul_nonneg hu.le hn0]
    linarith [hr.2]

/-- A rounded unit vector. -/
theorem near_normalize (c : Vec ℝ) (hc : 0 < norm3 c) (i : Fin 3) :
    NearR 1 7 (dNormalize flR c i) (c i / norm3 c) := by
  have hu := uR_pos
  have hu1 : uR ≤ 1 / 1000 := by rw [uR_eq]; norm_num
  obtain ⟨h1, h2⟩ := normD_bounds c
  unfold dNormalize
  set N := flR (Real.sqrt (flR (flR (flR (c 0 ^ 2) + flR (c 1 ^ 2)) + flR (c 2 ^ 2))))
  set n := norm3 c with hn
  have hci : |c i| ≤ n := abs_le_norm3 c i
  clear_value N n
  have hN : 0 < N := lt_of_lt_of_le (mul_pos (by linarith) hc) h1
  have hq : |c i / n| ≤ 1 := by
    rw [abs_div, abs_of_pos hc, div_le_one hc]; exact hci
  have hd : |c i / N - c i / n| ≤ 5 * uR := by
    have e : c i / N - c i / n = (c i / n) * ((n - N) / N) := by
      have := hc.ne'
      have := hN.ne'
      field_simp
    rw [e, abs_mul]
    have h3 : |(n - N) / N| ≤ 5 * uR := by
      rw [abs_div, abs_of_pos hN, div_le_iff₀ hN, abs_le]
      have hun := mul_pos hu hc
      have : uR * (uR * n) ≤ 1 / 1000 * (uR * n) := mul_le_mul_of_nonneg_right hu1 hun.le
      have a1 : uR * ((1 - 3 * uR) * n) ≤ uR * N := mul_le_mul_of_nonneg_left h1 hu.le
      constructor <;> nlinarith
    calc |c i / n| * |(n - N) / N| ≤ 1 * (5 * uR) := mul_le_mul hq h3 (abs_nonneg _) (by norm_num)
      _ = 5 * uR := one_mul _
  have h4 : NearR 1 5 (c i / N) (c i / n) := by
    unfold NearR; rwa [mul_one]
  exact (h4.round hq (by norm_num)).mono (by norm_num) (by norm_num)

theorem near_dot (b n q : Vec ℝ) (hn : ∀ i, NearR 1 7 (n i) (q i)) (hq : ∀ i, |q i| ≤ 1) :
    NearR (sum1 b) 31 (dDot flR b n) (cDot b q) := by
  have hs := sum1_nonneg b
  have hz : ∀ i, |b i * q i| ≤ |b i| := fun i => (abs_mul_le (hq i)).trans (by rw [mul_one])
  have k : ∀ i, NearR (sum1 b) 9 (flR (b i * n i)) (b i * q i) := by
    intro i
    have h1 : NearR (sum1 b) 7 (b i * n i) (b i * q i) := by
      have h2 := hn i
      unfold NearR at *
      rw [← mul_sub, abs_mul]
      calc |b i| * |n i - q i| ≤ sum1 b * (7 * (uR * 1)) :=
            mul_le_mul (abs_le_sum1 b i) h2 (abs_nonneg _) hs
        _ = 7 * (uR * sum1 b) := by ring
    exact (h1.round ((hz i).trans (abs_le_sum1 b i)) (by norm_num)).mono hs (by norm_num)
  have z0 := hz 0
  have z1 := hz 1
  have z2 := hz 2
  have s1 := abs_add_le (b 0 * q 0) (b 1 * q 1)
  have s2 := abs_add_le (b 0 * q 0 + b 1 * q 1) (b 2 * q 2)
  have e : sum1 b = |b 0| + |b 1| + |b 2| := rfl
  have a2 := abs_nonneg (b 2)
  have r1 := ((k 0).add (k 1)).round (by rw [e]; linarith) (by norm_num)
  have r2 := (r1.add (k 2)).round (by rw [e]; linarith) (by norm_num)
  exact r2.mono hs (by norm_num)

/-- Relative error of a computed interplanar distance. -/
theorem near_plane (b v w : Vec ℝ) (K : ℝ) (hD : 0 < |cDot b (cCross v w)|)
    (hK : sum1 b * (sum1 v * sum1 w) = K * |cDot b (cCross v w)|) (hsmall : uR * K ≤ 1 / 1000000) :
    |(|dDot flR b (dNormalize flR (dCross flR v w))|) - (|cDot b (cNormalize (cCross v w))|)| ≤
      48 * (uR * K) * |cDot b (cNormalize (cCross v w))| := by
  have hu := uR_pos
  set c := cCross v w with hc
  set c' := dCross flR v w with hc'
  set D := |cDot b c| with hDd
  set G := sum1 v * sum1 w with hG
  have hG0 : 0 ≤ G := mul_nonneg (sum1_nonneg _) (sum1_nonneg _)
  have hb0 := sum1_nonneg b
  have hnc0 := norm3_nonneg c
  have hDle : D ≤ sum1 b * norm3 c := abs_cDot_le_norm b c
  have hbp : 0 < sum1 b := by
    rcases hb0.eq_or_lt with h | h
    · rw [← h] at hDle; linarith
    · exact h
  have hnc : 0 < norm3 c := by
    rcases hnc0.eq_or_lt with h | h
    · rw [← h] at hDle; linarith
    · exact h
  have hK0 : 0 ≤ K := by
    by_contra h
    push Not at h
    have := mul_neg_of_neg_of_pos h hD
    have := mul_nonneg hb0 hG0
    linarith
  have hGK : G ≤ K * norm3 c := by
    have : sum1 b * G ≤ sum1 b * (K * norm3 c) := by
      rw [hK]
      calc K * D ≤ K * (sum1 b * norm3 c) := mul_le_mul_of_nonneg_left hDle hK0
        _ = sum1 b * (K * norm3 c) := by ring
    exact le_of_mul_le_mul_left this hbp
  have hncG : norm3 c ≤ G := (norm3_le_sum1 c).trans (sum1_cross_le v w)
  -- the computed cross product
  have hcr : ∀ i, |c' i - c i| ≤ 4 * (uR * G) := near_cross v w
  have hnd : |norm3 c' - norm3 c| ≤ 12 * (uR * K) * norm3 c := by
    refine (norm3_diff c' c).trans ?_
    unfold sum1
    simp only [Pi.sub_apply]
    have h1 : uR * G ≤ uR * (K * norm3 c) := mul_le_mul_of_nonneg_left hGK hu.le
    have e : 12 * (uR * K) * norm3 c = 12 * (uR * (K * norm3 c)) := by ring
    rw [e]
    linarith [hcr 0, hcr 1, hcr 2]
  have hdot : |cDot b c' - cDot b c| ≤ 4 * (uR * K) * D := by
    have e : cDot b c' - cDot b c = b 0 * (c' 0 - c 0) + b 1 * (c' 1 - c 1) + b 2 * (c' 2 - c 2) := by
      unfold cDot; ring
    rw [e]
    have k : ∀ i, |b i * (c' i - c i)| ≤ |b i| * (4 * (uR * G)) := fun i => abs_mul_le (hcr i)
    have s1 := abs_add_le (b 0 * (c' 0 - c 0)) (b 1 * (c' 1 - c 1))
    have s2 := abs_add_le (b 0 * (c' 0 - c 0) + b 1 * (c' 1 - c 1)) (b 2 * (c' 2 - c 2))
    have e2 : 4 * (uR * K) * D = sum1 b * (4 * (uR * G)) := by
      have : sum1 b * (4 * (uR * G)) = 4 * uR * (sum1 b * G) := by ring
      rw [this, hK]; ring
    rw [e2]
    unfold sum1
    linarith [k 0, k 1, k 2]
  set ε := uR * K with hε
  have hε0 : 0 ≤ ε := mul_nonneg hu.le hK0
  have hn' : 0 < norm3 c' := by
    have := (abs_le.1 hnd).1
    have : 12 * ε * norm3 c ≤ 12 * (1 / 1000000) * norm3 c :=
      mul_le_mul_of_nonneg_right (by linarith) hnc0
    linarith
  -- the computed dot product
  have hE := near_dot b (dNormalize flR c') (fun i => c' i / norm3 c') (near_normalize c' hn') (fun i => by
    rw [abs_div, abs_of_pos hn', div_le_one hn']; exact abs_le_norm3 c' i)
  have hE' := hE.abs
  unfold NearR at hE'
  have ed : |cDot b (fun i => c' i / norm3 c')| = |cDot b c'| / norm3 c' := by
    rw [← abs_of_pos hn', ← abs_div, abs_of_pos hn']
    congr 1
    unfold cDot; ring
  have ed2 : |cDot b (cNormalize c)| = D / norm3 c := by
    rw [cDot_normalize, abs_div, abs_of_pos hnc]
  rw [ed] at hE'
  rw [ed2]
  set d := D / norm3 c with hd
  have hdD : D = d * norm3 c := by rw [hd]; field_simp
  have hd0 : 0 < d := div_pos hD hnc
  -- the sum of components against the distance
  have hbK : sum1 b ≤ K * d := by
    have : sum1 b * norm3 c ≤ K * d * norm3 c := by
      calc sum1 b * norm3 c ≤ sum1 b * G := mul_le_mul_of_nonneg_left hncG hb0
        _ = K * D := hK
        _ = K * d * norm3 c := by rw [hdD]; ring
    exact le_of_mul_le_mul_right this hnc
  have hA : |(|cDot b c'|) / norm3 c' - d| ≤ 17 * ε * d := by
    have h1 : |(|cDot b c'|) - D| ≤ 4 * ε * D := (abs_abs_sub_abs_le _ _).trans hdot
    rw [abs_le] at h1 hnd
    set E := |cDot b c'|
    set n' := norm3 c'
    set n := norm3 c
    clear_value E n' n
    rw [hdD] at h1
    have hdn : 0 < d * n := mul_pos hd0 hnc
    have he : ε * (ε * (d * n)) ≤ 1 / 1000000 * (ε * (d * n)) :=
      mul_le_mul_of_nonneg_right hsmall (mul_nonneg hε0 hdn.le)
    have hedn : 0 ≤ ε * (d * n) := mul_nonneg hε0 hdn.le
    have hl := mul_le_mul_of_nonneg_left hnd.1 (mul_nonneg hε0 hd0.le)
    have hr := mul_le_mul_of_nonneg_left hnd.2 (mul_nonneg hε0 hd0.le)
    have hl' := mul_le_mul_of_nonneg_left hnd.1 hd0.le
    have hr' := mul_le_mul_of_nonneg_left hnd.2 hd0.le
    rw [abs_le]
    constructor
    · rw [neg_le_sub_iff_le_add, ← sub_le_iff_le_add, le_div_iff₀ hn']
      nlinarith
    · rw [sub_le_iff_le_add, div_le_iff₀ hn']
      nlinarith
  have hB : 31 * (uR * sum1 b) ≤ 31 * ε * d := by
    have : uR * sum1 b ≤ uR * (K * d) := mul_le_mul_of_nonneg_left hbK hu.le
    have e : 31 * ε * d = 31 * (uR * (K * d)) := by rw [hε]; ring
    rw [e]; linarith
  have := abs_sub_le (|dDot flR b (dNormalize flR c')|) (|cDot b c'| / norm3 c') d
  linarith

end MaterSDK
