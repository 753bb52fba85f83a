import Verif.Lemmas.CellListDWidth

/-! # Distance test and bins of neighbouring atoms in doubles -/

namespace MaterSDK

open Classical Matrix

section

variable {S : ℝ} {X' X c : Vec ℝ}
  (hX : ∀ p, NearR S 9 (X' p) (X p)) (hd : ∀ p, |X p - c p| ≤ S)

include hX hd

/-- The computed differences. -/
theorem near_diffD (p : Fin 3) : NearR S 11 (flR (X' p - c p)) (X p - c p) := by
  have hS : 0 ≤ S := (abs_nonneg _).trans (hd p)
  exact (((hX p).sub nearR_self).round (hd p) (by norm_num)).mono hS (by norm_num)

theorem near_normD : |norm3 (fun p => flR (X' p - c p)) - dist3 X c| ≤ 33 * (uR * S) := by
  have h := norm3_diff (fun p => flR (X' p - c p)) (X - c)
  rw [norm3_eq_dist3] at h
  refine h.trans ?_
  have k := near_diffD hX hd
  unfold sum1
  simp only [Pi.sub_apply]
  have k0 : |flR (X' 0 - c 0) - (X 0 - c 0)| ≤ 11 * (uR * S) := k 0
  have k1 : |flR (X' 1 - c 1) - (X 1 - c 1)| ≤ 11 * (uR * S) := k 1
  have k2 : |flR (X' 2 - c 2) - (X 2 - c 2)| ≤ 11 * (uR * S) := k 2
  linarith

omit hX hd in
theorem dDist2_bounds (X' c : Vec ℝ) :
    ((1 - 2 * uR) * norm3 (fun p => flR (X' p - c p))) ^ 2 ≤ dDist2 flR X' c ∧
    dDist2 flR X' c ≤ ((1 + 2 * uR) * norm3 (fun p => flR (X' p - c p))) ^ 2 := by
  have hu := uR_pos
  have hu1 : uR ≤ 1 / 1000 := by rw [uR_eq]; norm_num
  obtain ⟨h1, h2⟩ := sumsq_bounds (flR (X' 0 - c 0)) (flR (X' 1 - c 1)) (flR (X' 2 - c 2))
  have e : norm3 (fun p => flR (X' p - c p)) ^ 2
      = flR (X' 0 - c 0) ^ 2 + flR (X' 1 - c 1) ^ 2 + flR (X' 2 - c 2) ^ 2 := norm3_sq _
  rw [← e] at h1 h2
  set n := norm3 (fun p => flR (X' p - c p))
  have hn := sq_nonneg n
  constructor
  · refine le_trans ?_ h1
    have : (1 - 2 * uR) ^ 2 ≤ (1 - uR) ^ 3 := by nlinarith [sq_nonneg uR]
    rw [mul_pow]
    exact mul_le_mul_of_nonneg_right this hn
  · refine le_trans h2 ?_
    have : (1 + uR) ^ 3 ≤ (1 + 2 * uR) ^ 2 := by nlinarith [sq_nonneg uR, mul_pos hu hu]
    rw [mul_pow]
    exact mul_le_mul_of_nonneg_right this hn

/-- Images clearly inside the cutoff pass the upper test. -/
theorem close_of_near {r : ℝ} (hr : 0 < r) (hrS : r ≤ S) (h : dist3 X c ≤ r - 128 * (uR * S)) :
    dDist2 flR X' c < flR (r ^ 2) := by
  have hu := uR_pos
  have hu1 : uR ≤ 1 / 1000000 := by rw [uR_eq]; norm_num
  have h1 := (abs_le.1 (near_normD hX hd)).2
  have hb := (dDist2_bounds X' c).2
  have hn0 := norm3_nonneg (fun p => flR (X' p - c p))
  set n := norm3 (fun p => flR (X' p - c p))
  have hur : uR * r ≤ uR * S := mul_le_mul_of_nonneg_left hrS hu.le
  have hn : n ≤ r * (1 - 95 * uR) := by nlinarith
  have hrr := (abs_le.1 (flR_err (r ^ 2))).1
  rw [abs_of_nonneg (sq_nonneg r)] at hrr
  have hlt : (1 + 2 * uR) * n < (1 - uR) * r := by
    have : (1 + 2 * uR) * n ≤ (1 + 2 * uR) * (r * (1 - 95 * uR)) :=
      mul_le_mul_of_nonneg_left hn (by linarith)
    nlinarith [mul_pos hu hr, mul_pos hu (mul_pos hu hr)]
  have hsq : ((1 + 2 * uR) * n) ^ 2 < ((1 - uR) * r) ^ 2 :=
    pow_lt_pow_left₀ hlt (mul_nonneg (by linarith) hn0) two_ne_zero
  have : ((1 - uR) * r) ^ 2 ≤ r ^ 2 * (1 - uR) := by
    have : (1 - uR) ^ 2 ≤ 1 - uR := by nlinarith
    rw [mul_pow, mul_comm]
    exact mul_le_mul_of_nonneg_left this (sq_nonneg r)
  linarith

/-- Images that pass the upper test are not clearly outside the cutoff. -/
theorem near_of_close {r : ℝ} (hr : 0 < r) (hrS : r ≤ S) (h : dDist2 flR X' c < flR (r ^ 2)) :
    norm3 (fun p => flR (X' p - c p)) < 2 * r ∧ dist3 X c < r + 128 * (uR * S) := by
  have hu := uR_pos
  have hu1 : uR ≤ 1 / 1000000 := by rw [uR_eq]; norm_num
  have h1 := (abs_le.1 (near_normD hX hd)).1
  have hb := (dDist2_bounds X' c).1
  have hn0 := norm3_nonneg (fun p => flR (X' p - c p))
  set n := norm3 (fun p => flR (X' p - c p))
  have hur : uR * r ≤ uR * S := mul_le_mul_of_nonneg_left hrS hu.le
  have hrr := (abs_le.1 (flR_err (r ^ 2))).2
  rw [abs_of_nonneg (sq_nonneg r)] at hrr
  have h2 : ((1 - 2 * uR) * n) ^ 2 < ((1 + uR) * r) ^ 2 := by
    have : r ^ 2 * (1 + uR) ≤ ((1 + uR) * r) ^ 2 := by
      have : 1 + uR ≤ (1 + uR) ^ 2 := by nlinarith
      rw [mul_pow, mul_comm]
      exact mul_le_mul_of_nonneg_right this (sq_nonneg r)
    linarith
  have h3 : (1 - 2 * uR) * n < (1 + uR) * r :=
    lt_of_pow_lt_pow_left₀ 2 (mul_nonneg (by linarith) hr.le) h2
  have h4 : n < r * (1 + 4 * uR) := by
    by_contra hno
    push Not at hno
    have : (1 - 2 * uR) * (r * (1 + 4 * uR)) ≤ (1 - 2 * uR) * n :=
      mul_le_mul_of_nonneg_left hno (by linarith)
    nlinarith [mul_pos hu hr, mul_pos hu (mul_pos hu hr), mul_le_mul_of_nonneg_right hu1 (mul_pos hu hr).le]
  constructor
  · nlinarith
  · nlinarith

/-- Images at a distance of at least 0.05 pass the lower test. -/
theorem apart_close (hS : S ≤ 2 ^ 30) (h : 1 / 20 ≤ dist3 X c) : dEps flR < dDist2 flR X' c := by
  have hu := uR_pos
  have hu1 : uR ≤ 1 / 1000000 := by rw [uR_eq]; norm_num
  have h1 := (abs_le.1 (near_normD hX hd)).1
  have hb := (dDist2_bounds X' c).1
  set n := norm3 (fun p => flR (X' p - c p))
  have huS : uR * S ≤ uR * 2 ^ 30 := mul_le_mul_of_nonneg_left hS hu.le
  have huS' : uR * 2 ^ 30 ≤ 1 / 1000000 := by rw [uR_eq]; norm_num
  have hn : 49 / 1000 ≤ n := by linarith
  have hm : 48 / 1000 ≤ (1 - 2 * uR) * n := by nlinarith
  have hsq : (48 / 1000 : ℝ) ^ 2 ≤ ((1 - 2 * uR) * n) ^ 2 := pow_le_pow_left₀ (by norm_num) hm 2
  have he := (abs_le.1 (flR_err (1 / 1000))).2
  unfold dEps
  rw [abs_of_pos (by norm_num : (0 : ℝ) < 1 / 1000)] at he
  norm_num at hsq he ⊢
  linarith

/-- Sorting by the computed distance. -/
theorem sorted_close {Y' Y : Vec ℝ} (hY : ∀ p, NearR S 9 (Y' p) (Y p)) (hdY : ∀ p, |Y p - c p| ≤ S)
    {r : ℝ} (hr : 0 < r) (hrS : r ≤ S) (hx : dDist2 flR X' c < flR (r ^ 2))
    (hy : dDist2 flR Y' c < flR (r ^ 2))
    (h : flR (Real.sqrt (dDist2 flR X' c)) ≤ flR (Real.sqrt (dDist2 flR Y' c))) :
    dist3 X c ≤ dist3 Y c + 128 * (uR * S) := by
  have hu := uR_pos
  have hu1 : uR ≤ 1 / 1000000 := by rw [uR_eq]; norm_num
  have bx := (normD_bounds (fun p => flR (X' p - c p))).1
  have bY := (normD_bounds (fun p => flR (Y' p - c p))).2
  have hxy : (1 - 3 * uR) * norm3 (fun p => flR (X' p - c p)) ≤
      (1 + 4 * uR) * norm3 (fun p => flR (Y' p - c p)) := bx.trans (h.trans bY)
  have nx := (near_of_close hX hd hr hrS hx).1
  have ny := (near_of_close hY hdY hr hrS hy).1
  have e1 := (abs_le.1 (near_normD hX hd)).1
  have e2 := (abs_le.1 (near_normD hY hdY)).2
  have hur : uR * r ≤ uR * S := mul_le_mul_of_nonneg_left hrS hu.le
  have q1 := mul_le_mul_of_nonneg_left nx.le hu.le
  have q2 := mul_le_mul_of_nonneg_left ny.le hu.le
  have q3 := mul_pos hu (hr.trans_le hrS)
  linarith

end

/-- The centre itself never passes. -/
theorem self_not_close (c : Vec ℝ) : ¬ dEps flR < dDist2 flR c c := by
  have : dDist2 flR c c = 0 := by simp [dDist2, flR_zero]
  rw [this, not_lt]
  unfold dEps
  exact flR_nonneg (by norm_num)

theorem imagePosD_self (L : Fin 3 → Vec ℝ) (x : Vec ℝ) (hx : ∀ p, flR (x p) = x p) :
    imagePosD flR L x 0 = x := by
  funext p
  simp [imagePosD, flR_zero, hx]

end MaterSDK
