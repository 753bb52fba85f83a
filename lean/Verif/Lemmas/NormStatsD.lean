import Verif.Model.NormStatsD
import Verif.Lemmas.EnvMatrixD
import Verif.Lemmas.DeepMDNorm
import Verif.Lemmas.FloatR
import Verif.Spec.NormStatsD

/-! # Helper lemmas for the statistics in doubles -/

namespace MaterSDK

/-! ## Sums in any order -/

theorem pow_le_lin {u : ℝ} (hu : 0 ≤ u) : ∀ k : ℕ, (k : ℝ) * u ≤ 1 / 2 → (1 + u) ^ k ≤ 1 + 2 * (k * u)
  | 0, _ => by simp
  | k + 1, h => by
    push_cast at h ⊢
    have hk : (k : ℝ) * u ≤ 1 / 2 := by linarith
    have ih := pow_le_lin hu k hk
    have h1 := mul_le_mul_of_nonneg_right ih (by linarith : (0 : ℝ) ≤ 1 + u)
    have h2 := mul_le_mul_of_nonneg_right hk hu
    rw [pow_succ]
    linarith

theorem sumAbs_nonneg (l : List ℝ) : 0 ≤ (l.map (fun x => |x|)).sum :=
  List.sum_nonneg (by
    intro x hx
    obtain ⟨y, -, rfl⟩ := List.mem_map.1 hx
    exact abs_nonneg _)

theorem abs_sum_le' (l : List ℝ) : |l.sum| ≤ (l.map (fun x => |x|)).sum := by
  induction l with
  | nil => simp
  | cons a l ih =>
    rw [List.sum_cons, List.map_cons, List.sum_cons]
    exact (abs_add_le _ _).trans (by linarith)

theorem SumsTo.err_pow {l : List ℝ} {a : ℝ} (h : SumsTo flR l a) :
    |a - l.sum| ≤ ((1 + uR) ^ (l.length - 1) - 1) * (l.map (fun x => |x|)).sum := by
  have hu := uR_pos
  induction h with
  | nil => simp
  | one x => simp
  | perm hp _ ih => rwa [hp.sum_eq, hp.length_eq, (hp.map _).sum_eq] at ih
  | @add l l' a b h0 h0' _ _ ih ih' =>
    have p1 := List.length_pos_iff.2 h0
    have p2 := List.length_pos_iff.2 h0'
    have q1 : (1 + uR) ^ (l.length - 1) ≤ (1 + uR) ^ (l.length + l'.length - 2) :=
      pow_le_pow_right₀ (by linarith) (by omega)
    have q2 : (1 + uR) ^ (l'.length - 1) ≤ (1 + uR) ^ (l.length + l'.length - 2) :=
      pow_le_pow_right₀ (by linarith) (by omega)
    have e : l.length + l'.length - 1 = (l.length + l'.length - 2) + 1 := by omega
    rw [List.sum_append, List.map_append, List.sum_append, List.length_append, e, pow_succ]
    set k := (1 + uR) ^ (l.length + l'.length - 2)
    set A := (l.map (fun x => |x|)).sum with hA
    set A' := (l'.map (fun x => |x|)).sum with hA'
    have nA : 0 ≤ A := sumAbs_nonneg l
    have nA' : 0 ≤ A' := sumAbs_nonneg l'
    have g1 : |a - l.sum| ≤ (k - 1) * A := ih.trans (mul_le_mul_of_nonneg_right (by linarith) nA)
    have g2 : |b - l'.sum| ≤ (k - 1) * A' := ih'.trans (mul_le_mul_of_nonneg_right (by linarith) nA')
    have r := flR_err (a + b)
    have s1 := abs_sum_le' l
    have s2 := abs_sum_le' l'
    have t : |a + b| ≤ (k - 1) * (A + A') + (A + A') := by
      have : a + b = (a - l.sum) + (b - l'.sum) + (l.sum + l'.sum) := by ring
      rw [this]
      refine (abs_add_le _ _).trans ?_
      have := abs_add_le (a - l.sum) (b - l'.sum)
      have := abs_add_le l.sum l'.sum
      linarith
    have t2 : |a + b - (l.sum + l'.sum)| ≤ (k - 1) * (A + A') := by
      have : a + b - (l.sum + l'.sum) = (a - l.sum) + (b - l'.sum) := by ring
      rw [this]
      refine (abs_add_le _ _).trans ?_
      linarith
    have t3 := mul_le_mul_of_nonneg_right t hu.le
    have : flR (a + b) - (l.sum + l'.sum) = (flR (a + b) - (a + b)) + (a + b - (l.sum + l'.sum)) := by ring
    rw [this]
    refine (abs_add_le _ _).trans ?_
    nlinarith

/-- The error of a sum of at most `m` numbers. -/
theorem SumsTo.err {l : List ℝ} {a : ℝ} (h : SumsTo flR l a) {m : ℕ} (hm : l.length ≤ m) (hs : (m : ℝ) * uR ≤ 1 / 2) :
    |a - l.sum| ≤ 2 * (m * uR) * (l.map (fun x => |x|)).sum := by
  have hu := uR_pos
  refine h.err_pow.trans (mul_le_mul_of_nonneg_right ?_ (sumAbs_nonneg l))
  have h1 : (1 + uR) ^ (l.length - 1) ≤ (1 + uR) ^ m := pow_le_pow_right₀ (by linarith) (by omega)
  have := pow_le_lin hu.le m hs
  linarith

/-- Some way of adding: from the left. -/
theorem exists_sumsTo (R : ℝ → ℝ) : ∀ l : List ℝ, ∃ a, SumsTo R l a
  | [] => ⟨0, .nil⟩
  | [x] => ⟨x, .one x⟩
  | x :: y :: l => by
    obtain ⟨a, ha⟩ := exists_sumsTo R (y :: l)
    exact ⟨_, .add (l := [x]) (by simp) (by simp) (.one x) ha⟩

/-! ## Variance -/

/-- Rounding a value known up to a relative error. -/
theorem round_err {x y q ε : ℝ} (hq : |y| ≤ q) (hε : uR ≤ ε) (hε1 : ε ≤ 1 / 10) (h : |x - y| ≤ ε * q) :
    |flR x - y| ≤ 21 / 10 * (ε * q) := by
  have hu := uR_pos
  have r := flR_err x
  have q0 : 0 ≤ q := (abs_nonneg _).trans hq
  have ε0 : 0 ≤ ε := hu.le.trans hε
  have e : flR x - y = (flR x - x) + (x - y) := by ring
  have hx : |x| ≤ ε * q + q := by
    have : x = (x - y) + y := by ring
    rw [this]
    exact (abs_add_le _ _).trans (by linarith)
  have h1 := mul_le_mul hx hε hu.le (by positivity)
  rw [e]
  refine (abs_add_le _ _).trans ?_
  have h2 : ε * (ε * q) ≤ 1 / 10 * (ε * q) := mul_le_mul_of_nonneg_right hε1 (by positivity)
  nlinarith

theorem var_err {x2 x q μ a ε : ℝ} (hε : uR ≤ ε) (hε1 : ε ≤ 1 / 10) (hμ : |μ| ≤ a) (ha : a ^ 2 ≤ q)
    (h2 : |x2 - q| ≤ ε * q) (h1 : |x - μ| ≤ ε * a) :
    |flR (flR x2 - flR (flR x * flR x)) - (q - μ ^ 2)| ≤ 11 * (ε * q) := by
  have hu := uR_pos
  have a0 : 0 ≤ a := (abs_nonneg _).trans hμ
  have q0 : 0 ≤ q := (sq_nonneg a).trans ha
  have ε0 : 0 ≤ ε := hu.le.trans hε
  have g2 := round_err (le_of_eq (abs_of_nonneg q0)) hε hε1 h2
  have g1 := round_err hμ hε hε1 h1
  have hμ2 : μ ^ 2 ≤ a ^ 2 := by
    rw [← sq_abs μ]
    exact pow_le_pow_left₀ (abs_nonneg _) hμ 2
  set y := flR x
  have hεa : ε * a ≤ 1 / 10 * a := mul_le_mul_of_nonneg_right hε1 a0
  have hy : |y| ≤ 121 / 100 * a := by
    have : y = (y - μ) + μ := by ring
    rw [this]
    exact (abs_add_le _ _).trans (by linarith)
  have p1 : |y * y - μ ^ 2| ≤ 21 / 10 * (221 / 100) * (ε * a ^ 2) := by
    have : y * y - μ ^ 2 = (y - μ) * (y + μ) := by ring
    rw [this, abs_mul]
    have h3 : |y + μ| ≤ 221 / 100 * a := (abs_add_le _ _).trans (by linarith)
    refine (mul_le_mul g1 h3 (abs_nonneg _) (by positivity)).trans (le_of_eq (by ring))
  have p2 : |flR (y * y) - μ ^ 2| ≤ 62 / 10 * (ε * q) := by
    have r := flR_err (y * y)
    have h4 : |y * y| ≤ 147 / 100 * a ^ 2 := by
      rw [abs_mul]
      have := mul_le_mul hy hy (abs_nonneg _) (by positivity)
      nlinarith [sq_nonneg a]
    have h5 := mul_le_mul h4 hε hu.le (by positivity)
    have e : flR (y * y) - μ ^ 2 = (flR (y * y) - y * y) + (y * y - μ ^ 2) := by ring
    rw [e]
    refine (abs_add_le _ _).trans ?_
    have h6 := mul_le_mul_of_nonneg_left ha ε0
    nlinarith [mul_nonneg ε0 (sq_nonneg a)]
  set z := flR x2 - flR (y * y)
  have p3 : |z - (q - μ ^ 2)| ≤ 83 / 10 * (ε * q) := by
    have e : z - (q - μ ^ 2) = (flR x2 - q) - (flR (y * y) - μ ^ 2) := by simp only [z]; ring
    rw [e]
    refine (abs_sub _ _).trans ?_
    linarith
  have hv : |q - μ ^ 2| ≤ q := by
    rw [abs_le]
    constructor <;> nlinarith [sq_nonneg μ]
  have hεq : ε * q ≤ 1 / 10 * q := mul_le_mul_of_nonneg_right hε1 q0
  have hz : |z| ≤ 183 / 100 * q := by
    have : z = (z - (q - μ ^ 2)) + (q - μ ^ 2) := by ring
    rw [this]
    exact (abs_add_le _ _).trans (by linarith)
  have r := flR_err z
  have h7 := mul_le_mul hz hε hu.le (by positivity)
  have e : flR z - (q - μ ^ 2) = (flR z - z) + (z - (q - μ ^ 2)) := by ring
  rw [e]
  refine (abs_add_le _ _).trans ?_
  nlinarith [mul_nonneg ε0 q0]

/-- Square roots not below 1/100 differ by at most 50 times the numbers. -/
theorem sqrt_floor_lip (a b : ℝ) :
    |max (Real.sqrt a) (1 / 100) - max (Real.sqrt b) (1 / 100)| ≤ 50 * |a - b| := by
  have key : ∀ a b : ℝ, b ≤ a → max (Real.sqrt a) (1 / 100) - max (Real.sqrt b) (1 / 100) ≤ 50 * (a - b) := by
    intro a b hab
    rcases le_total (Real.sqrt a) (1 / 100) with h1 | h1
    · rw [max_eq_right h1]
      have := le_max_right (Real.sqrt b) (1 / 100)
      linarith
    · rw [max_eq_left h1]
      set t := max (Real.sqrt b) (1 / 100) with ht
      have ht0 : 1 / 100 ≤ t := le_max_right _ _
      rcases le_total (Real.sqrt a) t with h2 | h2
      · linarith
      · have ha0 : 0 ≤ a := by
          by_contra hneg
          rw [Real.sqrt_eq_zero_of_nonpos (by linarith)] at h1
          norm_num at h1
        have hsa := Real.sq_sqrt ha0
        have htb : b ≤ t ^ 2 := by
          rcases le_total 0 b with hb | hb
          · have h3 : Real.sqrt b ≤ t := le_max_left _ _
            have := pow_le_pow_left₀ (Real.sqrt_nonneg b) h3 2
            rwa [Real.sq_sqrt hb] at this
          · nlinarith
        nlinarith
  rcases le_total b a with h | h
  · rw [abs_of_nonneg (sub_nonneg.2 h), abs_of_nonneg]
    · exact key a b h
    · exact sub_nonneg.2 (max_le_max (Real.sqrt_le_sqrt h) le_rfl)
  · rw [abs_of_nonpos (sub_nonpos.2 h), abs_of_nonpos]
    · have := key b a h
      linarith
    · exact sub_nonpos.2 (max_le_max (Real.sqrt_le_sqrt h) le_rfl)

/-- The deviation from sums known up to a relative error. -/
theorem calcStdD_err {s2 s q μ a ε : ℝ} {n : ℕ} (hn : n ≠ 0) (hε : uR ≤ ε) (hε1 : ε ≤ 1 / 10) (hμ : |μ| ≤ a)
    (ha : a ^ 2 ≤ q) (h2 : |s2 / n - q| ≤ ε * q) (h1 : |s / n - μ| ≤ ε * a) (hv : 11 * (ε * q) ≤ q - μ ^ 2) :
    ∃ σ, calcStdD flR s2 s n = some σ ∧ flR (1 / 100) ≤ σ ∧
      |σ - max (Real.sqrt (q - μ ^ 2)) (1 / 100)| ≤
        601 * (ε * q) + uR * max (Real.sqrt (q - μ ^ 2)) (1 / 100) := by
  have hu := uR_pos
  have hu1 : uR ≤ 1 / 1000 := by rw [uR_eq]; norm_num
  have g := var_err hε hε1 hμ ha h2 h1
  unfold calcStdD
  rw [if_neg hn]
  simp only
  set v := flR (flR (s2 / n) - flR (flR (s / n) * flR (s / n)))
  have hv0 : 0 ≤ v := by
    have := (abs_le.1 g).1
    linarith
  rw [if_neg (not_lt.2 hv0)]
  have hs := Real.sqrt_nonneg v
  obtain ⟨d1, k1, e1⟩ := flR_rel (Real.sqrt v)
  obtain ⟨d2, k2, e2⟩ := flR_rel (1 / 100)
  have n1 : 0 ≤ flR (Real.sqrt v) := by
    rw [e1]
    exact mul_nonneg hs (by have := abs_le.1 k1; linarith)
  rw [abs_of_nonneg n1]
  have hlip := sqrt_floor_lip v (q - μ ^ 2)
  set E := max (Real.sqrt (q - μ ^ 2)) (1 / 100)
  set F := max (Real.sqrt v) (1 / 100) with hF
  have hE0 : 1 / 100 ≤ E := le_max_right _ _
  have hFE : |F - E| ≤ 550 * (ε * q) := hlip.trans (by linarith)
  have hmax : |max (flR (Real.sqrt v)) (flR (1 / 100)) - F| ≤ uR * F := by
    refine (abs_max_sub_max_le_max _ _ _ _).trans (max_le ?_ ?_)
    · refine (flR_err _).trans ?_
      rw [abs_of_nonneg hs, mul_comm]
      exact mul_le_mul_of_nonneg_left (le_max_left _ _) hu.le
    · refine (flR_err _).trans ?_
      rw [abs_of_nonneg (by norm_num), mul_comm]
      exact mul_le_mul_of_nonneg_left (le_max_right _ _) hu.le
  have hfin : |max (flR (Real.sqrt v)) (flR (1 / 100)) - E| ≤ 601 * (ε * q) + uR * E := by
    have e : max (flR (Real.sqrt v)) (flR (1 / 100)) - E = (max (flR (Real.sqrt v)) (flR (1 / 100)) - F) + (F - E) := by ring
    rw [e]
    refine (abs_add_le _ _).trans ?_
    have hF2 : F ≤ E + 550 * (ε * q) := by
      have := (abs_le.1 hFE).2
      linarith
    have h3 := mul_le_mul_of_nonneg_left hF2 hu.le
    have hq0 : 0 ≤ ε * q := mul_nonneg (hu.le.trans hε) ((sq_nonneg a).trans ha)
    have h4 := mul_le_mul_of_nonneg_right hu1 hq0
    linarith
  split
  · rename_i hlt
    rw [max_eq_right hlt.le] at hfin
    exact ⟨_, rfl, le_rfl, hfin⟩
  · rename_i hge
    rw [max_eq_left (not_lt.1 hge)] at hfin
    exact ⟨_, rfl, not_lt.1 hge, hfin⟩

/-! ## The two sums of a list -/

theorem sumAbs_sq (l : List ℝ) : (l.map (fun x => |x|)).sum ^ 2 ≤ l.length * (l.map (fun x => x * x)).sum := by
  have h := sum_sq_le (l.map (fun x => |x|))
  rw [List.length_map, List.map_map] at h
  have e : ((fun x : ℝ => x * x) ∘ fun x => |x|) = fun x => x * x := by
    funext x
    simp
  rw [e] at h
  exact h

theorem sumSq_round (l : List ℝ) :
    |(l.map (fun x => flR (x * x))).sum - (l.map (fun x => x * x)).sum| ≤ uR * (l.map (fun x => x * x)).sum ∧
    ((l.map (fun x => flR (x * x))).map (fun x => |x|)).sum ≤ (1 + uR) * (l.map (fun x => x * x)).sum := by
  induction l with
  | nil => simp
  | cons a l ih =>
    simp only [List.map_cons, List.sum_cons] at ih ⊢
    obtain ⟨i1, i2⟩ := ih
    have r := flR_err (a * a)
    rw [abs_of_nonneg (mul_self_nonneg a)] at r
    constructor
    · have e : ∀ x y z w : ℝ, x + y - (z + w) = (x - z) + (y - w) := by intros; ring
      rw [e]
      refine (abs_add_le _ _).trans ?_
      linarith
    · have : |flR (a * a)| ≤ a * a + a * a * uR := by
        have e : flR (a * a) = (flR (a * a) - a * a) + a * a := by ring
        rw [e]
        refine (abs_add_le _ _).trans ?_
        rw [abs_of_nonneg (mul_self_nonneg a)]
        linarith
      linarith

/-- The two sums of a list, in any order. -/
theorem list_sums (A : NpSum flR) (xs : List ℝ) {m : ℕ} (hm : xs.length = m) (h1 : m ≠ 0) (hs : (m : ℝ) * uR ≤ 1 / 4) :
    |A.run (xs.map (fun x => flR (x * x))) - (xs.map (fun x => x * x)).sum| ≤
      4 * (m * uR) * (xs.map (fun x => x * x)).sum ∧
    |A.run xs - xs.sum| ≤ 2 * (m * uR) * (xs.map (fun x => |x|)).sum := by
  have hu := uR_pos
  have hu1 : uR ≤ 1 / 1000 := by rw [uR_eq]; norm_num
  refine ⟨?_, (A.sums xs).err hm.le (by linarith)⟩
  have g := (A.sums (xs.map (fun x => flR (x * x)))).err (m := m) (by simp [hm]) (by linarith)
  obtain ⟨r1, r2⟩ := sumSq_round xs
  set Q := (xs.map (fun x => x * x)).sum
  have hQ : 0 ≤ Q := List.sum_nonneg (by
    intro x hx
    obtain ⟨y, -, rfl⟩ := List.mem_map.1 hx
    exact mul_self_nonneg y)
  have hm1 : (1 : ℝ) ≤ m := by exact_mod_cast Nat.one_le_iff_ne_zero.2 h1
  set S' := (xs.map (fun x => flR (x * x))).sum
  have e : A.run (xs.map (fun x => flR (x * x))) - Q = (A.run (xs.map (fun x => flR (x * x))) - S') + (S' - Q) := by ring
  rw [e]
  refine (abs_add_le _ _).trans ?_
  have k0 : 0 ≤ (m : ℝ) * uR := by positivity
  have k1 := mul_le_mul_of_nonneg_left r2 (by positivity : 0 ≤ 2 * ((m : ℝ) * uR))
  have k2 : uR * Q ≤ m * uR * Q := by
    have := mul_le_mul_of_nonneg_right hm1 (mul_nonneg hu.le hQ)
    linarith
  have k3 : (m : ℝ) * uR * Q * uR ≤ m * uR * Q * (1 / 1000) := mul_le_mul_of_nonneg_left hu1 (by positivity)
  have k4 : 0 ≤ (m : ℝ) * uR * Q := by positivity
  nlinarith

/-- A rounded third. -/
theorem third_err {x y Y ε : ℝ} (hY : |y| ≤ Y) (hε : 0 ≤ ε) (hε1 : ε ≤ 1) (h : |x - y| ≤ ε * Y) :
    |flR (x / 3) - y / 3| ≤ (ε + 2 * uR) * (Y / 3) := by
  have hu := uR_pos
  have Y0 : 0 ≤ Y := (abs_nonneg _).trans hY
  have r := flR_err (x / 3)
  have hx : |x| ≤ 2 * Y := by
    have : x = (x - y) + y := by ring
    rw [this]
    refine (abs_add_le _ _).trans ?_
    have := mul_le_mul_of_nonneg_right hε1 Y0
    linarith
  have e : flR (x / 3) - y / 3 = (flR (x / 3) - x / 3) + (x - y) / 3 := by ring
  rw [e]
  refine (abs_add_le _ _).trans ?_
  rw [abs_div x 3, abs_of_pos (by norm_num : (0 : ℝ) < 3)] at r
  rw [abs_div (x - y) 3, abs_of_pos (by norm_num : (0 : ℝ) < 3)]
  have := mul_le_mul_of_nonneg_right hx hu.le
  nlinarith

theorem abs_div_le {x y c k : ℝ} (hc : 0 < c) (h : |x - y| ≤ k) : |x / c - y / c| ≤ k / c := by
  rw [← sub_div, abs_div, abs_of_pos hc]
  exact div_le_div_of_nonneg_right h hc.le

/-- The deviation of a list of samples whose sums are known up to a relative error. -/
theorem samples_std {xs : List ℝ} {m n : ℕ} {c s2 s ε : ℝ} (hm : xs.length = m) (hn : n ≠ 0) (hm0 : m ≠ 0)
    (hc : 0 < c) (hmn : (m : ℝ) = c * n) (hε : uR ≤ ε) (hε1 : ε ≤ 1 / 10)
    (h2 : |s2 - (xs.map (fun x => x * x)).sum / c| ≤ ε * ((xs.map (fun x => x * x)).sum / c))
    (h1 : |s - xs.sum / c| ≤ ε * ((xs.map (fun x => |x|)).sum / c))
    (hv : 11 * (ε * ((xs.map (fun x => x * x)).sum / m)) ≤ (xs.map (fun x => x * x)).sum / m - (xs.sum / m) ^ 2) :
    ∃ σ, calcStdD flR s2 s n = some σ ∧ flR (1 / 100) ≤ σ ∧
      |σ - max (Real.sqrt ((xs.map (fun x => x * x)).sum / m - (xs.sum / m) ^ 2)) (1 / 100)| ≤
        601 * (ε * ((xs.map (fun x => x * x)).sum / m)) +
          uR * max (Real.sqrt ((xs.map (fun x => x * x)).sum / m - (xs.sum / m) ^ 2)) (1 / 100) := by
  have hnp : (0 : ℝ) < n := by exact_mod_cast Nat.pos_of_ne_zero hn
  have hmp : (0 : ℝ) < m := by exact_mod_cast Nat.pos_of_ne_zero hm0
  have hsq := sumAbs_sq xs
  have hab := abs_sum_le' xs
  rw [hm] at hsq
  have e : ∀ x : ℝ, x / c / n = x / m := by
    intro x
    rw [hmn, div_div]
  have k2 := abs_div_le hnp h2
  have k1 := abs_div_le hnp h1
  rw [e, mul_div_assoc, e] at k2 k1
  refine calcStdD_err (a := (xs.map (fun x => |x|)).sum / m) hn hε hε1 ?_ ?_ k2 k1 hv
  · rw [abs_div, abs_of_pos hmp]
    exact div_le_div_of_nonneg_right hab hmp.le
  · rw [div_pow, div_le_div_iff₀ (by positivity) hmp]
    nlinarith

theorem small_u {n : ℕ} (h : n ≤ 2 ^ 45) : (n : ℝ) * uR ≤ 1 / 256 := by
  have : (n : ℝ) ≤ 2 ^ 45 := by exact_mod_cast h
  have := mul_le_mul_of_nonneg_right this uR_pos.le
  refine this.trans (le_of_eq ?_)
  rw [uR_eq]; norm_num

theorem u_le_mul {n : ℕ} (h : n ≠ 0) : uR ≤ n * uR := by
  have h1 : (1 : ℝ) ≤ n := by exact_mod_cast Nat.one_le_iff_ne_zero.2 h
  have := mul_le_mul_of_nonneg_right h1 uR_pos.le
  linarith

theorem sumSq_nonneg (l : List ℝ) : 0 ≤ (l.map (fun x => x * x)).sum :=
  List.sum_nonneg (by
    intro x hx
    obtain ⟨y, -, rfl⟩ := List.mem_map.1 hx
    exact mul_self_nonneg y)

/-- The sums of the weights. -/
theorem radius_sums (A : NpSum flR) (xs : List ℝ) (h0 : xs.length ≠ 0) (h : xs.length ≤ 2 ^ 45) :
    uR ≤ 16 * (xs.length * uR) ∧ 16 * (xs.length * uR) ≤ 1 / 10 ∧
    |A.run (xs.map (fun x => flR (x * x))) - (xs.map (fun x => x * x)).sum| ≤
      16 * (xs.length * uR) * (xs.map (fun x => x * x)).sum ∧
    |A.run xs - xs.sum| ≤ 16 * (xs.length * uR) * (xs.map (fun x => |x|)).sum := by
  have hs := small_u h
  have hu := u_le_mul h0
  have hp := uR_pos
  obtain ⟨g1, g2⟩ := list_sums A xs rfl h0 (by linarith)
  refine ⟨by linarith, by linarith, g1.trans ?_, g2.trans ?_⟩
  · exact mul_le_mul_of_nonneg_right (by linarith) (sumSq_nonneg xs)
  · exact mul_le_mul_of_nonneg_right (by linarith) (sumAbs_nonneg xs)

/-- The sums of the angular entries, divided by three. -/
theorem angle_sums (A : NpSum flR) (xs : List ℝ) {n : ℕ} (hl : xs.length = 3 * n) (h0 : n ≠ 0) (h : n ≤ 2 ^ 45) :
    uR ≤ 16 * (n * uR) ∧ 16 * (n * uR) ≤ 1 / 10 ∧
    |flR (A.run (xs.map (fun x => flR (x * x))) / 3) - (xs.map (fun x => x * x)).sum / 3| ≤
      16 * (n * uR) * ((xs.map (fun x => x * x)).sum / 3) ∧
    |flR (A.run xs / 3) - xs.sum / 3| ≤ 16 * (n * uR) * ((xs.map (fun x => |x|)).sum / 3) := by
  have hs := small_u h
  have hu := u_le_mul h0
  have hp := uR_pos
  have e3 : ((3 * n : ℕ) : ℝ) * uR = 3 * (n * uR) := by push_cast; ring
  obtain ⟨g1, g2⟩ := list_sums A xs hl (by omega) (by rw [e3]; linarith)
  rw [e3] at g1 g2
  have q0 := sumSq_nonneg xs
  have a0 := sumAbs_nonneg xs
  refine ⟨by linarith, by linarith, ?_, ?_⟩
  · refine (third_err (le_of_eq (abs_of_nonneg q0)) (by linarith) (by linarith) g1).trans ?_
    exact mul_le_mul_of_nonneg_right (by linarith) (by linarith)
  · refine (third_err (abs_sum_le' xs) (by linarith) (by linarith) g2).trans ?_
    exact mul_le_mul_of_nonneg_right (by linarith) (by linarith)

/-- The average of a list. -/
theorem davg_err (A : NpSum flR) (xs : List ℝ) (h : xs.length ≤ 2 ^ 45) :
    |flR (A.run xs / flR ((xs.length : ℕ) + flR (1 / 10 ^ 15))) - mean xs| ≤
      19 * (uR * (xs.map (fun x => |x|)).sum) := by
  have hp := uR_pos
  have hu1 : uR ≤ 1 / 1000 := by rw [uR_eq]; norm_num
  by_cases h0 : xs.length = 0
  · have hx : xs = [] := List.length_eq_zero_iff.1 h0
    subst hx
    have : A.run [] = 0 := by
      have := (A.sums []).err_pow
      simpa using this
    simp [this, mean, flR_zero]
  have hs := small_u h
  have g := (A.sums xs).err le_rfl (by linarith : ((xs.length : ℕ) : ℝ) * uR ≤ 1 / 2)
  have hab := abs_sum_le' xs
  have a0 := sumAbs_nonneg xs
  unfold mean
  set n : ℝ := ((xs.length : ℕ) : ℝ)
  have hn : 1 ≤ n := Nat.one_le_cast.2 (Nat.one_le_iff_ne_zero.2 h0)
  set S := xs.sum
  set T := (xs.map (fun x => |x|)).sum
  set s := A.run xs
  obtain ⟨d0, k0, e0⟩ := flR_rel (1 / 10 ^ 15)
  obtain ⟨d1, k1, e1⟩ := flR_rel (n + flR (1 / 10 ^ 15))
  set d := flR (n + flR (1 / 10 ^ 15)) with hd
  obtain ⟨d2, k2, e2⟩ := flR_rel (s / d)
  have b0 := abs_le.1 k0
  have b1 := abs_le.1 k1
  have b2 := abs_le.1 k2
  have hz : (1 : ℝ) / 10 ^ 15 ≤ 91 / 10 * uR := by rw [uR_eq]; norm_num
  have hz0 : (0 : ℝ) < 1 / 10 ^ 15 := by norm_num
  -- the divisor
  have hd1 : |d - n| ≤ 11 * uR * n := by
    rw [e1, e0]
    set z : ℝ := 1 / 10 ^ 15
    have f1 : |z * (1 + d0)| ≤ 92 / 10 * uR := by
      rw [abs_mul, abs_of_pos hz0]
      have : |1 + d0| ≤ 1001 / 1000 := by rw [abs_le]; constructor <;> linarith
      have := mul_le_mul hz this (abs_nonneg _) (by linarith)
      linarith
    have f2 : (n + z * (1 + d0)) * (1 + d1) - n = z * (1 + d0) * (1 + d1) + n * d1 := by ring
    rw [f2]
    refine (abs_add_le _ _).trans ?_
    rw [abs_mul, abs_mul n, abs_of_nonneg (by linarith : 0 ≤ n)]
    have f3 : |1 + d1| ≤ 1001 / 1000 := by rw [abs_le]; constructor <;> linarith
    have f4 := mul_le_mul f1 f3 (abs_nonneg _) (by positivity)
    have f5 := mul_le_mul_of_nonneg_left k1 (by linarith : 0 ≤ n)
    have f6 := mul_le_mul_of_nonneg_left hn hp.le
    refine (add_le_add f4 f5).trans ?_
    clear_value z
    have : 0 ≤ uR * n := by positivity
    linarith
  have hdb := abs_le.1 hd1
  have hup : uR ≤ 1 / 10 ^ 6 := by rw [uR_eq]; norm_num
  have hdn : 99 / 100 * n ≤ d := by
    have := mul_le_mul_of_nonneg_right hup (by linarith : (0 : ℝ) ≤ n)
    nlinarith
  have hdpos : 0 < d := by linarith
  have hnpos : 0 < n := by linarith
  rw [e2]
  have key : s / d * (1 + d2) - S / n = ((s - S) * n * (1 + d2) + S * (n - d) + S * n * d2) / (d * n) := by
    field_simp
    ring
  rw [key, abs_div, abs_of_pos (mul_pos hdpos hnpos), div_le_iff₀ (mul_pos hdpos hnpos)]
  refine (abs_add_le _ _).trans ?_
  have t1 : |(s - S) * n * (1 + d2) + S * (n - d)| ≤ 201 / 100 * (n * uR * T) * n + T * (11 * uR * n) := by
    refine (abs_add_le _ _).trans (add_le_add ?_ ?_)
    · rw [abs_mul, abs_mul, abs_of_pos hnpos]
      have f3 : |1 + d2| ≤ 1001 / 1000 := by rw [abs_le]; constructor <;> linarith
      have f4 := mul_le_mul (mul_le_mul_of_nonneg_right g hnpos.le) f3 (abs_nonneg _) (by positivity)
      refine f4.trans ?_
      have : 0 ≤ n * uR * T * n := by positivity
      linarith
    · rw [abs_mul, abs_sub_comm n d]
      exact mul_le_mul hab hd1 (abs_nonneg _) a0
  have t2 : |S * n * d2| ≤ T * n * uR := by
    rw [abs_mul, abs_mul, abs_of_pos hnpos]
    exact mul_le_mul (mul_le_mul_of_nonneg_right hab hnpos.le) k2 (abs_nonneg _) (by positivity)
  have w : 0 ≤ uR * T * n := by positivity
  have w1 : uR * T * n ≤ uR * T * n * n := le_mul_of_one_le_right w hn
  have w2 : 19 * (uR * T) * (99 / 100 * n * n) ≤ 19 * (uR * T) * (d * n) :=
    mul_le_mul_of_nonneg_left (mul_le_mul_of_nonneg_right hdn hnpos.le) (by positivity)
  nlinarith

/-- A deviation that is a number is not below the floor. -/
theorem calcStdD_floor {a b σ : ℝ} {n : ℕ} (h : calcStdD flR a b n = some σ) : flR (1 / 100) ≤ σ := by
  unfold calcStdD at h
  split at h
  · exact (Option.some.inj h).le
  · simp only at h
    split at h
    · cases h
    · split at h
      · exact (Option.some.inj h).le
      · rename_i hv hf
        rw [← Option.some.inj h]
        have h0 : 0 ≤ flR (Real.sqrt (flR (flR (a / n) - flR (flR (b / n) * flR (b / n))))) := by
          have := flR_mono (Real.sqrt_nonneg (flR (flR (a / n) - flR (flR (b / n) * flR (b / n)))))
          rwa [flR_zero] at this
        rw [abs_of_nonneg h0] at hf
        exact not_lt.1 hf

/-! ## Adding from left to right -/

theorem sumsTo_foldl (R : ℝ → ℝ) : ∀ (l pre : List ℝ) (a : ℝ), pre ≠ [] → SumsTo R pre a →
    SumsTo R (pre ++ l) (l.foldl (fun acc x => R (acc + x)) a)
  | [], pre, a, _, h => by simpa using h
  | x :: l, pre, a, h0, h => by
    have := sumsTo_foldl R l (pre ++ [x]) (R (a + x)) (by simp) (.add h0 (by simp) h (.one x))
    simpa using this

/-- One number after the other. -/
noncomputable def leftSum : NpSum flR where
  run := fun l => match l with
    | [] => 0
    | x :: l => l.foldl (fun acc x => flR (acc + x)) x
  sums := fun l => match l with
    | [] => .nil
    | x :: l => sumsTo_foldl flR l [x] x (by simp) (.one x)

theorem flR_add_cast (a b : ℚ) : flR ((a : ℝ) + b) = ((fl (a + b) : ℚ) : ℝ) := by
  rw [← Rat.cast_add, flR_cast]

theorem flR_mul_cast (a b : ℚ) : flR ((a : ℝ) * b) = ((fl (a * b) : ℚ) : ℝ) := by
  rw [← Rat.cast_mul, flR_cast]

theorem flR_sub_cast (a b : ℚ) : flR ((a : ℝ) - b) = ((fl (a - b) : ℚ) : ℝ) := by
  rw [← Rat.cast_sub, flR_cast]

theorem flR_divNat_cast (a : ℚ) (n : ℕ) : flR ((a : ℝ) / n) = ((fl (a / n) : ℚ) : ℝ) := by
  rw [← flR_cast]
  push_cast
  rfl

theorem three_nan (t : ℚ) (h : fl (fl (fl (fl (fl (t * t) + fl (t * t)) + fl (t * t)) / (3 : ℕ)) -
        fl (fl (fl (fl (t + t) + t) / (3 : ℕ)) * fl (fl (fl (t + t) + t) / (3 : ℕ)))) < 0) :
    calcStdD flR (flR (flR (flR ((t : ℝ) * t) + flR ((t : ℝ) * t)) + flR ((t : ℝ) * t)))
      (flR (flR ((t : ℝ) + t) + t)) 3 = none := by
  unfold calcStdD
  rw [if_neg (by norm_num)]
  simp only [flR_add_cast, flR_mul_cast, flR_sub_cast, flR_divNat_cast]
  rw [if_pos]
  exact_mod_cast h

theorem tenth_nan : (calcPairStatsD flR leftSum [![((fl (1 / 10) : ℚ) : ℝ), 0, 0, 0],
    ![((fl (1 / 10) : ℚ) : ℝ), 0, 0, 0], ![((fl (1 / 10) : ℚ) : ℝ), 0, 0, 0]]).dstd 0 = none :=
  three_nan (fl (1 / 10)) (by decide +kernel)

end MaterSDK
