import Verif.Model.EnvMatrixD
import Verif.Lemmas.CellListDPlane
import Verif.Lemmas.EnvMatrixUse
import Mathlib.Analysis.Calculus.MeanValue

/-! # Error bounds for the environment matrix in doubles: the weight -/

namespace MaterSDK

open Classical

/-! ## Without rounding -/

theorem envRowD_id (rcut rs : ℝ) (v : Vec ℝ) : envRowD id rcut rs v = cEnvRow rcut rs v := by
  unfold envRowD cEnvRow
  simp [smoothD, cSmooth, polyD, scaledD, recipD, cRecip, lengthD]

theorem switchD_id (rcut rs d : ℝ) : switchD id rcut rs d = cSwitch rcut rs d := by
  simp [switchD, cSwitch, polyD, scaledD]

theorem switchDerivD_id (rcut rs d : ℝ) : switchDerivD id rcut rs d = cSwitchDeriv rcut rs d := by
  simp [switchDerivD, cSwitchDeriv, dpolyD, scaledD]

theorem envDerivD_id (rcut rs : ℝ) (v : Vec ℝ) : envDerivD id rcut rs v = cEnvDeriv rcut rs v := by
  unfold envDerivD cEnvDeriv
  simp only [switchD_id, switchDerivD_id, derivD0, derivDD, derivDO, id]
  rfl

theorem envFindD_id (p : SlotIn) (rel : List ℝ) (rcut rs : ℝ) :
    envFindD id p rel rcut rs = envFind p rel rcut rs := by
  unfold envFindD envFind
  simp only [envRowD_id, envDerivD_id]

/-! ## Errors in units of `η` -/

/-- `y` is `z` up to `k` units of the relative error `η` on the scale `S`. -/
def NearE (η S k y z : ℝ) : Prop := |y - z| ≤ k * (η * S)

section

variable {η S S' k k' y y' z z' : ℝ}

theorem nearE_self : NearE η S 0 z z := by simp [NearE]

theorem NearE.add (h : NearE η S k y z) (h' : NearE η S' k y' z') : NearE η (S + S') k (y + y') (z + z') := by
  unfold NearE at *
  rw [abs_le] at *
  have e : k * (η * (S + S')) = k * (η * S) + k * (η * S') := by ring
  rw [e]
  constructor <;> linarith [h.1, h.2, h'.1, h'.2]

theorem NearE.neg (h : NearE η S k y z) : NearE η S k (-y) (-z) := by
  unfold NearE at *
  rw [abs_le] at *
  constructor <;> linarith [h.1, h.2]

theorem NearE.sub (h : NearE η S k y z) (h' : NearE η S' k y' z') : NearE η (S + S') k (y - y') (z - z') := by
  have := h.add h'.neg
  rwa [← sub_eq_add_neg, ← sub_eq_add_neg] at this

theorem NearE.mono (h : NearE η S k y z) (hη : 0 ≤ η) (hS : 0 ≤ S) (hk : k ≤ k') : NearE η S k' y z :=
  le_trans h (mul_le_mul_of_nonneg_right hk (mul_nonneg hη hS))

/-- The same error on another scale. -/
theorem NearE.rescale (h : NearE η S k y z) (hη : 0 ≤ η) (hk : k * S ≤ k' * S') : NearE η S' k' y z := by
  unfold NearE at *
  refine h.trans ?_
  calc k * (η * S) = η * (k * S) := by ring
    _ ≤ η * (k' * S') := mul_le_mul_of_nonneg_left hk hη
    _ = k' * (η * S') := by ring

theorem NearE.mul (h : NearE η S k y z) (h' : NearE η S' k' y' z') (hz : |z| ≤ S) (hz' : |z'| ≤ S')
    (hη : 0 ≤ η) {e : ℝ} (hk : 0 ≤ k) (he : k * k' * η ≤ e) :
    NearE η (S * S') (k + k' + e) (y * y') (z * z') := by
  have hS : 0 ≤ S := (abs_nonneg _).trans hz
  have hS' : 0 ≤ S' := (abs_nonneg _).trans hz'
  unfold NearE at *
  have e1 : y * y' - z * z' = (y - z) * (y' - z') + (y - z) * z' + z * (y' - z') := by ring
  rw [e1]
  have a1 : |(y - z) * (y' - z')| ≤ k * (η * S) * (k' * (η * S')) := by
    rw [abs_mul]; exact mul_le_mul h h' (abs_nonneg _) (by positivity)
  have a2 : |(y - z) * z'| ≤ k * (η * S) * S' := by
    rw [abs_mul]; exact mul_le_mul h hz' (abs_nonneg _) (by positivity)
  have a3 : |z * (y' - z')| ≤ S * (k' * (η * S')) := by
    rw [abs_mul]; exact mul_le_mul hz h' (abs_nonneg _) hS
  have a4 : k * (η * S) * (k' * (η * S')) ≤ e * (η * (S * S')) := by
    calc k * (η * S) * (k' * (η * S')) = k * k' * η * (η * (S * S')) := by ring
      _ ≤ e * (η * (S * S')) := mul_le_mul_of_nonneg_right he (by positivity)
  have t1 := abs_add_le ((y - z) * (y' - z') + (y - z) * z') (z * (y' - z'))
  have t2 := abs_add_le ((y - z) * (y' - z')) ((y - z) * z')
  have e2 : (k + k' + e) * (η * (S * S')) = e * (η * (S * S')) + k * (η * S) * S' + S * (k' * (η * S')) := by ring
  rw [e2]
  linarith

/-- Rounding a number that carries an error. -/
theorem NearE.round (h : NearE η S k y z) (hz : |z| ≤ S) {c : ℝ} (hu : uR * (1 + k * η) ≤ c * η) :
    NearE η S (k + c) (flR y) z := by
  have hS : 0 ≤ S := (abs_nonneg _).trans hz
  unfold NearE at *
  have h1 := flR_err y
  have h2 : |y| ≤ S + k * (η * S) := by
    have := abs_add_le (y - z) z
    simp only [sub_add_cancel] at this
    linarith
  have h3 : |y| * uR ≤ c * (η * S) := by
    calc |y| * uR ≤ (S + k * (η * S)) * uR := mul_le_mul_of_nonneg_right h2 uR_pos.le
      _ = uR * (1 + k * η) * S := by ring
      _ ≤ c * η * S := mul_le_mul_of_nonneg_right hu hS
      _ = c * (η * S) := by ring
  have h4 : |flR y - z| ≤ |flR y - y| + |y - z| := abs_sub_le _ _ _
  have e : (k + c) * (η * S) = c * (η * S) + k * (η * S) := by ring
  rw [e]
  linarith

end

/-- Rounding, the error measured in units of `uR`. -/
theorem NearE.roundU {S k y z : ℝ} (h : NearE uR S k y z) (hz : |z| ≤ S) (hk : k ≤ 1000) :
    NearE uR S (k + 11 / 10) (flR y) z := by
  refine h.round hz ?_
  have hu := uR_pos
  have : k * uR ≤ 1 / 10 := by
    calc k * uR ≤ 1000 * uR := mul_le_mul_of_nonneg_right hk hu.le
      _ ≤ 1 / 10 := by rw [uR_eq]; norm_num
  nlinarith

theorem NearE.mulU {S S' k k' y y' z z' : ℝ} (h : NearE uR S k y z) (h' : NearE uR S' k' y' z') (hz : |z| ≤ S)
    (hz' : |z'| ≤ S') (hk : 0 ≤ k) (hk' : 0 ≤ k') (hb : k ≤ 1000) (hb' : k' ≤ 1000) :
    NearE uR (S * S') (k + k' + 1 / 10) (y * y') (z * z') := by
  refine h.mul h' hz hz' uR_pos.le hk ?_
  have : k * k' ≤ 1000 * 1000 := mul_le_mul hb hb' hk' (by norm_num)
  calc k * k' * uR ≤ 1000 * 1000 * uR := mul_le_mul_of_nonneg_right this uR_pos.le
    _ ≤ 1 / 10 := by rw [uR_eq]; norm_num

/-- Multiplication by an exact constant. -/
theorem NearE.const {η S k y z : ℝ} (h : NearE η S k y z) (c : ℝ) :
    NearE η (|c| * S) k (c * y) (c * z) := by
  unfold NearE at *
  rw [← mul_sub, abs_mul]
  calc |c| * |y - z| ≤ |c| * (k * (η * S)) := mul_le_mul_of_nonneg_left h (abs_nonneg _)
    _ = k * (η * (|c| * S)) := by ring

theorem nearE_roundU {S z : ℝ} (hz : |z| ≤ S) : NearE uR S (11 / 10) (flR z) z := by
  have := (nearE_self (η := uR) (S := S) (z := z)).roundU hz (by norm_num)
  simpa using this

/-! ## The polynomials -/

theorem pow_unit {w : ℝ} (h0 : 0 ≤ w) (h1 : w ≤ 1) (n : ℕ) : |w ^ n| ≤ 1 := by
  rw [abs_of_nonneg (pow_nonneg h0 n)]
  exact pow_le_one₀ h0 h1

theorem near_polyD {w : ℝ} (h0 : 0 ≤ w) (h1 : w ≤ 1) : NearE uR 1 77 (polyD flR w) (switchPoly w) := by
  have hu := uR_pos.le
  have hw2 : w ^ 2 ≤ 1 := by nlinarith
  have hw20 : 0 ≤ w ^ 2 := sq_nonneg w
  have hw3 : w ^ 3 ≤ 1 := pow_le_one₀ h0 h1
  have hw30 : 0 ≤ w ^ 3 := pow_nonneg h0 3
  have a2 := nearE_roundU (pow_unit h0 h1 2)
  have a3 := nearE_roundU (pow_unit h0 h1 3)
  have b1 : NearE uR 6 (22 / 10) (flR (-6 * flR (w ^ 2))) (-6 * w ^ 2) := by
    have := a2.const (-6)
    have e : |(-6 : ℝ)| * 1 = 6 := by norm_num
    rw [e] at this
    have := this.roundU (abs_le.2 ⟨by linarith, by linarith⟩) (by norm_num)
    exact this.mono hu (by norm_num) (by norm_num)
  have b2 : NearE uR 15 (11 / 10) (flR (15 * w)) (15 * w) :=
    nearE_roundU (abs_le.2 ⟨by linarith, by linarith⟩)
  have b3 : NearE uR 9 (45 / 10) (flR (flR (-6 * flR (w ^ 2)) + flR (15 * w))) (-6 * w ^ 2 + 15 * w) := by
    have x2 := (b1.rescale (k' := 1) (S' := 132 / 10) hu (by norm_num)).add
      (b2.rescale (k' := 1) (S' := 165 / 10) hu (by norm_num))
    have x3 := x2.rescale (k' := 33 / 10) (S' := 9) hu (by norm_num)
    have := x3.roundU (abs_le.2 ⟨by nlinarith, by nlinarith⟩) (by norm_num)
    exact this.mono hu (by norm_num) (by norm_num)
  have b4 : NearE uR 10 (52 / 10) (flR (flR (flR (-6 * flR (w ^ 2)) + flR (15 * w)) - 10))
      (-6 * w ^ 2 + 15 * w - 10) := by
    have x1 := b3.sub ((nearE_self (η := uR) (S := 0) (z := 10)).mono (k' := 45 / 10) hu le_rfl (by norm_num))
    have x2 := x1.rescale (k' := 405 / 100) (S' := 10) hu (by norm_num)
    have := x2.roundU (abs_le.2 ⟨by nlinarith, by nlinarith⟩) (by norm_num)
    exact this.mono hu (by norm_num) (by norm_num)
  have hin : |-6 * w ^ 2 + 15 * w - 10| ≤ 10 := abs_le.2 ⟨by nlinarith, by nlinarith⟩
  have b5 := a3.mulU b4 (pow_unit h0 h1 3) hin (by norm_num) (by norm_num) (by norm_num) (by norm_num)
  have hp : |w ^ 3 * (-6 * w ^ 2 + 15 * w - 10)| ≤ 1 * 10 := by
    rw [abs_mul]; exact mul_le_mul (pow_unit h0 h1 3) hin (abs_nonneg _) (by norm_num)
  have b6 := b5.roundU hp (by norm_num)
  have hs0 : 0 ≤ switchPoly w := by
    rw [← switchPoly_one]; exact switchPoly_antitone h1
  have hs1 : switchPoly w ≤ 1 := by
    rw [← switchPoly_zero]; exact switchPoly_antitone h0
  have b7 := (b6.add ((nearE_self (η := uR) (S := 0) (z := 1)).mono
    (k' := 11 / 10 + 52 / 10 + 1 / 10 + 11 / 10) hu le_rfl (by norm_num))).rescale (k' := 75) (S' := 1) hu (by norm_num)
  have b8 := b7.roundU (z := w ^ 3 * (-6 * w ^ 2 + 15 * w - 10) + 1)
    (abs_le.2 ⟨by unfold switchPoly at hs0; linarith, by unfold switchPoly at hs1; linarith⟩) (by norm_num)
  exact b8.mono hu (by norm_num) (by norm_num)

/-- The polynomial of the derivative. -/
def dpoly (w : ℝ) : ℝ := -30 * w ^ 4 + 60 * w ^ 3 - 30 * w ^ 2

theorem dpoly_sq (w : ℝ) : dpoly w = -30 * (w * (1 - w)) ^ 2 := by unfold dpoly; ring

theorem dpoly_abs {w : ℝ} (h0 : 0 ≤ w) (h1 : w ≤ 1) : |dpoly w| ≤ 2 := by
  rw [dpoly_sq]
  have a : 0 ≤ w * (1 - w) := mul_nonneg h0 (by linarith)
  have b : w * (1 - w) ≤ 1 / 4 := by nlinarith [sq_nonneg (w - 1 / 2)]
  exact abs_le.2 ⟨by nlinarith, by nlinarith⟩

theorem dpoly_lip {a b : ℝ} (ha : 0 ≤ a) (ha' : a ≤ 1) (hb : 0 ≤ b) (hb' : b ≤ 1) :
    |dpoly a - dpoly b| ≤ 15 * |a - b| := by
  have e : dpoly a - dpoly b = (a - b) * (-30 * ((1 - a - b) * (a * (1 - a) + b * (1 - b)))) := by
    unfold dpoly; ring
  rw [e, abs_mul, mul_comm 15]
  refine mul_le_mul_of_nonneg_left ?_ (abs_nonneg _)
  rw [abs_mul, abs_mul]
  have h1 : |1 - a - b| ≤ 1 := abs_le.2 ⟨by linarith, by linarith⟩
  have h2 : |a * (1 - a) + b * (1 - b)| ≤ 1 / 2 := by
    refine abs_le.2 ⟨?_, ?_⟩
    · have := mul_nonneg ha (by linarith : 0 ≤ 1 - a)
      have := mul_nonneg hb (by linarith : 0 ≤ 1 - b)
      linarith
    · nlinarith [sq_nonneg (a - 1 / 2), sq_nonneg (b - 1 / 2)]
  have h3 : |1 - a - b| * |a * (1 - a) + b * (1 - b)| ≤ 1 * (1 / 2) := mul_le_mul h1 h2 (abs_nonneg _) (by norm_num)
  have h4 : |(-30 : ℝ)| = 30 := by norm_num
  rw [h4]
  linarith

theorem near_dpolyD {w : ℝ} (h0 : 0 ≤ w) (h1 : w ≤ 1) : NearE uR 1 340 (dpolyD flR w) (dpoly w) := by
  have hu := uR_pos.le
  have p2 := pow_unit h0 h1 2
  have p3 := pow_unit h0 h1 3
  have p4 := pow_unit h0 h1 4
  have q2 := pow_nonneg h0 2
  have q3 := pow_nonneg h0 3
  have q4 := pow_nonneg h0 4
  rw [abs_of_nonneg q2] at p2
  rw [abs_of_nonneg q3] at p3
  rw [abs_of_nonneg q4] at p4
  have h43 : w ^ 4 ≤ w ^ 3 := by
    have : w ^ 4 = w ^ 3 * w := by ring
    rw [this]; exact mul_le_of_le_one_right q3 h1
  have a2 := nearE_roundU (pow_unit h0 h1 2)
  have a3 := nearE_roundU (pow_unit h0 h1 3)
  have a4 := nearE_roundU (pow_unit h0 h1 4)
  have b4 : NearE uR 30 (22 / 10) (flR (-30 * flR (w ^ 4))) (-30 * w ^ 4) := by
    have := a4.const (-30)
    have e : |(-30 : ℝ)| * 1 = 30 := by norm_num
    rw [e] at this
    have := this.roundU (abs_le.2 ⟨by linarith, by linarith⟩) (by norm_num)
    exact this.mono hu (by norm_num) (by norm_num)
  have b3 : NearE uR 60 (22 / 10) (flR (60 * flR (w ^ 3))) (60 * w ^ 3) := by
    have := a3.const 60
    have e : |(60 : ℝ)| * 1 = 60 := by norm_num
    rw [e] at this
    have := this.roundU (abs_le.2 ⟨by linarith, by linarith⟩) (by norm_num)
    exact this.mono hu (by norm_num) (by norm_num)
  have b2 : NearE uR 30 (22 / 10) (flR (30 * flR (w ^ 2))) (30 * w ^ 2) := by
    have := a2.const 30
    have e : |(30 : ℝ)| * 1 = 30 := by norm_num
    rw [e] at this
    have := this.roundU (abs_le.2 ⟨by linarith, by linarith⟩) (by norm_num)
    exact this.mono hu (by norm_num) (by norm_num)
  have b5 : NearE uR 60 (44 / 10) (flR (flR (-30 * flR (w ^ 4)) + flR (60 * flR (w ^ 3)))) (-30 * w ^ 4 + 60 * w ^ 3) := by
    have := ((b4.add b3).rescale (k' := 33 / 10) (S' := 60) hu (by norm_num)).roundU
      (abs_le.2 ⟨by linarith, by linarith⟩) (by norm_num)
    exact this.mono hu (by norm_num) (by norm_num)
  have b6 := ((b5.rescale (k' := 1) (S' := 264) hu (by norm_num)).sub
    (b2.rescale (k' := 1) (S' := 66) hu (by norm_num)))
  have := dpoly_abs h0 h1
  have b7 := (b6.rescale (k' := 165) (S' := 2) hu (by norm_num)).roundU
    (z := -30 * w ^ 4 + 60 * w ^ 3 - 30 * w ^ 2) (by unfold dpoly at this; exact this) (by norm_num)
  exact b7.rescale hu (by norm_num)

/-! ## The switch -/

theorem flR_rel (x : ℝ) : ∃ δ, |δ| ≤ uR ∧ flR x = x * (1 + δ) := by
  by_cases h : x = 0
  · exact ⟨0, by rw [abs_zero]; exact uR_pos.le, by rw [h, flR_zero, zero_mul]⟩
  · refine ⟨(flR x - x) / x, ?_, by field_simp; ring⟩
    rw [abs_div, div_le_iff₀ (abs_pos.2 h), mul_comm]
    exact flR_err x

/-- The scaled distance. -/
theorem near_scaledD {rcut rs d : ℝ} (h : rs < rcut) (h1 : rs ≤ d) (h2 : d ≤ rcut) :
    0 ≤ scaledD flR rcut rs d ∧ scaledD flR rcut rs d ≤ 1 ∧
      NearE uR 1 4 (scaledD flR rcut rs d) ((d - rs) / (rcut - rs)) := by
  have hu := uR_pos
  have hus : uR ≤ 1 / 1000 := by rw [uR_eq]; norm_num
  have hp : 0 < rcut - rs := sub_pos.2 h
  have hn : 0 ≤ d - rs := sub_nonneg.2 h1
  have hle : flR (d - rs) ≤ flR (rcut - rs) := flR_mono (by linarith)
  have hpos : 0 < flR (rcut - rs) := flR_pos hp
  have hq1 : flR (d - rs) / flR (rcut - rs) ≤ 1 := (div_le_one hpos).2 hle
  refine ⟨flR_nonneg (div_nonneg (flR_nonneg hn) hpos.le), ?_, ?_⟩
  · have := flR_mono hq1
    have e : flR 1 = 1 := by simpa using flR_int 1 (by norm_num)
    rwa [e] at this
  · obtain ⟨a, ha, ea⟩ := flR_rel (d - rs)
    obtain ⟨b, hb, eb⟩ := flR_rel (rcut - rs)
    rw [abs_le] at ha hb
    set x := (d - rs) / (rcut - rs) with hx
    have hx0 : 0 ≤ x := div_nonneg hn hp.le
    have hx1 : x ≤ 1 := (div_le_one hp).2 (by linarith)
    have hb1 : 0 < 1 + b := by linarith
    have e : flR (d - rs) / flR (rcut - rs) - x = x * ((a - b) / (1 + b)) := by
      rw [ea, eb, hx]
      field_simp
      ring
    have h3 : NearE uR 1 (5 / 2) (flR (d - rs) / flR (rcut - rs)) x := by
      unfold NearE
      rw [e, abs_mul, abs_of_nonneg hx0, abs_div, abs_of_pos hb1]
      have h4 : |a - b| / (1 + b) ≤ 5 / 2 * (uR * 1) := by
        rw [div_le_iff₀ hb1]
        have : |a - b| ≤ 2 * uR := abs_le.2 ⟨by linarith, by linarith⟩
        nlinarith
      have h5 : 0 ≤ |a - b| / (1 + b) := div_nonneg (abs_nonneg _) hb1.le
      calc x * (|a - b| / (1 + b)) ≤ 1 * (|a - b| / (1 + b)) := mul_le_mul_of_nonneg_right hx1 h5
        _ ≤ _ := by rw [one_mul]; exact h4
    have := h3.roundU (by rw [abs_of_nonneg hx0]; exact hx1) (by norm_num)
    exact this.mono hu.le (by norm_num) (by norm_num)

theorem switchPoly_lip {a b : ℝ} (ha : 0 ≤ a) (ha' : a ≤ 1) (hb : 0 ≤ b) (hb' : b ≤ 1) :
    |switchPoly a - switchPoly b| ≤ 2 * |a - b| := by
  have := Convex.norm_image_sub_le_of_norm_hasDerivWithin_le (f := switchPoly) (f' := dSwitch)
    (s := Set.Icc 0 1) (C := 2) (x := b) (y := a)
    (fun x _ => (hasDerivAt_switchPoly x).hasDerivWithinAt)
    (fun x hx => by
      have e : dSwitch x = dpoly x := by rw [dSwitch_eq, dpoly_sq]; ring
      rw [Real.norm_eq_abs, e]
      exact dpoly_abs hx.1 hx.2)
    (convex_Icc 0 1) ⟨hb, hb'⟩ ⟨ha, ha'⟩
  simpa using this

theorem cSwitchDeriv_abs {rcut rs : ℝ} (h : rs < rcut) (d : ℝ) : |cSwitchDeriv rcut rs d| ≤ 2 / (rcut - rs) := by
  have hp : 0 < rcut - rs := sub_pos.2 h
  have h0 : 0 ≤ 2 / (rcut - rs) := by positivity
  unfold cSwitchDeriv
  simp only
  split_ifs with h1 h2
  · simpa using h0
  · have := dpoly_abs (w := (d - rs) / (rcut - rs)) (div_nonneg (sub_nonneg.2 h2.1) hp.le)
      ((div_le_one hp).2 (by linarith [h2.2]))
    unfold dpoly at this
    rw [abs_mul, abs_of_pos (by positivity : 0 < 1 / (rcut - rs))]
    calc 1 / (rcut - rs) * _ ≤ 1 / (rcut - rs) * 2 := mul_le_mul_of_nonneg_left this (by positivity)
      _ = 2 / (rcut - rs) := by ring
  · simpa using h0

theorem cSwitch_range {rcut rs : ℝ} (h : rs < rcut) (d : ℝ) : 0 ≤ cSwitch rcut rs d ∧ cSwitch rcut rs d ≤ 1 := by
  have hp : 0 < rcut - rs := sub_pos.2 h
  by_cases h1 : d < rs
  · rw [cSwitch_lo h1]; norm_num
  · by_cases h2 : d < rcut
    · have h1 := not_lt.1 h1
      rw [cSwitch_mid h1 h2]
      have a : 0 ≤ (d - rs) / (rcut - rs) := div_nonneg (sub_nonneg.2 h1) hp.le
      have b : (d - rs) / (rcut - rs) ≤ 1 := (div_le_one hp).2 (by linarith)
      exact ⟨by rw [← switchPoly_one]; exact switchPoly_antitone b,
        by rw [← switchPoly_zero]; exact switchPoly_antitone a⟩
    · rw [cSwitch_hi h (not_lt.1 h2)]; norm_num

theorem cSwitch_lip {rcut rs : ℝ} (h : rs < rcut) (a b : ℝ) :
    |cSwitch rcut rs a - cSwitch rcut rs b| ≤ 2 / (rcut - rs) * |a - b| := by
  have := Convex.norm_image_sub_le_of_norm_hasDerivWithin_le (f := cSwitch rcut rs)
    (f' := cSwitchDeriv rcut rs) (s := Set.univ) (C := 2 / (rcut - rs)) (x := b) (y := a)
    (fun x _ => (hasDerivAt_cSwitch h x).hasDerivWithinAt)
    (fun x _ => cSwitchDeriv_abs h x) convex_univ trivial trivial
  simpa using this

/-- The scaled distance, kept between 0 and 1. -/
noncomputable def clamp01 (x : ℝ) : ℝ := max 0 (min 1 x)

theorem clamp01_mem (x : ℝ) : 0 ≤ clamp01 x ∧ clamp01 x ≤ 1 :=
  ⟨le_max_left _ _, max_le (by norm_num) (min_le_left _ _)⟩

theorem clamp01_lip (a b : ℝ) : |clamp01 a - clamp01 b| ≤ |a - b| := by
  unfold clamp01
  rw [max_comm 0 (min 1 a), max_comm 0 (min 1 b)]
  refine (abs_max_sub_max_le_abs _ _ _).trans ?_
  rw [min_comm 1 a, min_comm 1 b]
  have := abs_min_sub_min_le_max a 1 b 1
  simpa using this

theorem cSwitchDeriv_clamp {rcut rs : ℝ} (h : rs < rcut) (d : ℝ) :
    cSwitchDeriv rcut rs d = 1 / (rcut - rs) * dpoly (clamp01 ((d - rs) / (rcut - rs))) := by
  have hp : 0 < rcut - rs := sub_pos.2 h
  unfold cSwitchDeriv
  simp only
  split_ifs with h1 h2
  · have : (d - rs) / (rcut - rs) ≤ 0 := div_nonpos_of_nonpos_of_nonneg (by linarith) hp.le
    have e : clamp01 ((d - rs) / (rcut - rs)) = 0 := by
      unfold clamp01; rw [min_eq_right (by linarith), max_eq_left this]
    rw [e]; simp [dpoly]
  · have a : 0 ≤ (d - rs) / (rcut - rs) := div_nonneg (sub_nonneg.2 h2.1) hp.le
    have b : (d - rs) / (rcut - rs) ≤ 1 := (div_le_one hp).2 (by linarith [h2.2])
    have e : clamp01 ((d - rs) / (rcut - rs)) = (d - rs) / (rcut - rs) := by
      unfold clamp01; rw [min_eq_right b, max_eq_right a]
    rw [e]; rfl
  · have h3 : rcut ≤ d := by
      by_contra hc
      exact h2 ⟨not_lt.1 h1, not_le.1 hc⟩
    have b : 1 ≤ (d - rs) / (rcut - rs) := (one_le_div hp).2 (by linarith)
    have e : clamp01 ((d - rs) / (rcut - rs)) = 1 := by
      unfold clamp01; rw [min_eq_left b, max_eq_right (by norm_num)]
    rw [e]; norm_num [dpoly]

theorem cSwitchDeriv_lip {rcut rs : ℝ} (h : rs < rcut) (a b : ℝ) :
    |cSwitchDeriv rcut rs a - cSwitchDeriv rcut rs b| ≤ 15 / (rcut - rs) ^ 2 * |a - b| := by
  have hp : 0 < rcut - rs := sub_pos.2 h
  rw [cSwitchDeriv_clamp h, cSwitchDeriv_clamp h, ← mul_sub, abs_mul, abs_of_pos (by positivity : 0 < 1 / (rcut - rs))]
  have m1 := clamp01_mem ((a - rs) / (rcut - rs))
  have m2 := clamp01_mem ((b - rs) / (rcut - rs))
  have h1 := dpoly_lip m1.1 m1.2 m2.1 m2.2
  have h2 := clamp01_lip ((a - rs) / (rcut - rs)) ((b - rs) / (rcut - rs))
  have e : (a - rs) / (rcut - rs) - (b - rs) / (rcut - rs) = (a - b) / (rcut - rs) := by ring
  rw [e, abs_div, abs_of_pos hp] at h2
  have h3 : |dpoly (clamp01 ((a - rs) / (rcut - rs))) - dpoly (clamp01 ((b - rs) / (rcut - rs)))|
      ≤ 15 * (|a - b| / (rcut - rs)) := by linarith
  calc 1 / (rcut - rs) * _ ≤ 1 / (rcut - rs) * (15 * (|a - b| / (rcut - rs))) :=
        mul_le_mul_of_nonneg_left h3 (by positivity)
    _ = 15 / (rcut - rs) ^ 2 * |a - b| := by field_simp

/-- The rounded switch. -/
theorem near_polyScaled {rcut rs d : ℝ} (h : rs < rcut) (h1 : rs ≤ d) (h2 : d < rcut) :
    NearE uR 1 85 (polyD flR (scaledD flR rcut rs d)) (switchPoly ((d - rs) / (rcut - rs))) := by
  have hp : 0 < rcut - rs := sub_pos.2 h
  obtain ⟨a, b, c⟩ := near_scaledD h h1 h2.le
  have h3 := near_polyD a b
  have h4 := switchPoly_lip a b (div_nonneg (sub_nonneg.2 h1) hp.le) ((div_le_one hp).2 (by linarith))
  unfold NearE at *
  have := abs_sub_le (polyD flR (scaledD flR rcut rs d)) (switchPoly (scaledD flR rcut rs d))
    (switchPoly ((d - rs) / (rcut - rs)))
  linarith

theorem near_switchD {rcut rs : ℝ} (h : rs < rcut) (d : ℝ) :
    NearE uR 1 85 (switchD flR rcut rs d) (cSwitch rcut rs d) := by
  have h0 : ∀ z, NearE uR 1 85 z z := fun z => nearE_self.mono uR_pos.le (by norm_num) (by norm_num)
  by_cases h1 : d < rs
  · rw [cSwitch_lo h1, switchD, if_pos h1]; exact h0 1
  · by_cases h2 : d < rcut
    · rw [cSwitch_mid (not_lt.1 h1) h2, switchD, if_neg h1, if_pos ⟨not_lt.1 h1, h2⟩]
      exact near_polyScaled h (not_lt.1 h1) h2
    · rw [cSwitch_hi h (not_lt.1 h2), switchD, if_neg h1, if_neg (fun hc => h2 hc.2)]; exact h0 0

/-- The rounded derivative of the switch. -/
theorem near_switchDerivD {rcut rs : ℝ} (h : rs < rcut) (d : ℝ) :
    NearE uR (2 / (rcut - rs)) 210 (switchDerivD flR rcut rs d) (cSwitchDeriv rcut rs d) := by
  have hu := uR_pos
  have hus : uR ≤ 1 / 1000 := by rw [uR_eq]; norm_num
  have hp : 0 < rcut - rs := sub_pos.2 h
  have h0 : NearE uR (2 / (rcut - rs)) 210 0 0 := nearE_self.mono hu.le (by positivity) (by norm_num)
  by_cases h1 : d < rs
  · rw [cSwitchDeriv, switchDerivD]; rw [if_pos h1, if_pos h1]; exact h0
  · by_cases h2 : d < rcut
    · have h1 := not_lt.1 h1
      rw [cSwitchDeriv, switchDerivD]
      rw [if_neg (not_lt.2 h1), if_neg (not_lt.2 h1), if_pos ⟨h1, h2⟩, if_pos ⟨h1, h2⟩]
      obtain ⟨a, b, c⟩ := near_scaledD h h1 h2.le
      set x := (d - rs) / (rcut - rs) with hx
      have hx0 : 0 ≤ x := div_nonneg (sub_nonneg.2 h1) hp.le
      have hx1 : x ≤ 1 := (div_le_one hp).2 (by linarith)
      have p1 : NearE uR 2 200 (dpolyD flR (scaledD flR rcut rs d)) (dpoly x) := by
        have h3 := near_dpolyD a b
        have h4 := dpoly_lip a b hx0 hx1
        unfold NearE at *
        have := abs_sub_le (dpolyD flR (scaledD flR rcut rs d)) (dpoly (scaledD flR rcut rs d)) (dpoly x)
        linarith
      have p2 : NearE uR (1 / (rcut - rs)) 3 (flR (1 / flR (rcut - rs))) (1 / (rcut - rs)) := by
        obtain ⟨e, he, ee⟩ := flR_rel (rcut - rs)
        rw [abs_le] at he
        have hb1 : 0 < 1 + e := by linarith
        have q1 : NearE uR (1 / (rcut - rs)) (3 / 2) (1 / flR (rcut - rs)) (1 / (rcut - rs)) := by
          unfold NearE
          have e1 : 1 / flR (rcut - rs) - 1 / (rcut - rs) = 1 / (rcut - rs) * (-e / (1 + e)) := by
            rw [ee]; field_simp; ring
          rw [e1, abs_mul, abs_of_pos (by positivity : 0 < 1 / (rcut - rs)), abs_div, abs_of_pos hb1]
          have : |-e| / (1 + e) ≤ 3 / 2 * uR := by
            rw [div_le_iff₀ hb1]
            have : |-e| ≤ uR := abs_le.2 ⟨by linarith, by linarith⟩
            nlinarith
          calc 1 / (rcut - rs) * (|-e| / (1 + e)) ≤ 1 / (rcut - rs) * (3 / 2 * uR) :=
                mul_le_mul_of_nonneg_left this (by positivity)
            _ = _ := by ring
        have := q1.roundU (abs_of_pos (by positivity : 0 < 1 / (rcut - rs))).le (by norm_num)
        exact this.mono hu.le (by positivity) (by norm_num)
      have hd := dpoly_abs hx0 hx1
      have p3 := p2.mulU p1 (abs_of_pos (by positivity : 0 < 1 / (rcut - rs))).le hd (by norm_num)
        (by norm_num) (by norm_num) (by norm_num)
      have p4 := p3.roundU (by
        rw [abs_mul, abs_of_pos (by positivity : 0 < 1 / (rcut - rs))]
        exact mul_le_mul_of_nonneg_left hd (by positivity)) (by norm_num)
      have e : 1 / (rcut - rs) * 2 = 2 / (rcut - rs) := by ring
      rw [e] at p4
      exact p4.mono hu.le (by positivity) (by norm_num)
    · rw [cSwitchDeriv, switchDerivD]
      rw [if_neg h1, if_neg h1, if_neg (fun hc => h2 hc.2), if_neg (fun hc => h2 hc.2)]; exact h0

/-- The rounded weight. -/
theorem near_smoothD {rcut rs d : ℝ} (h : rs < rcut) (hd : 0 < d) :
    NearE uR (1 / d) 90 (smoothD flR rcut rs d) (d⁻¹ * cSwitch rcut rs d) := by
  have hu := uR_pos
  have hd' : 0 < 1 / d := by positivity
  have r := nearE_roundU (abs_of_pos hd').le
  have e : (if d = 0 then (0 : ℝ) else flR (1 / d)) = flR (1 / d) := if_neg hd.ne'
  unfold smoothD
  simp only [e]
  by_cases h1 : d < rs
  · rw [cSwitch_lo h1, if_pos h1, mul_one, ← one_div]
    exact r.mono hu.le hd'.le (by norm_num)
  · by_cases h2 : d < rcut
    · have hr := cSwitch_range h d
      rw [cSwitch_mid (not_lt.1 h1) h2] at hr ⊢
      rw [if_neg h1, if_pos ⟨not_lt.1 h1, h2⟩, ← one_div]
      have hs : |switchPoly ((d - rs) / (rcut - rs))| ≤ 1 := abs_le.2 ⟨by linarith [hr.1], hr.2⟩
      have m := r.mulU (near_polyScaled h (not_lt.1 h1) h2) (abs_of_pos hd').le hs (by norm_num) (by norm_num)
        (by norm_num) (by norm_num)
      have := m.roundU (by rw [abs_mul, abs_of_pos hd']; exact mul_le_mul_of_nonneg_left hs hd'.le) (by norm_num)
      rw [mul_one] at this
      exact this.mono hu.le hd'.le (by norm_num)
    · rw [cSwitch_hi h (not_lt.1 h2), if_neg h1, if_neg (fun hc => h2 hc.2), mul_zero]
      exact nearE_self.mono hu.le hd'.le (by norm_num)

end MaterSDK
