import Verif.Spec.DeepMD
import Verif.Lemmas.NeighAux
import Mathlib.Analysis.Calculus.Deriv.Pow
import Mathlib.Analysis.Calculus.Deriv.MeanValue
import Mathlib.Analysis.Calculus.Deriv.Inv
import Mathlib.Analysis.SpecialFunctions.Sqrt
import Mathlib.Analysis.Calculus.FDeriv.Pi
import Mathlib.Topology.Algebra.Module.FiniteDimension
import Mathlib.Tactic.Linarith
import Mathlib.Tactic.Ring
import Mathlib.Tactic.FieldSimp

/-! # Analysis of the smooth weight -/

set_option linter.unusedSectionVars false

namespace MaterSDK

open Classical Topology

/-- Derivative of the switch polynomial as the code writes it. -/
noncomputable def dSwitch (u : ℝ) : ℝ :=
  3 * u ^ 2 * (-6 * u ^ 2 + 15 * u - 10) + u ^ 3 * (-12 * u + 15)

theorem dSwitch_eq (u : ℝ) : dSwitch u = -30 * (u * (u - 1)) ^ 2 := by unfold dSwitch; ring

theorem hasDerivAt_switchPoly (u : ℝ) : HasDerivAt switchPoly (dSwitch u) u := by
  have h1 : HasDerivAt (fun x : ℝ => x ^ 3) (3 * u ^ 2) u := by simpa using hasDerivAt_pow 3 u
  have h2 : HasDerivAt (fun x : ℝ => x ^ 2) (2 * u) u := by simpa using hasDerivAt_pow 2 u
  have h3 : HasDerivAt (fun x : ℝ => -6 * x ^ 2 + 15 * x - 10) (-6 * (2 * u) + 15 * 1) u :=
    ((h2.const_mul (-6)).add ((hasDerivAt_id u).const_mul 15)).sub_const 10
  have h4 := (h1.mul h3).add_const (1 : ℝ)
  have e : dSwitch u = 3 * u ^ 2 * (-6 * u ^ 2 + 15 * u - 10) + u ^ 3 * (-6 * (2 * u) + 15 * 1) := by
    unfold dSwitch; ring
  rw [e]
  exact h4

theorem switchPoly_antitone : Antitone switchPoly := by
  apply antitone_of_deriv_nonpos
  · exact fun u => (hasDerivAt_switchPoly u).differentiableAt
  · intro u
    rw [(hasDerivAt_switchPoly u).deriv, dSwitch_eq]
    nlinarith [sq_nonneg (u * (u - 1))]

theorem switchPoly_zero : switchPoly 0 = 1 := by norm_num [switchPoly]
theorem switchPoly_one : switchPoly 1 = 0 := by norm_num [switchPoly]

theorem switchPoly_pos {u : ℝ} (h : u < 1) : 0 < switchPoly u := by
  have e : switchPoly u = (1 - u) ^ 3 * (6 * u ^ 2 + 3 * u + 1) := by unfold switchPoly; ring
  rw [e]
  have h1 : 0 < (1 - u) ^ 3 := pow_pos (by linarith) 3
  have h2 : 0 < 6 * u ^ 2 + 3 * u + 1 := by nlinarith [sq_nonneg (u + 1 / 4)]
  exact mul_pos h1 h2

/-- The switch with its argument clamped from below. -/
noncomputable def clampSwitch (u : ℝ) : ℝ := switchPoly (max 0 u)

theorem clampSwitch_antitone : Antitone clampSwitch := fun _ _ h =>
  switchPoly_antitone (max_le_max le_rfl h)

theorem clampSwitch_le_one (u : ℝ) : clampSwitch u ≤ 1 := by
  rw [← switchPoly_zero]
  exact switchPoly_antitone (le_max_left _ _)

theorem clampSwitch_pos {u : ℝ} (h : u < 1) : 0 < clampSwitch u :=
  switchPoly_pos (max_lt one_pos h)

theorem clampSwitch_of_nonpos {u : ℝ} (h : u ≤ 0) : clampSwitch u = 1 := by
  rw [clampSwitch, max_eq_left h, switchPoly_zero]

theorem clampSwitch_of_nonneg {u : ℝ} (h : 0 ≤ u) : clampSwitch u = switchPoly u := by
  rw [clampSwitch, max_eq_right h]

theorem hasDerivAt_clampSwitch (u : ℝ) :
    HasDerivAt clampSwitch (if u < 0 then 0 else dSwitch u) u := by
  rcases lt_trichotomy u 0 with h | h | h
  · rw [if_pos h]
    refine (hasDerivAt_const u (1 : ℝ)).congr_of_eventuallyEq ?_
    filter_upwards [Iio_mem_nhds h] with x hx
    exact clampSwitch_of_nonpos (le_of_lt hx)
  · subst h
    rw [if_neg (lt_irrefl _)]
    have h0 : dSwitch 0 = 0 := by rw [dSwitch_eq]; ring
    have l : HasDerivWithinAt clampSwitch (dSwitch 0) (Set.Iic 0) 0 := by
      rw [h0]
      refine (hasDerivWithinAt_const (0 : ℝ) _ (1 : ℝ)).congr ?_ ?_
      · intro x hx; exact clampSwitch_of_nonpos hx
      · exact clampSwitch_of_nonpos le_rfl
    have r : HasDerivWithinAt clampSwitch (dSwitch 0) (Set.Ici 0) 0 := by
      refine (hasDerivAt_switchPoly 0).hasDerivWithinAt.congr ?_ ?_
      · intro x hx; exact clampSwitch_of_nonneg hx
      · exact clampSwitch_of_nonneg le_rfl
    have := l.union r
    rw [Set.Iic_union_Ici] at this
    exact this.hasDerivAt Filter.univ_mem
  · rw [if_neg (not_lt.2 h.le)]
    refine (hasDerivAt_switchPoly u).congr_of_eventuallyEq ?_
    filter_upwards [Ioi_mem_nhds h] with x hx
    exact clampSwitch_of_nonneg (le_of_lt hx)

theorem recip_eq (d : ℝ) : recip d = d⁻¹ := by
  unfold recip
  split
  · rename_i h; rw [h, inv_zero]
  · exact one_div d

theorem getS_eq {rcut rs d : ℝ} (h : rs < rcut) (hd : d < rcut) :
    getS rcut rs d = d⁻¹ * clampSwitch ((d - rs) / (rcut - rs)) := by
  have hp : 0 < rcut - rs := sub_pos.2 h
  unfold getS
  simp only
  rw [recip_eq]
  split
  · rename_i hc
    rw [clampSwitch_of_nonneg (div_nonneg (by linarith [hc.1]) hp.le)]
  · rename_i hc
    have : d ≤ rs := by
      by_contra h'
      exact hc ⟨not_le.1 h', hd⟩
    rw [clampSwitch_of_nonpos (div_nonpos_of_nonpos_of_nonneg (by linarith) hp.le), mul_one]

theorem frac_lt_one {rcut rs d : ℝ} (h : rs < rcut) (hd : d < rcut) : (d - rs) / (rcut - rs) < 1 := by
  rw [div_lt_one (sub_pos.2 h)]; linarith

theorem getS_smoothWeight {rcut rs d : ℝ} (h : rs < rcut) (hd : d < rcut) :
    getS rcut rs d = smoothWeight rcut rs d := by
  have hp : 0 < rcut - rs := sub_pos.2 h
  rw [getS_eq h hd, smoothWeight]
  split
  · rename_i hc
    rw [clampSwitch_of_nonpos (div_nonpos_of_nonpos_of_nonneg (by linarith) hp.le), mul_one, one_div]
  · rename_i hc
    rw [clampSwitch_of_nonneg (div_nonneg (by linarith) hp.le), switchPoly, one_div]
    ring

/-- Derivative of the weight. -/
noncomputable def dWeight (rcut rs d : ℝ) : ℝ :=
  -(d ^ 2)⁻¹ * clampSwitch ((d - rs) / (rcut - rs))
    + d⁻¹ * ((if (d - rs) / (rcut - rs) < 0 then 0 else dSwitch ((d - rs) / (rcut - rs)))
        * (1 / (rcut - rs)))

theorem hasDerivAt_weight {rcut rs d : ℝ} (h : rs < rcut) (h0 : 0 < d) (hd : d < rcut) :
    HasDerivAt (smoothWeight rcut rs) (dWeight rcut rs d) d := by
  have h1 : HasDerivAt (fun x : ℝ => (x - rs) / (rcut - rs)) (1 / (rcut - rs)) d :=
    ((hasDerivAt_id d).sub_const rs).div_const _
  have h2 := (hasDerivAt_clampSwitch ((d - rs) / (rcut - rs))).comp d h1
  have h3 := (hasDerivAt_inv h0.ne').mul h2
  refine h3.congr_of_eventuallyEq ?_
  filter_upwards [Iio_mem_nhds hd] with x hx
  rw [← getS_smoothWeight h hx, getS_eq h hx]
  rfl

theorem hasFDerivAt_dist3 (p x : Vec ℝ) (h : 0 < dist3 p x) :
    HasFDerivAt (fun y => dist3 p y)
      (-(1 / dist3 p x) • ∑ i, (p i - x i) • ContinuousLinearMap.proj (R := ℝ) (φ := fun _ : Fin 3 => ℝ) i) x := by
  have h1 : ∀ i : Fin 3, HasFDerivAt (fun y : Vec ℝ => (p i - y i) ^ 2)
      ((-2 * (p i - x i)) • ContinuousLinearMap.proj (R := ℝ) (φ := fun _ : Fin 3 => ℝ) i) x := by
    intro i
    have a : HasFDerivAt (fun y : Vec ℝ => y i)
        (ContinuousLinearMap.proj (R := ℝ) (φ := fun _ : Fin 3 => ℝ) i) x := hasFDerivAt_apply i x
    have b := (a.const_sub (p i)).pow 2
    refine b.congr_fderiv ?_
    ext v
    simp
  have h2 : HasFDerivAt (fun y : Vec ℝ => ∑ i, (p i - y i) ^ 2)
      (∑ i, (-2 * (p i - x i)) • ContinuousLinearMap.proj (R := ℝ) (φ := fun _ : Fin 3 => ℝ) i) x :=
    HasFDerivAt.fun_sum (fun i _ => h1 i)
  have hne : (∑ i, (p i - x i) ^ 2) ≠ 0 := by
    intro h0
    rw [dist3, h0, Real.sqrt_zero] at h
    exact lt_irrefl _ h
  have h3 := h2.sqrt hne
  refine h3.congr_fderiv ?_
  ext v
  have hd : Real.sqrt (∑ i, (p i - x i) ^ 2) = dist3 p x := rfl
  rw [hd]
  have := h.ne'
  simp [Fin.sum_univ_three]
  field_simp

/-- The derivative of an environment row with respect to the centre. -/
theorem hasFDerivAt_env (rcut rs : ℝ) (h : rs < rcut) (p x : Vec ℝ) (nz : ℕ) (h0 : 0 < dist3 p x)
    (hd : dist3 p x < rcut) :
    HasFDerivAt (fun y => envAt rcut rs p y)
      ((Matrix.mulVecLin (derivBlock rcut rs (nz, dist3 p x, p - x))).toContinuousLinearMap) x := by
  have hρ := hasFDerivAt_dist3 p x h0
  have hw := (hasDerivAt_weight h h0 hd).comp_hasFDerivAt x hρ
  have hq : HasDerivAt (fun d : ℝ => d⁻¹) (-(dist3 p x ^ 2)⁻¹) (dist3 p x) := hasDerivAt_inv h0.ne'
  have hqc := hq.comp_hasFDerivAt x hρ
  have ha : ∀ i : Fin 3, HasFDerivAt (fun y : Vec ℝ => p i - y i)
      (-(ContinuousLinearMap.proj (R := ℝ) (φ := fun _ : Fin 3 => ℝ) i)) x := fun i =>
    (hasFDerivAt_apply i x).const_sub (p i)
  have hp : 0 < rcut - rs := sub_pos.2 h
  have hv : (if dist3 p x < rs then (1 : ℝ) else ((dist3 p x - rs) / (rcut - rs)) ^ 3 *
      (-6 * ((dist3 p x - rs) / (rcut - rs)) ^ 2 + 15 * ((dist3 p x - rs) / (rcut - rs)) - 10) + 1)
      = clampSwitch ((dist3 p x - rs) / (rcut - rs)) := by
    split
    · rename_i hc
      rw [clampSwitch_of_nonpos (div_nonpos_of_nonpos_of_nonneg (by linarith) hp.le)]
    · rename_i hc
      rw [clampSwitch_of_nonneg (div_nonneg (by linarith) hp.le), switchPoly]
  have hdv : (if dist3 p x < rs then (0 : ℝ) else (3 * ((dist3 p x - rs) / (rcut - rs)) ^ 2 *
      (-6 * ((dist3 p x - rs) / (rcut - rs)) ^ 2 + 15 * ((dist3 p x - rs) / (rcut - rs)) - 10)
      + ((dist3 p x - rs) / (rcut - rs)) ^ 3 * (-12 * ((dist3 p x - rs) / (rcut - rs)) + 15))
        * (1 / (rcut - rs)))
      = (if (dist3 p x - rs) / (rcut - rs) < 0 then 0 else dSwitch ((dist3 p x - rs) / (rcut - rs)))
        * (1 / (rcut - rs)) := by
    have : (dist3 p x - rs) / (rcut - rs) < 0 ↔ dist3 p x < rs := by
      rw [div_lt_iff₀ hp]; constructor <;> intro <;> linarith
    simp only [this, dSwitch]
    split <;> ring
  have hwv : smoothWeight rcut rs (dist3 p x)
      = (dist3 p x)⁻¹ * clampSwitch ((dist3 p x - rs) / (rcut - rs)) := by
    rw [← getS_smoothWeight h hd, getS_eq h hd]
  have hwd : dWeight rcut rs (dist3 p x) = -((dist3 p x) ^ 2)⁻¹ * clampSwitch ((dist3 p x - rs) / (rcut - rs))
    + (dist3 p x)⁻¹ * ((if (dist3 p x - rs) / (rcut - rs) < 0 then 0 else dSwitch ((dist3 p x - rs) / (rcut - rs)))
        * (1 / (rcut - rs))) := rfl
  rw [hasFDerivAt_pi']
  have hrow : ∀ i : Fin 3, HasFDerivAt (fun y => smoothWeight rcut rs (dist3 p y) * (p i - y i) / dist3 p y)
      (ContinuousLinearMap.comp (ContinuousLinearMap.proj (R := ℝ) (φ := fun _ : Fin 4 => ℝ) i.succ)
        ((Matrix.mulVecLin (derivBlock rcut rs (nz, dist3 p x, p - x))).toContinuousLinearMap)) x := by
    intro i
    have hh := (hw.mul (ha i)).mul hqc
    refine HasFDerivAt.congr_fderiv (hh.congr_of_eventuallyEq ?_) ?_
    · filter_upwards with y
      simp [div_eq_mul_inv]
    · ext v
      simp only [derivBlock, recip_eq, hv, hdv]
      simp only [Pi.mul_apply, Function.comp_apply, hwv, hwd]
      generalize clampSwitch ((dist3 p x - rs) / (rcut - rs)) = V
      generalize (if (dist3 p x - rs) / (rcut - rs) < 0 then 0 else dSwitch ((dist3 p x - rs) / (rcut - rs)))
        * (1 / (rcut - rs)) = D
      generalize dist3 p x = d at h0
      have hd0 := h0.ne'
      fin_cases i <;> simp [dotProduct, Fin.sum_univ_three] <;> field_simp <;> ring
  intro a
  refine Fin.cases ?_ ?_ a
  · refine HasFDerivAt.congr_fderiv (hw.congr_of_eventuallyEq ?_) ?_
    · filter_upwards with y
      rfl
    · ext v
      simp only [derivBlock, recip_eq, hv, hdv]
      simp only [hwd]
      generalize clampSwitch ((dist3 p x - rs) / (rcut - rs)) = V
      generalize (if (dist3 p x - rs) / (rcut - rs) < 0 then 0 else dSwitch ((dist3 p x - rs) / (rcut - rs)))
        * (1 / (rcut - rs)) = D
      generalize dist3 p x = d at h0
      have hd0 := h0.ne'
      simp [dotProduct, Fin.sum_univ_three]
      field_simp
      ring
  · intro i
    have := hrow i
    fin_cases i <;> exact this

end MaterSDK
