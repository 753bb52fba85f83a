import Verif.Spec.EnvMatrix
import Verif.Lemmas.DeepMDCalc

/-! # Analysis of the C++ environment matrix -/

set_option linter.unusedSectionVars false

namespace MaterSDK

open Classical Topology

theorem cSwitch_lo {rcut rs d : ℝ} (h : d < rs) : cSwitch rcut rs d = 1 := by
  unfold cSwitch; simp only; rw [if_pos h]

theorem cSwitch_mid {rcut rs d : ℝ} (h : rs ≤ d) (h' : d < rcut) :
    cSwitch rcut rs d = switchPoly ((d - rs) / (rcut - rs)) := by
  unfold cSwitch switchPoly; simp only; rw [if_neg (not_lt.2 h), if_pos ⟨h, h'⟩]

theorem cSwitch_hi {rcut rs d : ℝ} (hlt : rs < rcut) (h : rcut ≤ d) : cSwitch rcut rs d = 0 := by
  unfold cSwitch; simp only
  rw [if_neg (by linarith), if_neg (by rintro ⟨_, h2⟩; linarith)]

theorem cSwitchDeriv_mid {rcut rs d : ℝ} (h : rs ≤ d) (h' : d < rcut) :
    cSwitchDeriv rcut rs d = dSwitch ((d - rs) / (rcut - rs)) * (1 / (rcut - rs)) := by
  unfold cSwitchDeriv; simp only; rw [if_neg (not_lt.2 h), if_pos ⟨h, h'⟩, dSwitch_eq]; ring

theorem hasDerivAt_switchScaled {rcut rs : ℝ} (d : ℝ) :
    HasDerivAt (fun x : ℝ => switchPoly ((x - rs) / (rcut - rs)))
      (dSwitch ((d - rs) / (rcut - rs)) * (1 / (rcut - rs))) d := by
  have h1 : HasDerivAt (fun x : ℝ => (x - rs) / (rcut - rs)) (1 / (rcut - rs)) d :=
    ((hasDerivAt_id d).sub_const rs).div_const _
  exact (hasDerivAt_switchPoly _).comp d h1

/-- Two functions with the same value and the same derivative at a point, glued there. -/
theorem hasDerivAt_glue {f g h : ℝ → ℝ} {a D : ℝ} (hf : HasDerivAt f D a) (hg : HasDerivAt g D a)
    (e : h a = f a) (e' : h a = g a) (hl : ∀ᶠ x in 𝓝 a, x < a → h x = f x)
    (hr : ∀ᶠ x in 𝓝 a, a < x → h x = g x) : HasDerivAt h D a := by
  have l : HasDerivWithinAt h D (Set.Iic a) a := by
    refine hf.hasDerivWithinAt.congr_of_eventuallyEq ?_ e
    have := hl.filter_mono (nhdsWithin_le_nhds (s := Set.Iic a))
    filter_upwards [this, self_mem_nhdsWithin] with x hx hx'
    rcases lt_or_eq_of_le (show x ≤ a from hx') with h1 | h1
    · exact hx h1
    · rw [h1]; exact e
  have r : HasDerivWithinAt h D (Set.Ici a) a := by
    refine hg.hasDerivWithinAt.congr_of_eventuallyEq ?_ e'
    have := hr.filter_mono (nhdsWithin_le_nhds (s := Set.Ici a))
    filter_upwards [this, self_mem_nhdsWithin] with x hx hx'
    rcases lt_or_eq_of_le (show a ≤ x from hx') with h1 | h1
    · exact hx h1
    · rw [← h1]; exact e'
  have := l.union r
  rw [Set.Iic_union_Ici] at this
  exact this.hasDerivAt Filter.univ_mem

/-- The derivative the code returns for the switch is its derivative at every distance. -/
theorem hasDerivAt_cSwitch {rcut rs : ℝ} (h : rs < rcut) (d : ℝ) :
    HasDerivAt (cSwitch rcut rs) (cSwitchDeriv rcut rs d) d := by
  have hp : 0 < rcut - rs := sub_pos.2 h
  rcases lt_trichotomy d rs with h1 | h1 | h1
  · have e : cSwitchDeriv rcut rs d = 0 := by unfold cSwitchDeriv; simp only; rw [if_pos h1]
    rw [e]
    refine (hasDerivAt_const d (1 : ℝ)).congr_of_eventuallyEq ?_
    filter_upwards [Iio_mem_nhds h1] with x hx
    exact cSwitch_lo hx
  · subst h1
    have e : cSwitchDeriv rcut d d = 0 := by
      rw [cSwitchDeriv_mid le_rfl h, dSwitch_eq]; simp
    have hs := hasDerivAt_switchScaled (rcut := rcut) (rs := d) d
    have e0 : dSwitch ((d - d) / (rcut - d)) * (1 / (rcut - d)) = 0 := by rw [dSwitch_eq]; simp
    rw [e0] at hs
    rw [e]
    refine hasDerivAt_glue (hasDerivAt_const d (1 : ℝ)) hs ?_ (cSwitch_mid le_rfl h) ?_ ?_
    · rw [cSwitch_mid le_rfl h, sub_self, zero_div, switchPoly_zero]
    · exact Filter.Eventually.of_forall (fun x hx => cSwitch_lo hx)
    · filter_upwards [Iio_mem_nhds h] with x hx hx'
      exact cSwitch_mid hx'.le hx
  · rcases lt_trichotomy d rcut with h2 | h2 | h2
    · rw [cSwitchDeriv_mid h1.le h2]
      refine (hasDerivAt_switchScaled d).congr_of_eventuallyEq ?_
      filter_upwards [Iio_mem_nhds h2, Ioi_mem_nhds h1] with x hx hx'
      exact cSwitch_mid (le_of_lt hx') hx
    · subst h2
      have e : cSwitchDeriv d rs d = 0 := by
        unfold cSwitchDeriv; simp only
        rw [if_neg (by linarith), if_neg (by rintro ⟨_, h2⟩; linarith)]
      have hs := hasDerivAt_switchScaled (rcut := d) (rs := rs) d
      have e0 : dSwitch ((d - rs) / (d - rs)) * (1 / (d - rs)) = 0 := by
        rw [dSwitch_eq, div_self hp.ne']; ring
      rw [e0] at hs
      rw [e]
      refine hasDerivAt_glue hs (hasDerivAt_const d (0 : ℝ)) ?_ (cSwitch_hi h le_rfl) ?_ ?_
      · show _ = switchPoly ((d - rs) / (d - rs))
        rw [cSwitch_hi h le_rfl, div_self hp.ne', switchPoly_one]
      · filter_upwards [Ioi_mem_nhds h1] with x hx hx'
        exact cSwitch_mid (le_of_lt hx) hx'
      · exact Filter.Eventually.of_forall (fun x hx => cSwitch_hi h (le_of_lt hx))
    · have e : cSwitchDeriv rcut rs d = 0 := by
        unfold cSwitchDeriv; simp only
        rw [if_neg (by linarith), if_neg (by rintro ⟨_, h3⟩; linarith)]
      rw [e]
      refine (hasDerivAt_const d (0 : ℝ)).congr_of_eventuallyEq ?_
      filter_upwards [Ioi_mem_nhds h2] with x hx
      exact cSwitch_hi h (le_of_lt hx)

theorem cRecip_eq (d : ℝ) : cRecip d = d⁻¹ := by
  unfold cRecip
  split
  · rename_i h; rw [h, inv_zero]
  · exact one_div d

theorem cSmooth_eq (rcut rs d : ℝ) : cSmooth rcut rs d = d⁻¹ * cSwitch rcut rs d := by
  have hr : (if d = 0 then 0 else 1 / d) = d⁻¹ := cRecip_eq d
  unfold cSmooth cSwitch
  simp only [hr]
  split_ifs <;> simp

theorem cSmooth_weight (rcut rs d : ℝ) : cSmooth rcut rs d = smoothWeight rcut rs d := by
  have hr : (if d = 0 then 0 else 1 / d) = d⁻¹ := cRecip_eq d
  unfold cSmooth smoothWeight
  simp only [hr]
  by_cases h : d < rs
  · rw [if_pos h, if_pos h, one_div]
  · rw [if_neg h, if_neg h]
    by_cases h' : d < rcut
    · rw [if_pos ⟨not_lt.1 h, h'⟩, if_pos h', one_div]; ring
    · rw [if_neg (fun hc => h' hc.2), if_neg h']

theorem hasFDerivAt_norm3 (v : Vec ℝ) (h : 0 < norm3 v) :
    HasFDerivAt (fun y : Vec ℝ => norm3 y)
      ((1 / norm3 v) • ∑ i, v i • ContinuousLinearMap.proj (R := ℝ) (φ := fun _ : Fin 3 => ℝ) i) v := by
  have h1 : ∀ i : Fin 3, HasFDerivAt (fun y : Vec ℝ => (y i) ^ 2)
      ((2 * v i) • ContinuousLinearMap.proj (R := ℝ) (φ := fun _ : Fin 3 => ℝ) i) v := by
    intro i
    have a : HasFDerivAt (fun y : Vec ℝ => y i)
        (ContinuousLinearMap.proj (R := ℝ) (φ := fun _ : Fin 3 => ℝ) i) v := hasFDerivAt_apply i v
    refine (a.pow 2).congr_fderiv ?_
    ext w
    simp
  have h2 := ((h1 0).add (h1 1)).add (h1 2)
  have hne : v 0 ^ 2 + v 1 ^ 2 + v 2 ^ 2 ≠ 0 := by
    intro h0
    rw [norm3, h0, Real.sqrt_zero] at h
    exact lt_irrefl _ h
  have h3 := h2.sqrt hne
  refine h3.congr_fderiv ?_
  ext w
  have hd : Real.sqrt (v 0 ^ 2 + v 1 ^ 2 + v 2 ^ 2) = norm3 v := rfl
  simp only [Pi.add_apply]
  rw [hd]
  have := h.ne'
  simp [Fin.sum_univ_three]
  field_simp

/-- Derivative of a row `(S/r, S x/r², S y/r², S z/r²)` with respect to the vector. -/
theorem hasFDerivAt_envRow {rcut rs : ℝ} (h : rs < rcut) (v : Vec ℝ) (h0 : 0 < norm3 v) :
    HasFDerivAt (fun y => cEnvRow rcut rs y)
      ((Matrix.mulVecLin (cEnvDeriv rcut rs v)).toContinuousLinearMap) v := by
  have hρ := hasFDerivAt_norm3 v h0
  have hS := (hasDerivAt_cSwitch h (norm3 v)).comp_hasFDerivAt v hρ
  have hq : HasDerivAt (fun d : ℝ => d⁻¹) (-(norm3 v ^ 2)⁻¹) (norm3 v) := hasDerivAt_inv h0.ne'
  have hqc := hq.comp_hasFDerivAt v hρ
  have hw := hqc.mul hS
  have ha : ∀ i : Fin 3, HasFDerivAt (fun y : Vec ℝ => y i)
      (ContinuousLinearMap.proj (R := ℝ) (φ := fun _ : Fin 3 => ℝ) i) v := fun i => hasFDerivAt_apply i v
  have hfun : ∀ (y : Vec ℝ), cEnvRow rcut rs y
      = ![(norm3 y)⁻¹ * cSwitch rcut rs (norm3 y),
          (norm3 y)⁻¹ * cSwitch rcut rs (norm3 y) * (norm3 y)⁻¹ * y 0,
          (norm3 y)⁻¹ * cSwitch rcut rs (norm3 y) * (norm3 y)⁻¹ * y 1,
          (norm3 y)⁻¹ * cSwitch rcut rs (norm3 y) * (norm3 y)⁻¹ * y 2] := by
    intro y
    unfold cEnvRow
    simp only [cRecip_eq, cSmooth_eq]
    rfl
  have hrow : ∀ i : Fin 3, HasFDerivAt
      (fun y => (norm3 y)⁻¹ * cSwitch rcut rs (norm3 y) * (norm3 y)⁻¹ * y i)
      (ContinuousLinearMap.comp (ContinuousLinearMap.proj (R := ℝ) (φ := fun _ : Fin 4 => ℝ) i.succ)
        ((Matrix.mulVecLin (cEnvDeriv rcut rs v)).toContinuousLinearMap)) v := by
    intro i
    have hh := (hw.mul hqc).mul (ha i)
    refine HasFDerivAt.congr_fderiv (hh.congr_of_eventuallyEq ?_) ?_
    · filter_upwards with y
      simp
    · ext w
      simp only [cEnvDeriv, cRecip_eq]
      simp only [Pi.mul_apply, Function.comp_apply, show Real.sqrt (v 0 ^ 2 + v 1 ^ 2 + v 2 ^ 2) = norm3 v from rfl]
      generalize cSwitch rcut rs (norm3 v) = V
      generalize cSwitchDeriv rcut rs (norm3 v) = D
      generalize norm3 v = d at h0
      have hd0 := h0.ne'
      fin_cases i <;> simp [dotProduct, Fin.sum_univ_three] <;> field_simp <;> ring
  rw [hasFDerivAt_pi']
  intro a
  simp only [hfun]
  refine Fin.cases ?_ ?_ a
  · refine HasFDerivAt.congr_fderiv (hw.congr_of_eventuallyEq ?_) ?_
    · filter_upwards with y
      simp
    · ext w
      simp only [cEnvDeriv, cRecip_eq]
      simp only [Function.comp_apply, show Real.sqrt (v 0 ^ 2 + v 1 ^ 2 + v 2 ^ 2) = norm3 v from rfl]
      generalize cSwitch rcut rs (norm3 v) = V
      generalize cSwitchDeriv rcut rs (norm3 v) = D
      generalize norm3 v = d at h0
      have hd0 := h0.ne'
      simp [dotProduct, Fin.sum_univ_three]
      field_simp
      ring
  · intro i
    have := hrow i
    fin_cases i <;> exact this

theorem se4pwDeriv_neg (rcut rs : ℝ) (v : Vec ℝ) : cSe4pwDeriv rcut rs v = -cEnvDeriv rcut rs v := by
  unfold cSe4pwDeriv cEnvDeriv
  simp only
  ext i j
  fin_cases i <;> fin_cases j <;> simp <;> ring

end MaterSDK
