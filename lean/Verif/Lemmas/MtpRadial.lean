import Verif.Model.MtpRadial
import Verif.Lemmas.EnvMatrixCalc
import Verif.Lemmas.Averages
import Verif.Lemmas.Except
import Mathlib.Analysis.SpecialFunctions.Trigonometric.Chebyshev.Basic
import Mathlib.Analysis.SpecialFunctions.Trigonometric.Chebyshev.RootsExtrema
import Mathlib.Analysis.Calculus.Deriv.Polynomial

/-! # Helper lemmas: radial functions of the moment tensor potentials -/

namespace MaterSDK

open Classical Polynomial

/-- Value and derivative of the `k`-th Chebyshev polynomial. -/
noncomputable def chebAt (u : ℝ) (k : ℕ) : ℝ × ℝ :=
  ((Chebyshev.T ℝ k).eval u, (derivative (Chebyshev.T ℝ k)).eval u)

theorem chebAt_two (u : ℝ) (k : ℕ) :
    chebAt u (k + 2) = (2 * u * (chebAt u (k + 1)).1 - (chebAt u k).1,
      2 * (chebAt u (k + 1)).1 + 2 * u * (chebAt u (k + 1)).2 - (chebAt u k).2) := by
  have h : Chebyshev.T ℝ ((k + 2 : ℕ) : ℤ)
      = 2 * X * Chebyshev.T ℝ ((k + 1 : ℕ) : ℤ) - Chebyshev.T ℝ ((k : ℕ) : ℤ) := by
    push_cast
    exact Chebyshev.T_add_two ℝ (k : ℤ)
  unfold chebAt
  rw [h]
  refine Prod.ext ?_ ?_
  · simp
  · simp only [derivative_sub, derivative_mul, eval_sub, eval_add, eval_mul, derivative_X, eval_X]
    have h2 : derivative (2 : ℝ[X]) = 0 := derivative_ofNat 2
    rw [h2]
    simp

theorem chebLoop_succ (u : ℝ) (n : ℕ) : chebLoop u (n + 1) = chebStep u (chebLoop u n) n := by
  unfold chebLoop
  rw [List.range_succ, List.foldl_append]
  rfl

theorem chebLoop_eq (u : ℝ) (n : ℕ) : chebLoop u n = (List.range n).map (chebAt u) := by
  induction n with
  | zero => rfl
  | succ n ih =>
    rw [chebLoop_succ, ih, List.range_succ, List.map_append]
    unfold chebStep
    split
    · next h => subst h; simp [chebAt]
    split
    · next h => subst h; simp [chebAt]
    · next h0 h1 =>
      obtain ⟨m, rfl⟩ : ∃ m, n = m + 2 := ⟨n - 2, by omega⟩
      have e1 : ((List.range (m + 2)).map (chebAt u)).getD (m + 2 - 1) 0 = chebAt u (m + 1) := by
        rw [show m + 2 - 1 = m + 1 by omega, List.getD_eq_getElem?_getD, List.getElem?_map,
          List.getElem?_range (by omega)]
        rfl
      have e2 : ((List.range (m + 2)).map (chebAt u)).getD (m + 2 - 2) 0 = chebAt u m := by
        rw [show m + 2 - 2 = m by omega, List.getD_eq_getElem?_getD, List.getElem?_map,
          List.getElem?_range (by omega)]
        rfl
      rw [e1, e2]
      simp only [List.map_cons, List.map_nil, chebAt_two]

theorem chebAt_cos (θ : ℝ) (k : ℕ) : (chebAt (Real.cos θ) k).1 = Real.cos (k * θ) := by
  unfold chebAt
  rw [Chebyshev.T_real_cos]
  norm_cast

theorem hasDerivAt_chebAt (k : ℕ) (u : ℝ) : HasDerivAt (fun y => (chebAt y k).1) (chebAt u k).2 u :=
  (Chebyshev.T ℝ k).hasDerivAt u

/-- The scaled distance. -/
noncomputable def scaled (rmax rmin d : ℝ) : ℝ := (2 * d - (rmax + rmin)) / (rmax - rmin)

theorem hasDerivAt_scaled (rmax rmin d : ℝ) :
    HasDerivAt (scaled rmax rmin) (2 / (rmax - rmin)) d := by
  unfold scaled
  have h := (((hasDerivAt_id d).const_mul 2).sub_const (rmax + rmin)).div_const (rmax - rmin)
  simpa using h

theorem hasDerivAt_chebScaled (rmax rmin d : ℝ) (k : ℕ) :
    HasDerivAt (fun y => (chebAt (scaled rmax rmin y) k).1)
      ((chebAt (scaled rmax rmin d) k).2 * (2 / (rmax - rmin))) d :=
  (hasDerivAt_chebAt k (scaled rmax rmin d)).comp d (hasDerivAt_scaled rmax rmin d)

theorem scaled_cos {rmax rmin : ℝ} (h : rmin < rmax) (θ : ℝ) :
    scaled rmax rmin ((rmax + rmin) / 2 + (rmax - rmin) / 2 * Real.cos θ) = Real.cos θ := by
  unfold scaled
  have : rmax - rmin ≠ 0 := by linarith
  field_simp
  ring

theorem scaled_exists {rmax rmin d : ℝ} (h : rmin < rmax) (h1 : rmin ≤ d) (h2 : d ≤ rmax) :
    ∃ θ, d = (rmax + rmin) / 2 + (rmax - rmin) / 2 * Real.cos θ := by
  have h0 : 0 < rmax - rmin := by linarith
  refine ⟨Real.arccos (scaled rmax rmin d), ?_⟩
  rw [Real.cos_arccos]
  · unfold scaled; field_simp; ring
  · unfold scaled; rw [le_div_iff₀ h0]; linarith
  · unfold scaled; rw [div_le_iff₀ h0]; linarith

theorem rbBuild_ok {rmax rmin d : ℝ} (size : ℕ) (h1 : rmin ≤ d) (h2 : d ≤ rmax) :
    rbBuild size rmax rmin d = .ok ((List.range size).map (fun k =>
      ((chebAt (scaled rmax rmin d) k).1, (chebAt (scaled rmax rmin d) k).2 * (2 / (rmax - rmin))))) := by
  unfold rbBuild
  rw [if_pos ⟨h1, h2⟩]
  simp only [chebLoop_eq, List.map_map]
  rfl

theorem sfVal_ok {rmax rmin d : ℝ} (h : rmin < rmax) (h1 : rmin ≤ d) (h2 : d ≤ rmax) :
    sfVal rmax rmin d = .ok (cSwitch rmax rmin d) := by
  unfold sfVal cSwitch
  rw [if_pos ⟨h1, h2⟩]
  simp only [if_neg (not_lt.2 h1)]
  split <;> rfl

theorem sfDer_ok {rmax rmin d : ℝ} (h : rmin < rmax) (h1 : rmin ≤ d) (h2 : d ≤ rmax) :
    sfDer rmax rmin d = .ok (cSwitchDeriv rmax rmin d) := by
  unfold sfDer cSwitchDeriv
  rw [if_pos ⟨h1, h2⟩]
  simp only [if_neg (not_lt.2 h1)]
  split <;> rfl

/-- Value of the `k`-th radial function as a function on the whole line. -/
noncomputable def rqVal (rmax rmin : ℝ) (k : ℕ) (d : ℝ) : ℝ :=
  cSwitch rmax rmin d * (chebAt (scaled rmax rmin d) k).1

/-- Its derivative. -/
noncomputable def rqDer (rmax rmin : ℝ) (k : ℕ) (d : ℝ) : ℝ :=
  cSwitchDeriv rmax rmin d * (chebAt (scaled rmax rmin d) k).1 +
    cSwitch rmax rmin d * ((chebAt (scaled rmax rmin d) k).2 * (2 / (rmax - rmin)))

theorem hasDerivAt_rq {rmax rmin : ℝ} (h : rmin < rmax) (k : ℕ) (d : ℝ) :
    HasDerivAt (rqVal rmax rmin k) (rqDer rmax rmin k d) d :=
  (hasDerivAt_cSwitch h d).mul (hasDerivAt_chebScaled rmax rmin d k)

theorem rqBuild_ok {rmax rmin d : ℝ} (size : ℕ) (h : rmin < rmax) (h1 : rmin ≤ d) (h2 : d ≤ rmax) :
    rqBuild size rmax rmin d
      = .ok ((List.range size).map (fun k => (rqVal rmax rmin k d, rqDer rmax rmin k d))) := by
  unfold rqBuild
  rw [if_pos ⟨h1, h2⟩, rbBuild_ok size h1 h2, ok_bind]
  simp only [sfVal_ok h h1 h2, sfDer_ok h h1 h2, ok_bind]
  refine Eq.trans (mapM_map_ok (g := fun e : ℝ × ℝ => (cSwitch rmax rmin d * e.1,
      cSwitchDeriv rmax rmin d * e.1 + cSwitch rmax rmin d * e.2)) (fun _ _ => rfl)) ?_
  rw [List.map_map]
  rfl

theorem mtpQ_eq {rcut rs d : ℝ} (size : ℕ) (h1 : rs ≤ d) (h2 : d < rcut) :
    mtpQ size rcut rs d = (List.range size).map (fun k => (rqVal rcut rs k d, rqDer rcut rs k d)) := by
  unfold mtpQ mtpCheb
  rw [if_pos ⟨h1, h2⟩, chebLoop_eq, List.map_map, List.map_map]
  refine List.map_congr_left ?_
  intro k _
  have e1 : mtpSwitch rcut rs d = cSwitch rcut rs d := by
    unfold mtpSwitch cSwitch
    simp only [if_neg (not_lt.2 h1)]
  have e2 : mtpSwitchDer rcut rs d = cSwitchDeriv rcut rs d := rfl
  simp only [Function.comp, rqVal, rqDer, e1, e2]
  refine Prod.ext ?_ ?_
  · simp only [mtpXi, scaled]; ring
  · simp only [mtpXi, scaled, mtpXiDer]; ring

theorem mtpQ_out {rcut rs d : ℝ} (size : ℕ) (h : d < rs ∨ rcut ≤ d) :
    mtpQ size rcut rs d = List.replicate size (0, 0) := by
  unfold mtpQ mtpCheb
  rw [if_neg (by rintro ⟨a, b⟩; rcases h with h | h <;> linarith)]
  simp

theorem cSwitchDeriv_hi {rcut rs d : ℝ} (hlt : rs < rcut) (h : rcut ≤ d) : cSwitchDeriv rcut rs d = 0 := by
  unfold cSwitchDeriv
  simp only
  rw [if_neg (by linarith), if_neg (by rintro ⟨_, b⟩; linarith)]

/-- Value of `MtpQ` as a function on the whole line. -/
noncomputable def mqVal (rcut rs : ℝ) (k : ℕ) (d : ℝ) : ℝ := if d < rs then 0 else rqVal rcut rs k d

/-- Stored derivative of `MtpQ`. -/
noncomputable def mqDer (rcut rs : ℝ) (k : ℕ) (d : ℝ) : ℝ := if d < rs then 0 else rqDer rcut rs k d

theorem mtpQ_all {rcut rs : ℝ} (h : rs < rcut) (size : ℕ) (d : ℝ) :
    mtpQ size rcut rs d = (List.range size).map (fun k => (mqVal rcut rs k d, mqDer rcut rs k d)) := by
  by_cases h1 : d < rs
  · rw [mtpQ_out size (Or.inl h1)]
    simp only [mqVal, mqDer, if_pos h1]
    simp
  · by_cases h2 : d < rcut
    · rw [mtpQ_eq size (not_lt.1 h1) h2]
      simp only [mqVal, mqDer, if_neg h1]
    · rw [mtpQ_out size (Or.inr (not_lt.1 h2))]
      simp only [mqVal, mqDer, if_neg h1, rqVal, rqDer, cSwitch_hi h (not_lt.1 h2),
        cSwitchDeriv_hi h (not_lt.1 h2)]
      simp

theorem hasDerivAt_mq {rcut rs : ℝ} (h : rs < rcut) (k : ℕ) {d : ℝ} (hd : d ≠ rs) :
    HasDerivAt (mqVal rcut rs k) (mqDer rcut rs k d) d := by
  rcases lt_or_gt_of_ne hd with h1 | h1
  · have e : mqVal rcut rs k =ᶠ[nhds d] fun _ => 0 := by
      filter_upwards [Iio_mem_nhds h1] with y hy
      exact if_pos hy
    have e2 : mqDer rcut rs k d = 0 := if_pos h1
    rw [e2]
    exact (hasDerivAt_const d (0 : ℝ)).congr_of_eventuallyEq e
  · have e : mqVal rcut rs k =ᶠ[nhds d] rqVal rcut rs k := by
      filter_upwards [Ioi_mem_nhds h1] with y hy
      exact if_neg (not_lt.2 (le_of_lt hy))
    have e2 : mqDer rcut rs k d = rqDer rcut rs k d := if_neg (not_lt.2 h1.le)
    rw [e2]
    exact (hasDerivAt_rq h k d).congr_of_eventuallyEq e

theorem mtpDist_eq (v : Vec ℝ) : mtpDist v = norm3 v := rfl

/-- The Cartesian derivative stored for the `k`-th function. -/
noncomputable def mqGrad (rcut rs : ℝ) (k : ℕ) (v : Vec ℝ) : Vec ℝ :=
  if norm3 v = 0 then ![0, 0, 0]
  else ![mqDer rcut rs k (norm3 v) * v 0 / norm3 v, mqDer rcut rs k (norm3 v) * v 1 / norm3 v,
    mqDer rcut rs k (norm3 v) * v 2 / norm3 v]

theorem mtpQForward_eq {rcut rs : ℝ} (h : rs < rcut) (size : ℕ) (rcs : List (Vec ℝ)) :
    mtpQForward size rcut rs rcs = rcs.map (fun v => (List.range size).map (fun k =>
      (mqVal rcut rs k (norm3 v), mqGrad rcut rs k v))) := by
  unfold mtpQForward
  refine List.map_congr_left ?_
  intro v _
  rw [mtpQ_all h, List.map_map]
  rfl

theorem continuous_norm3 : Continuous (fun y : Vec ℝ => norm3 y) := by
  unfold norm3
  fun_prop

theorem hasFDerivAt_mqNorm {rcut rs : ℝ} (h : rs < rcut) (k : ℕ) {v : Vec ℝ} (hv : norm3 v ≠ rs)
    (h0 : v ≠ 0 ∨ 0 < rs) :
    HasFDerivAt (fun y : Vec ℝ => mqVal rcut rs k (norm3 y))
      (∑ c, mqGrad rcut rs k v c • ContinuousLinearMap.proj (R := ℝ) (φ := fun _ : Fin 3 => ℝ) c) v := by
  by_cases hz : norm3 v = 0
  · have hrs : norm3 v < rs := by
      rcases h0 with h0 | h0
      · exact absurd hz (norm3_pos h0).ne'
      · rw [hz]; exact h0
    have e : (fun y : Vec ℝ => mqVal rcut rs k (norm3 y)) =ᶠ[nhds v] fun _ => 0 := by
      have : ∀ᶠ y in nhds v, norm3 y < rs := continuous_norm3.continuousAt.eventually_lt continuousAt_const hrs
      filter_upwards [this] with y hy
      exact if_pos hy
    refine ((hasFDerivAt_const (0 : ℝ) v).congr_of_eventuallyEq e).congr_fderiv ?_
    simp only [mqGrad, if_pos hz]
    simp [Fin.sum_univ_three]
  · have hpos : 0 < norm3 v := lt_of_le_of_ne (Real.sqrt_nonneg _) (Ne.symm hz)
    have h2 := (hasDerivAt_mq h k hv).comp_hasFDerivAt v (hasFDerivAt_norm3 v hpos)
    refine h2.congr_fderiv ?_
    simp only [mqGrad, if_neg hz]
    ext w
    simp [Fin.sum_univ_three]
    ring

theorem foldl_vec_add (l : List (ℝ × Vec ℝ)) (z : Vec ℝ) :
    l.foldl (fun (acc : Vec ℝ) (e : ℝ × Vec ℝ) => fun c => acc c + e.1 * e.2 c) z
      = z + (l.map (fun e => e.1 • e.2)).sum := by
  induction l generalizing z with
  | nil => simp
  | cons e l ih =>
    rw [List.foldl_cons, ih, List.map_cons, List.sum_cons, ← add_assoc]
    rfl

end MaterSDK
