import Verif.Props.MtpRadial

/-! # C99: exactly when the gradient is right -/

namespace MaterSDK

open Classical Topology

/-- Values and derivatives of the Chebyshev polynomials at `-1`. -/
theorem chebAt_neg_one (k : ℕ) : chebAt (-1) k = ((-1) ^ k, -((k : ℝ) ^ 2 * (-1) ^ k)) := by
  induction k using Nat.twoStepInduction with
  | zero => simp [chebAt]
  | one => simp [chebAt]
  | more k h1 h2 =>
    rw [chebAt_two, h1, h2]
    push_cast
    refine Prod.ext ?_ ?_ <;> simp only <;> ring

theorem rq_at_inner {rcut rs : ℝ} (h : rs < rcut) (k : ℕ) :
    rqVal rcut rs k rs = (-1) ^ k ∧ rqDer rcut rs k rs = -((k : ℝ) ^ 2 * (-1) ^ k) * (2 / (rcut - rs)) := by
  have e1 : cSwitch rcut rs rs = 1 := by
    unfold cSwitch
    simp [h]
  have e2 : scaled rcut rs rs = -1 := by
    unfold scaled
    have : rcut - rs ≠ 0 := by linarith
    field_simp
    ring
  have e3 : cSwitchDeriv rcut rs rs = 0 := by
    unfold cSwitchDeriv
    simp [h]
  unfold rqVal rqDer
  rw [e1, e2, e3, chebAt_neg_one]
  constructor
  · simp
  · ring

/-- The weighted sum of the radial functions of one row, as a function of the distance. -/
noncomputable def rowVal (size : ℕ) (rcut rs : ℝ) (g : Fin size → ℝ) (d : ℝ) : ℝ :=
  ∑ k : Fin size, g k * mqVal rcut rs k d

theorem hasDerivAt_rqSum (size : ℕ) {rcut rs : ℝ} (h : rs < rcut) (g : Fin size → ℝ) :
    HasDerivAt (fun d => ∑ k : Fin size, g k * rqVal rcut rs k d) (∑ k : Fin size, g k * rqDer rcut rs k rs) rs :=
  HasDerivAt.fun_sum (fun (k : Fin size) _ => (hasDerivAt_rq h k rs).const_mul (g k))

theorem rowVal_lt (size : ℕ) {rcut rs d : ℝ} (g : Fin size → ℝ) (hd : d < rs) : rowVal size rcut rs g d = 0 := by
  unfold rowVal mqVal
  simp [hd]

theorem rowVal_ge (size : ℕ) {rcut rs d : ℝ} (g : Fin size → ℝ) (hd : rs ≤ d) :
    rowVal size rcut rs g d = ∑ k : Fin size, g k * rqVal rcut rs k d := by
  unfold rowVal mqVal
  simp [not_lt.2 hd]

/-- The two sums which decide about the jump. -/
theorem rowSums (size : ℕ) {rcut rs : ℝ} (h : rs < rcut) (g : Fin size → ℝ) :
    (∑ k : Fin size, g k * rqVal rcut rs k rs) = ∑ k : Fin size, g k * (-1) ^ (k : ℕ) ∧
    (∑ k : Fin size, g k * rqDer rcut rs k rs) =
      -(2 / (rcut - rs)) * ∑ k : Fin size, g k * ((k : ℕ) : ℝ) ^ 2 * (-1) ^ (k : ℕ) := by
  constructor
  · exact Finset.sum_congr rfl (fun k _ => by rw [(rq_at_inner h k).1])
  · rw [Finset.mul_sum]
    refine Finset.sum_congr rfl (fun k _ => ?_)
    rw [(rq_at_inner h k).2]
    ring

theorem hasDerivAt_row_iff (size : ℕ) {rcut rs : ℝ} (h : rs < rcut) (g : Fin size → ℝ) :
    (DifferentiableAt ℝ (rowVal size rcut rs g) rs → ∑ k : Fin size, g k * (-1) ^ (k : ℕ) = 0 ∧
      ∑ k : Fin size, g k * ((k : ℕ) : ℝ) ^ 2 * (-1) ^ (k : ℕ) = 0) ∧
    (∑ k : Fin size, g k * (-1) ^ (k : ℕ) = 0 → ∑ k : Fin size, g k * ((k : ℕ) : ℝ) ^ 2 * (-1) ^ (k : ℕ) = 0 →
      HasDerivAt (rowVal size rcut rs g) 0 rs) := by
  obtain ⟨s1, s2⟩ := rowSums size h g
  have hP := hasDerivAt_rqSum size h g
  have hrs : rowVal size rcut rs g rs = ∑ k : Fin size, g k * (-1) ^ (k : ℕ) := by
    rw [rowVal_ge size g (le_refl rs), s1]
  have hne : (2 / (rcut - rs)) ≠ 0 := by
    have : 0 < rcut - rs := by linarith
    positivity
  constructor
  · intro hd
    have hlim := hd.continuousAt.tendsto.mono_left (nhdsWithin_le_nhds (s := Set.Iio rs))
    have hz : rowVal size rcut rs g =ᶠ[𝓝[<] rs] fun _ => 0 := by
      filter_upwards [self_mem_nhdsWithin] with t ht
      exact rowVal_lt size g ht
    have h0 : rowVal size rcut rs g rs = 0 := tendsto_nhds_unique (hlim.congr' hz) tendsto_const_nhds |>.symm ▸ rfl
    have hA := hd.hasDerivAt
    have hL : HasDerivWithinAt (rowVal size rcut rs g) 0 (Set.Iic rs) rs := by
      refine (hasDerivWithinAt_const rs (Set.Iic rs) (0 : ℝ)).congr (fun y hy => ?_) h0
      rcases lt_or_eq_of_le (Set.mem_Iic.1 hy) with hy | rfl
      · exact rowVal_lt size g hy
      · exact h0
    have e1 : deriv (rowVal size rcut rs g) rs = 0 :=
      (uniqueDiffWithinAt_Iic rs).eq_deriv _ hA.hasDerivWithinAt hL
    have hR : HasDerivWithinAt (rowVal size rcut rs g) (∑ k : Fin size, g k * rqDer rcut rs k rs)
        (Set.Ici rs) rs :=
      hP.hasDerivWithinAt.congr (fun y hy => rowVal_ge size g hy) (rowVal_ge size g (le_refl rs))
    have e2 : deriv (rowVal size rcut rs g) rs = ∑ k : Fin size, g k * rqDer rcut rs k rs :=
      (uniqueDiffWithinAt_Ici rs).eq_deriv _ hA.hasDerivWithinAt hR
    refine ⟨by rw [← hrs, h0], ?_⟩
    rw [s2, e1] at e2
    rcases mul_eq_zero.1 e2.symm with e | e
    · exact absurd (neg_eq_zero.1 e) hne
    · exact e
  · intro h1 h2
    have h0 : rowVal size rcut rs g rs = 0 := by rw [hrs, h1]
    have hL : HasDerivWithinAt (rowVal size rcut rs g) 0 (Set.Iic rs) rs := by
      refine (hasDerivWithinAt_const rs (Set.Iic rs) (0 : ℝ)).congr (fun y hy => ?_) h0
      rcases lt_or_eq_of_le (Set.mem_Iic.1 hy) with hy | rfl
      · exact rowVal_lt size g hy
      · exact h0
    have hR : HasDerivWithinAt (rowVal size rcut rs g) (∑ k : Fin size, g k * rqDer rcut rs k rs)
        (Set.Ici rs) rs :=
      hP.hasDerivWithinAt.congr (fun y hy => rowVal_ge size g hy) (rowVal_ge size g (le_refl rs))
    rw [s2, h2, mul_zero] at hR
    have := hL.union hR
    rwa [Set.Iic_union_Ici, hasDerivWithinAt_univ] at this

/-- What `backward` returns, and what it should be the gradient of. -/
theorem mtpQ_sum_eq (size n : ℕ) {rcut rs : ℝ} (h : rs < rcut) (g : Fin n → Fin size → ℝ) :
    (∀ x : Fin n → Vec ℝ, mtpQBackward ((mtpQForward size rcut rs (List.ofFn x)).map (List.map Prod.snd))
      (List.ofFn (fun i => List.ofFn (g i))) =
        List.ofFn (fun i => ∑ k : Fin size, g i k • mqGrad rcut rs k (x i))) ∧
    (fun y : Fin n → Vec ℝ => weightedSum (List.ofFn (fun i => List.ofFn (g i)))
      ((mtpQForward size rcut rs (List.ofFn y)).map (List.map Prod.fst)))
        = fun y => ∑ i, rowVal size rcut rs (g i) (norm3 (y i)) := by
  constructor
  · intro x
    rw [mtpQForward_eq h]
    unfold mtpQBackward
    apply List.ext_getElem
    · simp
    · intro i h1 h2
      simp only [List.getElem_zipWith, List.getElem_map, List.getElem_ofFn, foldl_vec_add, zero_add,
        List.map_map]
      rw [← List.sum_ofFn]
      congr 1
      apply List.ext_getElem
      · simp
      · intro k h3 h4
        simp
  · funext y
    rw [mtpQForward_eq h]
    unfold weightedSum rowVal
    rw [← List.sum_ofFn]
    congr 1
    apply List.ext_getElem
    · simp
    · intro i h1 h2
      simp only [List.getElem_zipWith, List.getElem_map, List.getElem_ofFn, List.map_map]
      rw [← List.sum_ofFn]
      congr 1
      apply List.ext_getElem
      · simp
      · intro k h3 h4
        simp

theorem norm3_scale (t : ℝ) (ht : 0 ≤ t) (v : Vec ℝ) : norm3 (t • v) = t * norm3 v := by
  unfold norm3
  simp only [Pi.smul_apply, smul_eq_mul]
  conv_rhs => rw [← Real.sqrt_sq ht, ← Real.sqrt_mul (sq_nonneg _)]
  congr 1
  ring

theorem hasFDerivAt_row (size : ℕ) {rcut rs : ℝ} (h0 : 0 < rs) (h : rs < rcut) (g : Fin size → ℝ) (v : Vec ℝ)
    (hv : norm3 v = rs → ∑ k : Fin size, g k * (-1) ^ (k : ℕ) = 0 ∧
      ∑ k : Fin size, g k * ((k : ℕ) : ℝ) ^ 2 * (-1) ^ (k : ℕ) = 0) :
    HasFDerivAt (fun y : Vec ℝ => rowVal size rcut rs g (norm3 y))
      (∑ c, (∑ k : Fin size, g k • mqGrad rcut rs k v) c •
        ContinuousLinearMap.proj (R := ℝ) (φ := fun _ : Fin 3 => ℝ) c) v := by
  by_cases hd : norm3 v = rs
  · obtain ⟨h1, h2⟩ := hv hd
    have hD := (hasDerivAt_row_iff size h g).2 h1 h2
    rw [← hd] at hD
    have hc := hD.comp_hasFDerivAt v (hasFDerivAt_norm3 v (by rw [hd]; exact h0))
    rw [hd] at hc
    refine hc.congr_fderiv ?_
    have hG : (∑ k : Fin size, g k • mqGrad rcut rs k v) = 0 := by
      have hs := (rowSums size h g).2
      rw [h2, mul_zero] at hs
      have hk : ∀ k : Fin size, mqGrad rcut rs k v = rqDer rcut rs k rs • ((1 / rs) • v) := by
        intro k
        unfold mqGrad mqDer
        rw [hd, if_neg h0.ne', if_neg (lt_irrefl rs)]
        funext c
        fin_cases c <;> simp <;> ring
      simp only [hk, smul_smul (g _), ← Finset.sum_smul, hs, zero_smul]
    rw [hG]
    simp
  · have hk : ∀ k : Fin size, HasFDerivAt (fun y : Vec ℝ => g k * mqVal rcut rs k (norm3 y))
        (g k • (∑ c, mqGrad rcut rs k v c • ContinuousLinearMap.proj (R := ℝ) (φ := fun _ : Fin 3 => ℝ) c)) v :=
      fun k => (hasFDerivAt_mqNorm h k hd (Or.inr h0)).const_mul (g k)
    refine (HasFDerivAt.fun_sum (fun k _ => hk k)).congr_fderiv ?_
    ext w
    simp only [ContinuousLinearMap.coe_sum', Finset.sum_apply, ContinuousLinearMap.coe_smul',
      Pi.smul_apply, ContinuousLinearMap.proj_apply, smul_eq_mul, Finset.mul_sum, Finset.sum_mul]
    rw [Finset.sum_comm]
    refine Finset.sum_congr rfl (fun c _ => Finset.sum_congr rfl (fun k _ => by ring))

/-- C99, exactly: `backward` returns the gradient of the weighted sum of the outputs if and only if in every row
whose distance is exactly `rcut_smooth` the weights satisfy two linear equations, which make up for the jump of
the functions and for the kink behind it. For all other weights there is no gradient. -/
theorem C99_exact (size n : ℕ) (rcut rs : ℝ) (h0 : 0 < rs) (h : rs < rcut) (x : Fin n → Vec ℝ)
    (g : Fin n → Fin size → ℝ) :
    ∃ G : Fin n → Vec ℝ,
      mtpQBackward ((mtpQForward size rcut rs (List.ofFn x)).map (List.map Prod.snd))
        (List.ofFn (fun i => List.ofFn (g i))) = List.ofFn G ∧
      (HasFDerivAt (fun y : Fin n → Vec ℝ => weightedSum (List.ofFn (fun i => List.ofFn (g i)))
          ((mtpQForward size rcut rs (List.ofFn y)).map (List.map Prod.fst)))
        (∑ i, ∑ c, G i c • (ContinuousLinearMap.proj (R := ℝ) (φ := fun _ : Fin 3 => ℝ) c).comp
          (ContinuousLinearMap.proj (R := ℝ) (φ := fun _ : Fin n => Vec ℝ) i)) x ↔
        ∀ i, norm3 (x i) = rs → ∑ k : Fin size, g i k * (-1) ^ (k : ℕ) = 0 ∧
          ∑ k : Fin size, g i k * ((k : ℕ) : ℝ) ^ 2 * (-1) ^ (k : ℕ) = 0) ∧
      (DifferentiableAt ℝ (fun y : Fin n → Vec ℝ => weightedSum (List.ofFn (fun i => List.ofFn (g i)))
          ((mtpQForward size rcut rs (List.ofFn y)).map (List.map Prod.fst))) x ↔
        ∀ i, norm3 (x i) = rs → ∑ k : Fin size, g i k * (-1) ^ (k : ℕ) = 0 ∧
          ∑ k : Fin size, g i k * ((k : ℕ) : ℝ) ^ 2 * (-1) ^ (k : ℕ) = 0) := by
  obtain ⟨e1, e2⟩ := mtpQ_sum_eq size n h g
  refine ⟨_, e1 x, ?_⟩
  rw [e2]
  have hback : (∀ i, norm3 (x i) = rs → ∑ k : Fin size, g i k * (-1) ^ (k : ℕ) = 0 ∧
        ∑ k : Fin size, g i k * ((k : ℕ) : ℝ) ^ 2 * (-1) ^ (k : ℕ) = 0) →
      HasFDerivAt (fun y : Fin n → Vec ℝ => ∑ i, rowVal size rcut rs (g i) (norm3 (y i)))
        (∑ i, ∑ c, (∑ k : Fin size, g i k • mqGrad rcut rs k (x i)) c •
          (ContinuousLinearMap.proj (R := ℝ) (φ := fun _ : Fin 3 => ℝ) c).comp
          (ContinuousLinearMap.proj (R := ℝ) (φ := fun _ : Fin n => Vec ℝ) i)) x := by
    intro hc
    refine HasFDerivAt.fun_sum (fun i _ => ?_)
    have hp : HasFDerivAt (fun y : Fin n → Vec ℝ => y i)
        (ContinuousLinearMap.proj (R := ℝ) (φ := fun _ : Fin n => Vec ℝ) i) x := hasFDerivAt_apply i x
    have := (hasFDerivAt_row size h0 h (g i) (x i) (hc i)).comp x hp
    refine this.congr_fderiv ?_
    ext w
    simp only [ContinuousLinearMap.coe_sum', Finset.sum_apply, ContinuousLinearMap.coe_smul',
      Pi.smul_apply, ContinuousLinearMap.coe_comp', Function.comp_apply, ContinuousLinearMap.proj_apply]
  have hforw : DifferentiableAt ℝ (fun y : Fin n → Vec ℝ => ∑ i, rowVal size rcut rs (g i) (norm3 (y i))) x →
      ∀ i, norm3 (x i) = rs → ∑ k : Fin size, g i k * (-1) ^ (k : ℕ) = 0 ∧
        ∑ k : Fin size, g i k * ((k : ℕ) : ℝ) ^ 2 * (-1) ^ (k : ℕ) = 0 := by
    intro hd i hi
    refine (hasDerivAt_row_iff size h (g i)).1 ?_
    have hu : DifferentiableAt ℝ (fun d : ℝ => Function.update x i ((d / rs) • x i)) rs := by
      rw [differentiableAt_pi]
      intro j
      by_cases hj : j = i
      · subst hj
        simp only [Function.update_self]
        fun_prop
      · simp only [Function.update_of_ne hj]
        fun_prop
    have hx : Function.update x i ((rs / rs) • x i) = x := by
      rw [div_self h0.ne', one_smul, Function.update_eq_self]
    have hcomp : DifferentiableAt ℝ ((fun y : Fin n → Vec ℝ => ∑ i, rowVal size rcut rs (g i) (norm3 (y i))) ∘
        (fun d : ℝ => Function.update x i ((d / rs) • x i))) rs := by
      refine DifferentiableAt.comp rs ?_ hu
      simp only [hx]
      exact hd
    have he : (fun d : ℝ => ((fun y : Fin n → Vec ℝ => ∑ i, rowVal size rcut rs (g i) (norm3 (y i))) ∘
        (fun d : ℝ => Function.update x i ((d / rs) • x i))) d -
          ∑ j ∈ Finset.univ.erase i, rowVal size rcut rs (g j) (norm3 (x j)))
        =ᶠ[𝓝 rs] rowVal size rcut rs (g i) := by
      filter_upwards [Ioi_mem_nhds h0] with d hdp
      have hdp : 0 < d := hdp
      simp only [Function.comp_apply]
      rw [← Finset.add_sum_erase _ _ (Finset.mem_univ i)]
      have hs : ∑ j ∈ Finset.univ.erase i, rowVal size rcut rs (g j)
            (norm3 (Function.update x i ((d / rs) • x i) j)) =
          ∑ j ∈ Finset.univ.erase i, rowVal size rcut rs (g j) (norm3 (x j)) :=
        Finset.sum_congr rfl (fun j hj => by rw [Function.update_of_ne (Finset.ne_of_mem_erase hj)])
      rw [hs, add_sub_cancel_right, Function.update_self, norm3_scale _ (by positivity), hi,
        div_mul_cancel₀ _ h0.ne']
    exact (hcomp.sub_const _).congr_of_eventuallyEq he.symm
  exact ⟨⟨fun hh => hforw hh.differentiableAt, hback⟩, ⟨hforw, fun hh => (hback hh).differentiableAt⟩⟩

/-- With the weights 1, 0, -1 the jumps cancel but the kink stays; with 3, 4, 1 also the kink is gone. -/
example : (∑ k : Fin 3, (![1, 0, -1] : Fin 3 → ℝ) k * (-1) ^ (k : ℕ) = 0 ∧
      ∑ k : Fin 3, (![1, 0, -1] : Fin 3 → ℝ) k * ((k : ℕ) : ℝ) ^ 2 * (-1) ^ (k : ℕ) ≠ 0) ∧
    (∑ k : Fin 3, (![3, 4, 1] : Fin 3 → ℝ) k * (-1) ^ (k : ℕ) = 0 ∧
      ∑ k : Fin 3, (![3, 4, 1] : Fin 3 → ℝ) k * ((k : ℕ) : ℝ) ^ 2 * (-1) ^ (k : ℕ) = 0) := by
  simp [Fin.sum_univ_three]
  norm_num

end MaterSDK
