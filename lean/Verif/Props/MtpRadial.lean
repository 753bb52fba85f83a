import Verif.Lemmas.MtpRadial
import Verif.Spec.Mtp
import Mathlib.Tactic.NormNum

/-! # Radial functions of the moment tensor potentials: properties C95 to C99 -/

namespace MaterSDK

open Classical

/-! ## C95 -/

/-- C95: the values of `RB_Chebyshev::build` are the Chebyshev polynomials of the distance scaled to
`[-1, 1]`: at the distance whose scaled value is `cos θ` the `k`-th value is `cos (k θ)`; every distance
between `rmin` and `rmax` is of this form; values never exceed 1 in size; other distances are rejected. -/
theorem C95_chebyshev (size : ℕ) (rmax rmin : ℝ) (h : rmin < rmax) :
    (∀ θ : ℝ, ∃ out, rbBuild size rmax rmin ((rmax + rmin) / 2 + (rmax - rmin) / 2 * Real.cos θ) = .ok out ∧
      out.map Prod.fst = (List.range size).map (fun k : ℕ => Real.cos (k * θ))) ∧
    (∀ d, rmin ≤ d → d ≤ rmax → (∃ θ, d = (rmax + rmin) / 2 + (rmax - rmin) / 2 * Real.cos θ) ∧
      ∃ out, rbBuild size rmax rmin d = .ok out ∧ out.length = size ∧ ∀ e ∈ out, |e.1| ≤ 1) ∧
    (∀ d, d < rmin ∨ rmax < d → rbBuild size rmax rmin d = .error .assertFail) := by
  have hin : ∀ θ : ℝ, rmin ≤ (rmax + rmin) / 2 + (rmax - rmin) / 2 * Real.cos θ ∧
      (rmax + rmin) / 2 + (rmax - rmin) / 2 * Real.cos θ ≤ rmax := by
    intro θ
    have h1 := Real.cos_le_one θ
    have h2 := Real.neg_one_le_cos θ
    constructor <;> nlinarith
  have hval : ∀ θ : ℝ, rbBuild size rmax rmin ((rmax + rmin) / 2 + (rmax - rmin) / 2 * Real.cos θ)
      = .ok ((List.range size).map (fun k => ((chebAt (Real.cos θ) k).1,
          (chebAt (Real.cos θ) k).2 * (2 / (rmax - rmin))))) := by
    intro θ
    rw [rbBuild_ok size (hin θ).1 (hin θ).2, scaled_cos h]
  refine ⟨?_, ?_, ?_⟩
  · intro θ
    refine ⟨_, hval θ, ?_⟩
    rw [List.map_map]
    refine List.map_congr_left ?_
    intro k _
    exact chebAt_cos θ k
  · intro d h1 h2
    obtain ⟨θ, hθ⟩ := scaled_exists h h1 h2
    refine ⟨⟨θ, hθ⟩, _, by rw [hθ]; exact hval θ, by simp, ?_⟩
    intro e he
    obtain ⟨k, _, rfl⟩ := List.mem_map.1 he
    simp only [chebAt_cos]
    exact Real.abs_cos_le_one _
  · intro d hd
    unfold rbBuild
    rw [if_neg]
    rintro ⟨a, b⟩
    rcases hd with hd | hd <;> linarith

example := C95_chebyshev 8 5 (1 / 2) (by norm_num)

/-! ## C96 -/

/-- C96: the derivatives handed out by `RB_Chebyshev::build` and `RQ_Chebyshev::build` are the
derivatives of the values with respect to the distance, on the whole closed interval. -/
theorem C96_radial_derivatives (size : ℕ) (rmax rmin : ℝ) (h : rmin < rmax) :
    (∃ f f' : ℕ → ℝ → ℝ, ∀ d, rmin ≤ d → d ≤ rmax →
      rbBuild size rmax rmin d = .ok ((List.range size).map (fun k => (f k d, f' k d))) ∧
      ∀ k, HasDerivWithinAt (f k) (f' k d) (Set.Icc rmin rmax) d) ∧
    (∃ f f' : ℕ → ℝ → ℝ, ∀ d, rmin ≤ d → d ≤ rmax →
      rqBuild size rmax rmin d = .ok ((List.range size).map (fun k => (f k d, f' k d))) ∧
      ∀ k, HasDerivWithinAt (f k) (f' k d) (Set.Icc rmin rmax) d) := by
  refine ⟨⟨fun k d => (chebAt (scaled rmax rmin d) k).1,
    fun k d => (chebAt (scaled rmax rmin d) k).2 * (2 / (rmax - rmin)), ?_⟩,
    ⟨rqVal rmax rmin, rqDer rmax rmin, ?_⟩⟩
  · intro d h1 h2
    exact ⟨rbBuild_ok size h1 h2, fun k => (hasDerivAt_chebScaled rmax rmin d k).hasDerivWithinAt⟩
  · intro d h1 h2
    exact ⟨rqBuild_ok size h h1 h2, fun k => (hasDerivAt_rq h k d).hasDerivWithinAt⟩

example := C96_radial_derivatives 8 5 (1 / 2) (by norm_num)

/-! ## C97 -/

/-- C97: `RQ_Chebyshev::build` multiplies the Chebyshev polynomials with a switching function: at the
distance with scaled value `cos θ` the `k`-th value is `cos (k θ)` times the quintic that falls from 1 to
0. Values never exceed 1 in size, at `rmax` all values and derivatives vanish, and distances outside
`[rmin, rmax]` are rejected. -/
theorem C97_radial_cutoff (size : ℕ) (rmax rmin : ℝ) (h : rmin < rmax) :
    (∀ θ : ℝ, ∃ out, rqBuild size rmax rmin ((rmax + rmin) / 2 + (rmax - rmin) / 2 * Real.cos θ) = .ok out ∧
      out.map Prod.fst = (List.range size).map (fun k : ℕ =>
        (1 - 10 * ((1 + Real.cos θ) / 2) ^ 3 + 15 * ((1 + Real.cos θ) / 2) ^ 4
          - 6 * ((1 + Real.cos θ) / 2) ^ 5) * Real.cos (k * θ)) ∧ ∀ e ∈ out, |e.1| ≤ 1) ∧
    rqBuild size rmax rmin rmax = .ok (List.replicate size (0, 0)) ∧
    (∀ d, d < rmin ∨ rmax < d → rqBuild size rmax rmin d = .error .assertFail) := by
  have hin : ∀ θ : ℝ, rmin ≤ (rmax + rmin) / 2 + (rmax - rmin) / 2 * Real.cos θ ∧
      (rmax + rmin) / 2 + (rmax - rmin) / 2 * Real.cos θ ≤ rmax := by
    intro θ
    have h1 := Real.cos_le_one θ
    have h2 := Real.neg_one_le_cos θ
    constructor <;> nlinarith
  have hsw : ∀ θ : ℝ, cSwitch rmax rmin ((rmax + rmin) / 2 + (rmax - rmin) / 2 * Real.cos θ)
      = 1 - 10 * ((1 + Real.cos θ) / 2) ^ 3 + 15 * ((1 + Real.cos θ) / 2) ^ 4
          - 6 * ((1 + Real.cos θ) / 2) ^ 5 := by
    intro θ
    have hu : ((rmax + rmin) / 2 + (rmax - rmin) / 2 * Real.cos θ - rmin) / (rmax - rmin)
        = (1 + Real.cos θ) / 2 := by
      have : rmax - rmin ≠ 0 := by linarith
      field_simp
      ring
    rcases lt_or_eq_of_le (hin θ).2 with hlt | heq
    · unfold cSwitch
      simp only
      rw [if_neg (not_lt.2 (hin θ).1), if_pos ⟨(hin θ).1, hlt⟩, hu]
      ring
    · rw [cSwitch_hi h heq.ge]
      have : Real.cos θ = 1 := by
        have : (rmax - rmin) * (Real.cos θ - 1) = 0 := by linarith
        rcases mul_eq_zero.1 this with h0 | h0 <;> linarith
      rw [this]
      norm_num
  refine ⟨?_, ?_, ?_⟩
  · intro θ
    refine ⟨_, rqBuild_ok size h (hin θ).1 (hin θ).2, ?_, ?_⟩
    · rw [List.map_map]
      refine List.map_congr_left ?_
      intro k _
      simp only [Function.comp, rqVal, scaled_cos h, chebAt_cos, hsw]
    · intro e he
      obtain ⟨k, _, rfl⟩ := List.mem_map.1 he
      simp only [rqVal, scaled_cos h, chebAt_cos, hsw, abs_mul]
      have c1 := Real.cos_le_one θ
      have c2 := Real.neg_one_le_cos θ
      set x := (1 + Real.cos θ) / 2 with hx
      have x0 : 0 ≤ x := by rw [hx]; linarith
      have x1 : x ≤ 1 := by rw [hx]; linarith
      have e1 : 1 - 10 * x ^ 3 + 15 * x ^ 4 - 6 * x ^ 5 = (1 - x) ^ 3 * (1 + 3 * x + 6 * x ^ 2) := by ring
      have e2 : 1 - (1 - 10 * x ^ 3 + 15 * x ^ 4 - 6 * x ^ 5) = x ^ 3 * (10 - 15 * x + 6 * x ^ 2) := by ring
      have p1 : 0 ≤ 1 - 10 * x ^ 3 + 15 * x ^ 4 - 6 * x ^ 5 := by
        rw [e1]
        have : 0 ≤ 1 - x := by linarith
        positivity
      have p2 : 0 ≤ 1 - (1 - 10 * x ^ 3 + 15 * x ^ 4 - 6 * x ^ 5) := by
        rw [e2]
        have : 0 ≤ 10 - 15 * x + 6 * x ^ 2 := by nlinarith [sq_nonneg (x - 1)]
        positivity
      rw [abs_of_nonneg p1]
      calc _ ≤ 1 * 1 := mul_le_mul (by linarith) (Real.abs_cos_le_one _) (abs_nonneg _) zero_le_one
        _ = 1 := one_mul 1
  · rw [rqBuild_ok size h h.le le_rfl]
    simp only [rqVal, rqDer, cSwitch_hi h le_rfl, cSwitchDeriv_hi h le_rfl]
    simp
  · intro d hd
    unfold rqBuild
    rw [if_neg]
    rintro ⟨a, b⟩
    rcases hd with hd | hd <;> linarith

example := C97_radial_cutoff 8 5 (1 / 2) (by norm_num)

/-! ## C98 -/

/-- C98 fails: at `rcut_smooth` every function of `MtpQ` jumps from 0 to 1 or -1. (The comment in the code
promises a switching function that is 1 below `rcut_smooth`.) -/
theorem C98_violated_jump (size : ℕ) (rcut rs : ℝ) (h : rs < rcut) (k : ℕ) (hk : k < size) :
    (∀ d < rs, (mtpQ size rcut rs d)[k]? = some (0, 0)) ∧
    ((mtpQ size rcut rs rs)[k]?).map Prod.fst = some ((-1) ^ k) ∧
    (∀ d < rs, mtpSwitch rcut rs d = 0) := by
  refine ⟨?_, ?_, ?_⟩
  · intro d hd
    rw [mtpQ_out size (Or.inl hd)]
    simp [hk]
  · rw [mtpQ_all h, List.getElem?_map, List.getElem?_range hk]
    simp only [Option.map_some, mqVal, if_neg (lt_irrefl rs), rqVal]
    have e1 : cSwitch rcut rs rs = 1 := by
      unfold cSwitch
      simp [h]
    have e2 : scaled rcut rs rs = Real.cos Real.pi := by
      rw [Real.cos_pi]
      unfold scaled
      have : rcut - rs ≠ 0 := by linarith
      field_simp
      ring
    rw [e1, e2, chebAt_cos, Real.cos_nat_mul_pi, one_mul]
  · intro d hd
    unfold mtpSwitch
    simp [hd]

/-- C98 as far as it holds: `MtpQ` vanishes with its derivative from `rcut` on and below `rcut_smooth`,
between them it agrees with `RQ_Chebyshev`, and the derivative it hands out is the derivative of its
value at every distance other than `rcut_smooth`. -/
theorem C98_mtpq_partial (size : ℕ) (rcut rs : ℝ) (h : rs < rcut) :
    (∀ d, rcut ≤ d ∨ d < rs → mtpQ size rcut rs d = List.replicate size (0, 0)) ∧
    (∀ d, rs ≤ d → d ≤ rcut → rqBuild size rcut rs d = .ok (mtpQ size rcut rs d)) ∧
    ∃ f f' : ℕ → ℝ → ℝ, ∀ d, mtpQ size rcut rs d = (List.range size).map (fun k => (f k d, f' k d)) ∧
      (d ≠ rs → ∀ k, HasDerivAt (f k) (f' k d) d) := by
  refine ⟨fun d hd => mtpQ_out size hd.symm, ?_, mqVal rcut rs, mqDer rcut rs, ?_⟩
  · intro d h1 h2
    rw [rqBuild_ok size h h1 h2, mtpQ_all h]
    simp only [mqVal, mqDer, if_neg (not_lt.2 h1)]
  · intro d
    exact ⟨mtpQ_all h size d, fun hd k => hasDerivAt_mq h k hd⟩

example := C98_violated_jump 8 5 (1 / 2) (by norm_num) 3 (by norm_num)
example := C98_mtpq_partial 8 5 (1 / 2) (by norm_num)

/-! ## C99 -/

/-- C99: `MtpQFunction::backward` returns the gradient: applied to the derivatives saved by `forward` it
gives the derivative of the weighted sum of all outputs with respect to all relative positions; away from
the radius `rcut_smooth`, where the functions jump. Padding rows (relative position 0) included. -/
theorem C99_backward_partial (size n : ℕ) (rcut rs : ℝ) (h : rs < rcut) (x : Fin n → Vec ℝ)
    (g : Fin n → Fin size → ℝ) (hx : ∀ i, norm3 (x i) ≠ rs) (h0 : ∀ i, x i ≠ 0 ∨ 0 < rs) :
    ∃ G : Fin n → Vec ℝ,
      mtpQBackward ((mtpQForward size rcut rs (List.ofFn x)).map (List.map Prod.snd))
        (List.ofFn (fun i => List.ofFn (g i))) = List.ofFn G ∧
      HasFDerivAt (fun y : Fin n → Vec ℝ => weightedSum (List.ofFn (fun i => List.ofFn (g i)))
          ((mtpQForward size rcut rs (List.ofFn y)).map (List.map Prod.fst)))
        (∑ i, ∑ c, G i c • (ContinuousLinearMap.proj (R := ℝ) (φ := fun _ : Fin 3 => ℝ) c).comp
          (ContinuousLinearMap.proj (R := ℝ) (φ := fun _ : Fin n => Vec ℝ) i)) x := by
  refine ⟨fun i => ∑ k : Fin size, g i k • mqGrad rcut rs k (x i), ?_, ?_⟩
  · rw [mtpQForward_eq h]
    unfold mtpQBackward
    apply List.ext_getElem
    · simp
    · intro i h1 h2
      simp only [List.getElem_zipWith, List.getElem_map, List.getElem_ofFn, foldl_vec_add, zero_add,
        List.map_map]
      rw [← List.sum_ofFn]
      congr 1
      apply List.ext_getElem
      · simp
      · intro k h3 h4
        simp
  · have e : (fun y : Fin n → Vec ℝ => weightedSum (List.ofFn (fun i => List.ofFn (g i)))
          ((mtpQForward size rcut rs (List.ofFn y)).map (List.map Prod.fst)))
        = fun y => ∑ i, ∑ k : Fin size, g i k * mqVal rcut rs k (norm3 (y i)) := by
      funext y
      rw [mtpQForward_eq h]
      unfold weightedSum
      rw [← List.sum_ofFn]
      congr 1
      apply List.ext_getElem
      · simp
      · intro i h1 h2
        simp only [List.getElem_zipWith, List.getElem_map, List.getElem_ofFn, List.map_map]
        rw [← List.sum_ofFn]
        congr 1
        apply List.ext_getElem
        · simp
        · intro k h3 h4
          simp
    rw [e]
    refine HasFDerivAt.fun_sum ?_
    intro i _
    have hp : HasFDerivAt (fun y : Fin n → Vec ℝ => y i)
        (ContinuousLinearMap.proj (R := ℝ) (φ := fun _ : Fin n => Vec ℝ) i) x := hasFDerivAt_apply i x
    have hk : ∀ k : Fin size, HasFDerivAt (fun y : Fin n → Vec ℝ => g i k * mqVal rcut rs k (norm3 (y i)))
        (g i k • ((∑ c, mqGrad rcut rs k (x i) c • ContinuousLinearMap.proj (R := ℝ)
          (φ := fun _ : Fin 3 => ℝ) c).comp
            (ContinuousLinearMap.proj (R := ℝ) (φ := fun _ : Fin n => Vec ℝ) i))) x := by
      intro k
      have := (hasFDerivAt_mqNorm h k (hx i) (h0 i)).comp x hp
      exact this.const_mul (g i k)
    refine (HasFDerivAt.fun_sum (fun k _ => hk k)).congr_fderiv ?_
    ext w
    simp only [ContinuousLinearMap.coe_sum', Finset.sum_apply, ContinuousLinearMap.coe_smul',
      Pi.smul_apply, ContinuousLinearMap.coe_comp', Function.comp_apply, ContinuousLinearMap.proj_apply,
      smul_eq_mul, Finset.mul_sum, Finset.sum_mul]
    rw [Finset.sum_comm]
    refine Finset.sum_congr rfl ?_
    intro c _
    refine Finset.sum_congr rfl ?_
    intro k _
    ring

example := C99_backward_partial 4 2 5 (1 / 2) (by norm_num) ![![1, 0, 0], ![0, 0, 0]] (fun i k => i + k)
  (by
    intro i
    fin_cases i
    · simp [norm3]
    · simp [norm3])
  (by
    intro i
    exact Or.inr (by norm_num))

/-- C99 fails at the radius `rcut_smooth`: there the outputs have no gradient. -/
theorem C99_violated_jump (rcut rs : ℝ) (h0 : 0 < rs) (h : rs < rcut) (x : Fin 1 → Vec ℝ)
    (hx : norm3 (x 0) = rs) :
    ¬ DifferentiableAt ℝ (fun y : Fin 1 → Vec ℝ => weightedSum [[1]]
      ((mtpQForward 1 rcut rs (List.ofFn y)).map (List.map Prod.fst))) x := by
  intro hd
  have e : (fun y : Fin 1 → Vec ℝ => weightedSum [[1]]
      ((mtpQForward 1 rcut rs (List.ofFn y)).map (List.map Prod.fst)))
      = fun y => mqVal rcut rs 0 (norm3 (y 0)) := by
    funext y
    rw [mtpQForward_eq h]
    simp [weightedSum]
  rw [e] at hd
  have hc := hd.continuousAt
  have hl : ContinuousAt (fun t : ℝ => (1 - t) • x) 0 := by fun_prop
  have hc' : ContinuousAt (fun y : Fin 1 → Vec ℝ => mqVal rcut rs 0 (norm3 (y 0))) ((fun t : ℝ => (1 - t) • x) 0) := by
    simpa using hc
  have hcomp : ContinuousAt (fun t : ℝ => mqVal rcut rs 0 (norm3 (((1 - t) • x) 0))) 0 :=
    ContinuousAt.comp (f := fun t : ℝ => (1 - t) • x) hc' hl
  have hn : ∀ t : ℝ, t ≤ 1 → norm3 (((1 - t) • x) 0) = (1 - t) * rs := by
    intro t ht
    rw [← hx]
    unfold norm3
    simp only [Pi.smul_apply, smul_eq_mul]
    rw [← Real.sqrt_sq (show 0 ≤ 1 - t by linarith), ← Real.sqrt_mul (sq_nonneg _), Real.sqrt_sq (show 0 ≤ 1 - t by linarith)]
    congr 1
    ring
  have hval : mqVal rcut rs 0 (norm3 (((1 - (0:ℝ)) • x) 0)) = 1 := by
    rw [hn 0 (by norm_num)]
    have := (C98_violated_jump 1 rcut rs h 0 (by norm_num)).2.1
    rw [mtpQ_all h] at this
    simpa using this
  have hlim := (hcomp.tendsto.mono_left (nhdsWithin_le_nhds (s := Set.Ioi (0 : ℝ))))
  rw [hval] at hlim
  have hz : (fun t : ℝ => mqVal rcut rs 0 (norm3 (((1 - t) • x) 0))) =ᶠ[nhdsWithin 0 (Set.Ioi 0)] fun _ => 0 := by
    have : Set.Ioo (0 : ℝ) 1 ∈ nhdsWithin (0 : ℝ) (Set.Ioi 0) := Ioo_mem_nhdsGT (by norm_num)
    filter_upwards [this] with t ht
    rw [hn t ht.2.le]
    unfold mqVal
    rw [if_pos]
    nlinarith [ht.1]
  have := tendsto_nhds_unique (hlim.congr' hz) tendsto_const_nhds
  norm_num at this

example := C99_violated_jump 5 (1 / 2) (by norm_num) (by norm_num) (fun _ => ![0, 0, 1 / 2]) (by
  unfold norm3
  rw [Real.sqrt_eq_iff_mul_self_eq_of_pos (by norm_num)]
  simp
  norm_num)

end MaterSDK
