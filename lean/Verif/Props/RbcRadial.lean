import Verif.Lemmas.RbcRadial
import Mathlib.Tactic.NormNum

/-! # C143 - C145: the older radial basis of the moment tensor potentials -/

namespace MaterSDK

open Classical

theorem rbc_switch_cos {rcut rs : ℝ} (h : rs < rcut) (θ : ℝ) :
    cSwitch rcut rs ((rcut + rs) / 2 + (rcut - rs) / 2 * Real.cos θ)
      = 1 - 10 * ((1 + Real.cos θ) / 2) ^ 3 + 15 * ((1 + Real.cos θ) / 2) ^ 4
          - 6 * ((1 + Real.cos θ) / 2) ^ 5 := by
  have c1 := Real.cos_le_one θ
  have c2 := Real.neg_one_le_cos θ
  have hu : ((rcut + rs) / 2 + (rcut - rs) / 2 * Real.cos θ - rs) / (rcut - rs)
      = (1 + Real.cos θ) / 2 := by
    have : rcut - rs ≠ 0 := by linarith
    field_simp
    ring
  have i1 : rs ≤ (rcut + rs) / 2 + (rcut - rs) / 2 * Real.cos θ := by nlinarith
  have i2 : (rcut + rs) / 2 + (rcut - rs) / 2 * Real.cos θ ≤ rcut := by nlinarith
  rcases lt_or_eq_of_le i2 with hlt | heq
  · unfold cSwitch
    simp only
    rw [if_neg (not_lt.2 i1), if_pos ⟨i1, hlt⟩, hu]
    ring
  · rw [cSwitch_hi h heq.ge]
    have : Real.cos θ = 1 := by
      have : (rcut - rs) * (Real.cos θ - 1) = 0 := by linarith
      rcases mul_eq_zero.1 this with h0 | h0 <;> linarith
    rw [this]
    norm_num

/-! ## C143 -/

/-- C143.  For every cutoff above the inner one, every highest degree and every distance the
constructor of `RadialBasisChebyshev` works.  It keeps its arguments; all four arrays have one entry
per degree; between the two cutoffs the first array holds the Chebyshev polynomials of the scaled
distance and the third their product with the quintic which falls from 1 to 0; below the inner cutoff
the third array equals the first; from the outer cutoff on the values and derivatives vanish.  The
second and fourth arrays are the derivatives of the first and third with respect to the distance, at
every distance, the two cutoffs included.  If the outer cutoff is not above the inner one, the
constructor stops with a failed assertion. -/
theorem C143_radial_basis (rcut rs : ℝ) (n : ℕ) :
    (rs < rcut →
      (∃ c c' f f' : ℕ → ℝ → ℝ,
        (∀ r, rbcNew rcut rs (n : ℤ) r = .ok ⟨rcut, rs, n, r,
          (List.range (n + 1)).map (c · r), (List.range (n + 1)).map (c' · r),
          (List.range (n + 1)).map (f · r), (List.range (n + 1)).map (f' · r)⟩) ∧
        (∀ k r, HasDerivAt (c k) (c' k r) r ∧ HasDerivAt (f k) (f' k r) r) ∧
        (∀ (k : ℕ) (θ : ℝ),
          c k ((rcut + rs) / 2 + (rcut - rs) / 2 * Real.cos θ) = Real.cos (k * θ) ∧
          f k ((rcut + rs) / 2 + (rcut - rs) / 2 * Real.cos θ) =
            (1 - 10 * ((1 + Real.cos θ) / 2) ^ 3 + 15 * ((1 + Real.cos θ) / 2) ^ 4
              - 6 * ((1 + Real.cos θ) / 2) ^ 5) * Real.cos (k * θ)) ∧
        (∀ k r, r < rs → f k r = c k r ∧ f' k r = c' k r) ∧
        (∀ k r, rcut ≤ r → f k r = 0 ∧ f' k r = 0)) ∧
      (∀ r, rs ≤ r → r ≤ rcut → ∃ θ, r = (rcut + rs) / 2 + (rcut - rs) / 2 * Real.cos θ)) ∧
    (rcut ≤ rs → ∀ (m : ℤ) r, rbcNew rcut rs m r = .error .assertFail) := by
  refine ⟨fun h => ⟨⟨fun k r => (chebAt (scaled rcut rs r) k).1,
    fun k r => (chebAt (scaled rcut rs r) k).2 * (2 / (rcut - rs)), rqVal rcut rs, rqDer rcut rs,
    fun r => rbcNew_ok h n r, fun k r => ⟨hasDerivAt_chebScaled rcut rs r k, hasDerivAt_rq h k r⟩,
    fun k θ => ⟨?_, ?_⟩, fun k r hr => ⟨?_, ?_⟩, fun k r hr => ⟨?_, ?_⟩⟩,
    fun r h1 h2 => scaled_exists h h1 h2⟩, fun h m r => ?_⟩
  · simp only [scaled_cos h, chebAt_cos]
  · simp only [rqVal, scaled_cos h, chebAt_cos, rbc_switch_cos h]
  · have : cSwitch rcut rs r = 1 := by unfold cSwitch; simp only; rw [if_pos hr]
    simp only [rqVal, this, one_mul]
  · have e1 : cSwitch rcut rs r = 1 := by unfold cSwitch; simp only; rw [if_pos hr]
    have e2 : cSwitchDeriv rcut rs r = 0 := by unfold cSwitchDeriv; simp only; rw [if_pos hr]
    simp only [rqDer, e1, e2, one_mul, zero_mul, zero_add]
  · simp only [rqVal, cSwitch_hi h hr, zero_mul]
  · simp only [rqDer, cSwitch_hi h hr, cSwitchDeriv_hi h hr, zero_mul, zero_add]
  · unfold rbcNew
    rw [if_neg (not_lt.2 h)]

example := (C143_radial_basis 5 (1 / 2) 8).1 (by norm_num)
example := (C143_radial_basis 3 3 8).2 (by norm_num)

/-! ## C144 -/

/-- C144 (partial: only from the inner cutoff on).  The radial functions never exceed 1 in size. -/
theorem C144_bounded_partial (rcut rs : ℝ) (n : ℕ) (r : ℝ) (h : rs < rcut) (hr : rs ≤ r)
    (o : RbcShown) (ho : rbcNew rcut rs (n : ℤ) r = .ok o) :
    o.rbVals.length = n + 1 ∧ ∀ v ∈ o.rbVals, |v| ≤ 1 := by
  rw [rbcNew_ok h] at ho
  cases ho
  refine ⟨by simp, ?_⟩
  intro v hv
  obtain ⟨k, _, rfl⟩ := List.mem_map.1 hv
  rcases le_or_gt rcut r with h2 | h2
  · simp [rqVal, cSwitch_hi h h2]
  obtain ⟨θ, rfl⟩ := scaled_exists h hr h2.le
  simp only [rqVal, scaled_cos h, chebAt_cos, rbc_switch_cos h, abs_mul]
  have c1 := Real.cos_le_one θ
  have c2 := Real.neg_one_le_cos θ
  set x := (1 + Real.cos θ) / 2 with hx
  have x0 : 0 ≤ x := by rw [hx]; linarith
  have x1 : x ≤ 1 := by rw [hx]; linarith
  have e1 : 1 - 10 * x ^ 3 + 15 * x ^ 4 - 6 * x ^ 5 = (1 - x) ^ 3 * (1 + 3 * x + 6 * x ^ 2) := by ring
  have e2 : 1 - (1 - 10 * x ^ 3 + 15 * x ^ 4 - 6 * x ^ 5) = x ^ 3 * (10 - 15 * x + 6 * x ^ 2) := by
    ring
  have p1 : 0 ≤ 1 - 10 * x ^ 3 + 15 * x ^ 4 - 6 * x ^ 5 := by
    rw [e1]
    have : 0 ≤ 1 - x := by linarith
    positivity
  have p2 : 0 ≤ 1 - (1 - 10 * x ^ 3 + 15 * x ^ 4 - 6 * x ^ 5) := by
    rw [e2]
    have : 0 ≤ 10 - 15 * x + 6 * x ^ 2 := by nlinarith [sq_nonneg (x - 1)]
    positivity
  rw [abs_of_nonneg p1]
  calc _ ≤ 1 * 1 := mul_le_mul (by linarith) (Real.abs_cos_le_one _) (abs_nonneg _) zero_le_one
    _ = 1 := one_mul 1

/-- C144 is false below the inner cutoff: there the polynomials are used outside `[-1, 1]`, and the
value at a positive distance can be as large as one likes. -/
theorem C144_violated_unbounded (M : ℝ) (hM : 0 < M) :
    ∃ (rcut rs r : ℝ) (o : RbcShown), 0 < r ∧ r < rs ∧ rs < rcut ∧
      rbcNew rcut rs 1 r = .ok o ∧ ∃ v ∈ o.rbVals, M < |v| := by
  refine ⟨M + 3, M + 2, 1, _, one_pos, by linarith, by linarith,
    rbcNew_ok (rcut := M + 3) (rs := M + 2) (by linarith) 1 1, ?_⟩
  refine ⟨rqVal (M + 3) (M + 2) 1 1, List.mem_map.2 ⟨1, by simp, rfl⟩, ?_⟩
  have e1 : cSwitch (M + 3) (M + 2) 1 = 1 := by
    unfold cSwitch; simp only; rw [if_pos (by linarith)]
  have e2 : (chebAt (scaled (M + 3) (M + 2) 1) 1).1 = -(2 * M + 3) := by
    simp only [chebAt, scaled, Nat.cast_one, Polynomial.Chebyshev.T_one, Polynomial.eval_X]
    ring
  rw [rqVal, e1, e2, one_mul, abs_neg, abs_of_pos (by linarith)]
  linarith

/-- C144 is false for negative degrees: none is rejected, the constructor writes behind its empty
arrays or through a null pointer. -/
theorem C144_violated_degree (rcut rs r : ℝ) (h : rs < rcut) (m : ℤ) (hm : m < 0) :
    rbcNew rcut rs m r = .error (if m = -1 then .outOfBounds else .undefined) := by
  unfold rbcNew
  rw [if_pos h]
  by_cases e : m = -1
  · subst e
    rw [if_neg (by omega), if_pos rfl]
    simp [rbcChebVals, cSet, bind, Except.bind]
  · rw [if_pos (by omega), if_neg e]

example : ∃ o, rbcNew 5 (1 / 2) ((3 : ℕ) : ℤ) 2 = .ok o ∧ ((1 : ℝ) / 2 ≤ 2) :=
  ⟨_, rbcNew_ok (by norm_num) 3 2, by norm_num⟩

/-! ## C145 -/

/-- C145 is false: a program which uses such objects one after the other, each of them gone before
the next is made, keeps four arrays for each object it gave arguments to. -/
theorem C145_violated_leak (ops : List (Option (ℝ × ℝ × ℤ × ℝ)))
    (h : ∀ rcut rs m r, some (rcut, rs, m, r) ∈ ops → rs < rcut ∧ 0 ≤ m) :
    ∃ g, rbcRun [] ops = .ok g ∧ liveBlocks g = 4 * ops.countP Option.isSome := by
  have key : ∀ (ops : List (Option (ℝ × ℝ × ℤ × ℝ))) (g0 : ObjHeap (List ℝ)),
      (∀ rcut rs m r, some (rcut, rs, m, r) ∈ ops → rs < rcut ∧ 0 ≤ m) →
      ∃ g, rbcRun g0 ops = .ok g ∧ liveBlocks g = liveBlocks g0 + 4 * ops.countP Option.isSome := by
    intro ops
    induction ops with
    | nil => intro g0 _; exact ⟨g0, rfl, by simp⟩
    | cons op ops ih =>
      intro g0 h
      have h' : ∀ rcut rs m r, some (rcut, rs, m, r) ∈ ops → rs < rcut ∧ 0 ≤ m :=
        fun a b c d hm => h a b c d (by simp [hm])
      cases op with
      | none =>
        obtain ⟨g, e1, e2⟩ := ih g0 h'
        exact ⟨g, by rw [rbcRun]; exact e1, by rw [e2]; simp⟩
      | some q =>
        obtain ⟨rcut, rs, m, r⟩ := q
        obtain ⟨h1, h2⟩ := h rcut rs m r (by simp)
        obtain ⟨n, rfl⟩ := Int.eq_ofNat_of_zero_le h2
        obtain ⟨g, e1, e2⟩ := ih _ h'
        refine ⟨g, ?_, ?_⟩
        · rw [rbcRun, rbcNew_ok h1, ok_bind]
          exact e1
        · rw [e2]
          simp only [objAlloc, liveBlocks, List.countP_append, List.countP_cons, List.countP_nil,
            Option.isSome_some, if_true]
          omega
  simpa [liveBlocks] using key ops [] h

example := C145_violated_leak [some (5, 1 / 2, 8, 2), none, some (6, 1, 4, 3)] (by
  intro a b c d h
  simp only [List.mem_cons, Option.some.injEq, Prod.mk.injEq, reduceCtorEq, List.not_mem_nil,
    or_false, false_or] at h
  rcases h with ⟨rfl, rfl, rfl, rfl⟩ | ⟨rfl, rfl, rfl, rfl⟩ <;> norm_num)

end MaterSDK
