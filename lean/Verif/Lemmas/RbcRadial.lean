import Verif.Model.RbcRadial
import Verif.Lemmas.MtpRadial
import Verif.Lemmas.CellList
import Verif.Lemmas.ArrayUtils

/-! # Helper lemmas: the older radial basis of the moment tensor potentials -/

namespace MaterSDK

open Classical

/-- An array of `n` zeros whose first `k` elements have been set to `g`. -/
noncomputable def partFilled (g : ℕ → ℝ) (n k : ℕ) : List ℝ :=
  (List.range n).map (fun i => if i < k then g i else 0)

theorem partFilled_zero (g : ℕ → ℝ) (n : ℕ) : partFilled g n 0 = List.replicate n 0 := by
  simp [partFilled]

theorem partFilled_full (g : ℕ → ℝ) (n : ℕ) : partFilled g n n = (List.range n).map g := by
  unfold partFilled
  refine List.map_congr_left fun i hi => ?_
  rw [if_pos (by simpa using hi)]

theorem partFilled_set (g : ℕ → ℝ) {n k : ℕ} (h : k < n) :
    cSet (partFilled g n k) (k : ℤ) (g k) = .ok (partFilled g n (k + 1)) := by
  rw [cSet_ok ⟨by omega, by simp [partFilled, h]⟩]
  congr 1
  apply List.ext_getElem?
  intro i
  simp only [partFilled, Int.toNat_natCast, List.getElem?_set, List.getElem?_map, List.length_map,
    List.length_range]
  by_cases hi : i < n
  · simp only [List.getElem?_range hi, Option.map_some]
    by_cases e : k = i
    · subst e; simp [h]
    · rw [if_neg e]
      congr 1
      by_cases h1 : i < k
      · rw [if_pos h1, if_pos (by omega)]
      · rw [if_neg h1, if_neg (by omega)]
  · rw [if_neg (by omega)]
    simp [hi]

theorem partFilled_get (g : ℕ → ℝ) {n k i : ℕ} (h : i < k) (hk : k ≤ n) :
    cGet (partFilled g n k) (i : ℤ) = .ok (g i) := by
  apply cGet_nat
  simp only [partFilled, List.getElem?_map, List.getElem?_range (show i < n by omega),
    Option.map_some, if_pos h]

theorem range_get (g : ℕ → ℝ) {n i : ℕ} (h : i < n) :
    cGet ((List.range n).map g) (i : ℤ) = .ok (g i) := by
  apply cGet_nat
  simp [h]

/-- The loop from 2 on. -/
theorem loop2 (g : ℕ → ℝ) (m : ℕ) (step : List ℝ → ℤ → Except CErr (List ℝ))
    (h : ∀ k, 2 ≤ k → k < m + 3 → step (partFilled g (m + 3) k) (k : ℤ)
      = .ok (partFilled g (m + 3) (k + 1))) :
    (rbcFrom2 ((m + 2 : ℕ) : ℤ)).foldlM step (partFilled g (m + 3) 2)
      = .ok ((List.range (m + 3)).map g) := by
  unfold rbcFrom2 cRange
  rw [show ((((m + 2 : ℕ) : ℤ) - 2 + 1).toNat) = m + 1 by omega, List.foldlM_map]
  obtain ⟨s, e, p⟩ := foldlM_range_inv (fun (a : List ℝ) (k : ℕ) => step a (2 + (k : ℤ)))
    (fun k a => a = partFilled g (m + 3) (k + 2)) (m + 1) (partFilled g (m + 3) 2) rfl (by
      rintro k hk s rfl
      refine ⟨_, ?_, rfl⟩
      have := h (k + 2) (by omega) (by omega)
      push_cast at this
      rw [add_comm (2 : ℤ)]
      rw [this, show k + 2 + 1 = k + 1 + 2 by omega])
  rw [e, p, ← partFilled_full]

theorem rbcChebVals_ok (rcut rs r : ℝ) (n : ℕ) :
    rbcChebVals rcut rs (n : ℤ) r (List.replicate (n + 1) 0)
      = .ok ((List.range (n + 1)).map (fun k => (chebAt (scaled rcut rs r) k).1)) := by
  set g : ℕ → ℝ := fun k => (chebAt (scaled rcut rs r) k).1 with hg
  have g0 : g 0 = 1 := by simp [hg, chebAt]
  have g1 : g 1 = (2 * r - (rcut + rs)) / (rcut - rs) := by simp [hg, chebAt, scaled]
  have s0 : ∀ n, cSet (List.replicate (n + 1) (0 : ℝ)) 0 1 = .ok (partFilled g (n + 1) 1) := by
    intro n
    have := partFilled_set g (n := n + 1) (k := 0) (by omega)
    rw [partFilled_zero, g0] at this
    exact this
  have s1 : ∀ n, cSet (partFilled g (n + 2) 1) 1 ((2 * r - (rcut + rs)) / (rcut - rs))
      = .ok (partFilled g (n + 2) 2) := by
    intro n
    have := partFilled_set g (n := n + 2) (k := 1) (by omega)
    rw [g1] at this
    exact this
  unfold rbcChebVals
  match n with
  | 0 => simp only [Nat.cast_zero, if_true]; rw [s0 0, ← partFilled_full]
  | 1 =>
    simp only [Nat.cast_one, one_ne_zero, if_false, if_true]
    rw [s0 1, ok_bind, s1 0, ← partFilled_full]
  | m + 2 =>
    simp only
    rw [if_neg (by omega), if_neg (by omega), s0 (m + 2), ok_bind, s1 (m + 1), ok_bind]
    apply loop2 g m
    intro k h2 hk
    obtain ⟨j, rfl⟩ : ∃ j, k = j + 2 := ⟨k - 2, by omega⟩
    rw [show (((j + 2 : ℕ) : ℤ) - 1) = ((j + 1 : ℕ) : ℤ) by push_cast; ring,
      show (((j + 2 : ℕ) : ℤ) - 2) = ((j : ℕ) : ℤ) by push_cast; ring,
      partFilled_get g (by omega) (by omega), ok_bind, partFilled_get g (by omega) (by omega), ok_bind,
      ← partFilled_set g hk]
    congr 1
    simp only [hg, chebAt_two, scaled]

theorem rbcChebDers_ok (rcut rs r : ℝ) (n : ℕ) :
    rbcChebDers rcut rs (n : ℤ) r
        ((List.range (n + 1)).map (fun k => (chebAt (scaled rcut rs r) k).1))
        (List.replicate (n + 1) 0)
      = .ok ((List.range (n + 1)).map
          (fun k => (chebAt (scaled rcut rs r) k).2 * (2 / (rcut - rs)))) := by
  set g : ℕ → ℝ := fun k => (chebAt (scaled rcut rs r) k).2 * (2 / (rcut - rs)) with hg
  have g0 : g 0 = 0 := by simp [hg, chebAt]
  have g1 : g 1 = 2 / (rcut - rs) := by simp [hg, chebAt]
  have s0 : ∀ n, cSet (List.replicate (n + 1) (0 : ℝ)) 0 0 = .ok (partFilled g (n + 1) 1) := by
    intro n
    have := partFilled_set g (n := n + 1) (k := 0) (by omega)
    rw [partFilled_zero, g0] at this
    exact this
  have s1 : ∀ n, cSet (partFilled g (n + 2) 1) 1 (2 / (rcut - rs))
      = .ok (partFilled g (n + 2) 2) := by
    intro n
    have := partFilled_set g (n := n + 2) (k := 1) (by omega)
    rw [g1] at this
    exact this
  unfold rbcChebDers
  match n with
  | 0 => simp only [Nat.cast_zero, if_true]; rw [s0 0, ← partFilled_full]
  | 1 =>
    simp only [Nat.cast_one, one_ne_zero, if_false, if_true]
    rw [s0 1, ok_bind, s1 0, ← partFilled_full]
  | m + 2 =>
    simp only
    rw [if_neg (by omega), if_neg (by omega), s0 (m + 2), ok_bind, s1 (m + 1), ok_bind]
    apply loop2 g m
    intro k h2 hk
    obtain ⟨j, rfl⟩ : ∃ j, k = j + 2 := ⟨k - 2, by omega⟩
    rw [show (((j + 2 : ℕ) : ℤ) - 1) = ((j + 1 : ℕ) : ℤ) by push_cast; ring,
      show (((j + 2 : ℕ) : ℤ) - 2) = ((j : ℕ) : ℤ) by push_cast; ring,
      range_get _ (by omega), ok_bind,
      partFilled_get g (by omega) (by omega), ok_bind, partFilled_get g (by omega) (by omega), ok_bind,
      ← partFilled_set g hk]
    congr 1
    simp only [hg, chebAt_two, scaled]
    ring

theorem rbcFill_ok (n : ℕ) (f : ℤ → Except CErr ℝ) (g : ℕ → ℝ)
    (h : ∀ k : ℕ, k < n + 1 → f (k : ℤ) = .ok (g k)) :
    rbcFill (n : ℤ) f (List.replicate (n + 1) 0) = .ok ((List.range (n + 1)).map g) := by
  have s0 : ∀ n, cSet (List.replicate (n + 1) (0 : ℝ)) 0 (g 0) = .ok (partFilled g (n + 1) 1) := by
    intro n
    have := partFilled_set g (n := n + 1) (k := 0) (by omega)
    rw [partFilled_zero] at this
    exact this
  have s1 : ∀ n, cSet (partFilled g (n + 2) 1) 1 (g 1) = .ok (partFilled g (n + 2) 2) := by
    intro n
    have := partFilled_set g (n := n + 2) (k := 1) (by omega)
    exact this
  have f0 : f 0 = .ok (g 0) := h 0 (by omega)
  unfold rbcFill
  match n with
  | 0 =>
    simp only [Nat.cast_zero, if_true]
    rw [f0, ok_bind, s0 0, ← partFilled_full]
  | 1 =>
    have f1 : f 1 = .ok (g 1) := h 1 (by omega)
    simp only [Nat.cast_one, one_ne_zero, if_false, if_true]
    rw [f0, ok_bind, s0 1, ok_bind, f1, ok_bind, s1 0, ← partFilled_full]
  | m + 2 =>
    have f1 : f 1 = .ok (g 1) := h 1 (by omega)
    simp only
    rw [if_neg (by omega), if_neg (by omega), f0, ok_bind, s0 (m + 2), ok_bind, f1, ok_bind,
      s1 (m + 1), ok_bind]
    apply loop2 g m
    intro k h2 hk
    rw [h k (by omega), ok_bind, partFilled_set g hk]

/-- The arrays of the constructor. -/
theorem rbcNew_ok {rcut rs : ℝ} (h : rs < rcut) (n : ℕ) (r : ℝ) :
    rbcNew rcut rs (n : ℤ) r = .ok ⟨rcut, rs, n, r,
      (List.range (n + 1)).map (fun k => (chebAt (scaled rcut rs r) k).1),
      (List.range (n + 1)).map (fun k => (chebAt (scaled rcut rs r) k).2 * (2 / (rcut - rs))),
      (List.range (n + 1)).map (fun k => rqVal rcut rs k r),
      (List.range (n + 1)).map (fun k => rqDer rcut rs k r)⟩ := by
  have e1 : rbcSwitch rcut rs r = cSwitch rcut rs r := rfl
  have e2 : rbcSwitchDer rcut rs r = cSwitchDeriv rcut rs r := rfl
  unfold rbcNew
  rw [if_pos h, if_neg (by omega), show (((n : ℤ) + 1).toNat) = n + 1 by omega]
  simp only
  rw [rbcChebVals_ok, ok_bind, rbcChebDers_ok, ok_bind]
  unfold rbcVals rbcDers
  rw [rbcFill_ok n _ (fun k => rqVal rcut rs k r) (by
      intro k hk
      rw [range_get _ hk, ok_bind, e1]; rfl), ok_bind,
    rbcFill_ok n _ (fun k => rqDer rcut rs k r) (by
      intro k hk
      rw [range_get _ hk, ok_bind, range_get _ hk, ok_bind, e1, e2]
      unfold rqDer
      rw [add_comm]; rfl), ok_bind]
  rfl

end MaterSDK
