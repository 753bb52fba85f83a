import Verif.Lemmas.Sort
import Verif.Lemmas.Except
import Mathlib.Data.List.Nodup
import Mathlib.Data.Int.Cast.Lemmas
import Mathlib.Algebra.CharZero.Defs
import Mathlib.Tactic.Ring
import Mathlib.Tactic.FieldSimp
import Mathlib.Tactic.FinCases
import Mathlib.Tactic.Push
import Mathlib.Tactic.Linarith
import Mathlib.Tactic.LinearCombination

/-! # Supercell lemmas -/

namespace MaterSDK

variable {K : Type} [Field K]

/-- Integer shifts of an odd supercell, in grid order. -/
def boxZ (m : Fin 3 → Nat) : List (Fin 3 → Int) :=
  (List.range (2 * m 0 + 1)).flatMap fun (i : Nat) =>
    (List.range (2 * m 1 + 1)).flatMap fun (j : Nat) =>
      (List.range (2 * m 2 + 1)).map fun (k : Nat) =>
        ![(i : Int) - m 0, (j : Int) - m 1, (k : Int) - m 2]

theorem mem_boxZ (m : Fin 3 → Nat) (t : Fin 3 → Int) : t ∈ boxZ m ↔ ∀ i, |t i| ≤ m i := by
  simp only [boxZ, List.mem_flatMap, List.mem_map, List.mem_range, abs_le]
  constructor
  · rintro ⟨i, hi, j, hj, k, hk, rfl⟩ a
    fin_cases a <;> simp <;> omega
  · intro h
    have h0 := h 0
    have h1 := h 1
    have h2 := h 2
    refine ⟨(t 0 + m 0).toNat, by omega, (t 1 + m 1).toNat, by omega, (t 2 + m 2).toNat, by omega, ?_⟩
    funext a
    fin_cases a <;> simp <;> omega

theorem boxZ_nodup (m : Fin 3 → Nat) : (boxZ m).Nodup := by
  unfold boxZ
  rw [List.nodup_flatMap]
  refine ⟨fun i _ => ?_, ?_⟩
  · rw [List.nodup_flatMap]
    refine ⟨fun j _ => ?_, ?_⟩
    · apply List.Nodup.map _ List.nodup_range
      intro a b hab
      have := congrFun hab 2
      simpa using this
    · apply List.Pairwise.imp _ List.nodup_range
      intro a b hab x hx hy
      obtain ⟨k, _, rfl⟩ := List.mem_map.1 hx
      obtain ⟨k', _, he⟩ := List.mem_map.1 hy
      have := congrFun he 1
      simp at this
      exact hab this.symm
  · apply List.Pairwise.imp _ List.nodup_range
    intro a b hab x hx hy
    obtain ⟨j, _, hx⟩ := List.mem_flatMap.1 hx
    obtain ⟨j', _, hy⟩ := List.mem_flatMap.1 hy
    obtain ⟨k, _, rfl⟩ := List.mem_map.1 hx
    obtain ⟨k', _, he⟩ := List.mem_map.1 hy
    have := congrFun he 0
    simp at this
    exact hab this.symm

theorem boxZ_length (m : Fin 3 → Nat) :
    (boxZ m).length = (2 * m 0 + 1) * (2 * m 1 + 1) * (2 * m 2 + 1) := by
  simp [boxZ, List.length_flatMap, mul_assoc]

/-- Shifts with the zero shift first. -/
def shiftsZ (m : Fin 3 → Nat) : List (Fin 3 → Int) := 0 :: (boxZ m).filter (fun t => t ≠ 0)

theorem mem_shiftsZ (m : Fin 3 → Nat) (t : Fin 3 → Int) : t ∈ shiftsZ m ↔ ∀ i, |t i| ≤ m i := by
  rw [← mem_boxZ]
  unfold shiftsZ
  by_cases h : t = 0
  · subst h
    simp [mem_boxZ]
  · simp [h]

theorem shiftsZ_nodup (m : Fin 3 → Nat) : (shiftsZ m).Nodup := by
  unfold shiftsZ
  rw [List.nodup_cons]
  exact ⟨by simp, (boxZ_nodup m).filter _⟩

theorem shiftsZ_length (m : Fin 3 → Nat) :
    (shiftsZ m).length = (2 * m 0 + 1) * (2 * m 1 + 1) * (2 * m 2 + 1) := by
  rw [← boxZ_length]
  apply List.Perm.length_eq
  rw [List.perm_ext_iff_of_nodup (shiftsZ_nodup m) (boxZ_nodup m)]
  intro t
  rw [mem_shiftsZ, mem_boxZ]

/-- Integer vector as a vector over the scalars. -/
def castVec (t : Fin 3 → Int) : Vec K := fun i => (t i : K)

theorem centred_odd [CharZero K] (m : Nat) (i : Nat) :
    (centred (2 * (m : Int) + 1) i : K) = (((i : Int) - m : Int) : K) := by
  unfold centred
  push_cast
  field_simp
  ring

theorem gridCoeffs_odd [CharZero K] (m : Fin 3 → Nat) {sc : Fin 3 → Int}
    (h : ∀ i, sc i = 2 * (m i : Int) + 1) :
    (gridCoeffs sc : List (Vec K)) = (boxZ m).map castVec := by
  unfold gridCoeffs boxZ
  have ht : ∀ i, (sc i).toNat = 2 * m i + 1 := by intro i; rw [h]; omega
  simp only [ht, List.map_flatMap, List.map_map]
  apply List.flatMap_congr
  intro i _
  apply List.flatMap_congr
  intro j _
  apply List.map_congr_left
  intro k _
  funext a
  simp only [h, centred_odd, Function.comp, castVec]
  fin_cases a <;> simp

theorem castVec_eq_zero [CharZero K] (t : Fin 3 → Int) : (castVec t : Vec K) = 0 ↔ t = 0 := by
  constructor
  · intro h
    funext i
    have := congrFun h i
    simpa [castVec] using this
  · rintro rfl
    funext i
    simp [castVec]

theorem shiftCoeffs_odd [CharZero K] [DecidableEq K] (m : Fin 3 → Nat) {sc : Fin 3 → Int}
    (h : ∀ i, sc i = 2 * (m i : Int) + 1) :
    (shiftCoeffs sc : List (Vec K)) = (shiftsZ m).map castVec := by
  unfold shiftCoeffs shiftsZ
  rw [gridCoeffs_odd m h, List.filter_map, List.map_cons]
  congr 1
  · symm; rw [castVec_eq_zero]
  · congr 1
    apply List.filter_congr
    intro t _
    simp [castVec_eq_zero]

theorem gridCoeffs_length (sc : Fin 3 → Int) :
    (gridCoeffs sc : List (Vec K)).length = (sc 0).toNat * (sc 1).toNat * (sc 2).toNat := by
  simp [gridCoeffs, List.length_flatMap, mul_assoc]

theorem centred_even [CharZero K] {n : Int} (hn : Even n) (i : Nat) : (centred n i : K) ≠ 0 := by
  unfold centred
  intro h
  have h2 : (2 * (i : Int) - (n - 1) : K) = 0 := by
    push_cast
    field_simp at h
    linear_combination h
  have h3 : (2 * (i : Int) - (n - 1) : Int) = 0 := by exact_mod_cast h2
  obtain ⟨k, rfl⟩ := hn
  omega

/-- With a non-positive or even factor the zero shift is not on the grid. -/
theorem zero_not_mem_grid [CharZero K] {sc : Fin 3 → Int} (h : ∃ i, sc i ≤ 0 ∨ Even (sc i)) :
    (0 : Vec K) ∉ (gridCoeffs sc : List (Vec K)) := by
  intro h0
  simp only [gridCoeffs, List.mem_flatMap, List.mem_map, List.mem_range] at h0
  obtain ⟨i, hi, j, hj, k, hk, he⟩ := h0
  obtain ⟨a, ha⟩ := h
  have hpos : 0 < sc a := by
    fin_cases a
    · show 0 < sc 0; omega
    · show 0 < sc 1; omega
    · show 0 < sc 2; omega
  have hev : Even (sc a) := ha.resolve_left (by omega)
  have := congrFun he a
  fin_cases a
  · exact centred_even (K := K) hev i (by simpa using this)
  · exact centred_even (K := K) hev j (by simpa using this)
  · exact centred_even (K := K) hev k (by simpa using this)

theorem pyRepeat_length {α : Type} (l : List α) (k : Int) :
    (pyRepeat l k).length = k.toNat * l.length := by
  simp [pyRepeat]

theorem replicate_flatten_replicate {α : Type} (a b : Nat) (l : List α) :
    (List.replicate a (List.replicate b l).flatten).flatten = (List.replicate (a * b) l).flatten := by
  induction a with
  | zero => simp
  | succ a ih =>
    rw [List.replicate_succ, List.flatten_cons, ih, Nat.succ_mul, Nat.add_comm, List.replicate_add,
      List.flatten_append]

theorem pyRepeat3 {α : Type} (l : List α) (a b c : Int) :
    pyRepeat (pyRepeat (pyRepeat l a) b) c
      = (List.replicate (a.toNat * b.toNat * c.toNat) l).flatten := by
  unfold pyRepeat
  rw [replicate_flatten_replicate, replicate_flatten_replicate]
  congr 2
  ring

theorem zip_replicate_flatMap {α β γ : Type} (l : List α) (T : List β) (f : β → List γ)
    (h : ∀ t, (f t).length = l.length) :
    ((List.replicate T.length l).flatten).zip (T.flatMap f) = T.flatMap (fun t => l.zip (f t)) := by
  induction T with
  | nil => rfl
  | cons t T ih =>
    rw [List.length_cons, List.replicate_succ, List.flatten_cons, List.flatMap_cons,
      List.zip_append (h t).symm, ih, List.flatMap_cons]

theorem shiftVector_castVec (lat : Matrix (Fin 3) (Fin 3) K) (t : Fin 3 → Int) :
    shiftVector lat (castVec t) = ∑ i, (t i : K) • lat i := by
  funext j
  simp [shiftVector, castVec, Matrix.diagonal_mul, Finset.sum_apply]

/-- The sites of an odd supercell. -/
def superSites (s : Struct K) (m : Fin 3 → Nat) : List (Site K) :=
  (shiftsZ m).flatMap (fun t => s.sites.map (fun u =>
    ⟨u.z, u.pos + ∑ i, (t i : K) • s.lattice i, none⟩))

theorem makeSupercell_odd [CharZero K] [DecidableEq K] (s : Struct K) (m : Fin 3 → Nat)
    {sc : Fin 3 → Int} (h : ∀ i, sc i = 2 * (m i : Int) + 1) (r : Bool) :
    s.makeSupercell sc r = .ok
      (let S : Struct K := ⟨Matrix.diagonal (fun i => (sc i : K)) * s.lattice, superSites s m⟩
       if r then S.reformat_ else S) := by
  have ht : ∀ i, (sc i).toNat = 2 * m i + 1 := by intro i; rw [h]; omega
  unfold Struct.makeSupercell
  simp only [pyRepeat3, shiftCoeffs_odd m h, ht, ← shiftsZ_length]
  rw [if_neg]
  · congr 1
    have e : (List.map (fun p => ({ z := p.1, pos := p.2, mag := none } : Site K))
        ((List.replicate (shiftsZ m).length (List.map Site.z s.sites)).flatten.zip
          (List.flatMap (fun c => List.map (fun t => t.pos + shiftVector s.lattice c) s.sites)
            (List.map castVec (shiftsZ m))))) = superSites s m := by
      rw [List.flatMap_map, zip_replicate_flatMap _ _ _ (by intro t; simp), List.map_flatMap]
      unfold superSites
      apply List.flatMap_congr
      intro t _
      rw [shiftVector_castVec, List.zip_map', List.map_map]
      rfl
    rw [e]
  · rw [not_not]
    simp [List.length_flatMap, Function.comp_def]

theorem makeSupercell_reject [CharZero K] [DecidableEq K] (s : Struct K) {sc : Fin 3 → Int}
    (h : ∃ i, sc i ≤ 0 ∨ Even (sc i)) (hs : s.sites ≠ []) (r : Bool) :
    s.makeSupercell sc r = .error .assertionError := by
  unfold Struct.makeSupercell
  simp only [pyRepeat3]
  rw [if_pos]
  have e : (shiftCoeffs sc : List (Vec K)).length = (sc 0).toNat * (sc 1).toNat * (sc 2).toNat + 1 := by
    unfold shiftCoeffs
    rw [List.length_cons, List.filter_eq_self.2, gridCoeffs_length]
    intro c hc
    rw [decide_eq_true_eq]
    rintro rfl
    exact zero_not_mem_grid h hc
  have hl : 0 < s.sites.length := List.length_pos_of_ne_nil hs
  simp [List.length_flatMap, e]
  exact hs

end MaterSDK
