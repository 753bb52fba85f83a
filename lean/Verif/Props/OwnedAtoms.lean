import Verif.Lemmas.OwnedAtoms
import Mathlib.Tactic.LinearCombination
import Mathlib.Tactic.NormNum
import Mathlib.Tactic.FinCases

/-! # C84 for all scaling factors -/

namespace MaterSDK

/-- C84: exactly for which factors it holds. Let the lattice vectors be independent and the factors `n₀`,
`n₁`, `n₂` positive, with `eᵢ = 1` if `nᵢ` is even and 0 otherwise. The `i`-th owned atom of the supercell is
atom `i` of the original cell if and only if `e₂ (n₀ n₁ - 1) + e₁ (n₀ - n₂) = e₀ (n₁ n₂ - 1)`; an owned atom
is always an atom of the supercell. -/
theorem C84_exact (s : CStruct) (hL : LinearIndependent ℝ s.basis) (n : Fin 3 → ℤ) (hn : ∀ p, 0 < n p)
    (i : ℕ) (a : ℤ × Vec ℝ) (ha : s.atoms[i]? = some a) :
    ∃ k : ℕ, ∃ b, (CSupercell.make s n).ownedAtomIdxs[i]? = some (k : ℤ) ∧
      (CSupercell.make s n).struct.atoms[k]? = some b ∧
      (b = a ↔ (if 2 ∣ n 2 then 1 else 0) * (n 0 * n 1 - 1) + (if 2 ∣ n 1 then 1 else 0) * (n 0 - n 2) =
        (if 2 ∣ n 0 then 1 else 0) * (n 1 * n 2 - 1)) := by
  obtain ⟨hi, _⟩ := List.getElem?_eq_some_iff.1 ha
  obtain ⟨hp0, hp1⟩ := primCellIdx_range n hn
  obtain ⟨hz0, hz⟩ := superShifts_zero n hn
  have hlt : (primCellIdx n).toNat < (superShifts n).length := by omega
  obtain ⟨t, ht⟩ : ∃ t, (superShifts n)[(primCellIdx n).toNat]? = some t :=
    ⟨_, List.getElem?_eq_getElem hlt⟩
  refine ⟨(primCellIdx n).toNat * s.atoms.length + i, _, ?_, superAtoms_get s n ht ha, ?_⟩
  · unfold CSupercell.ownedAtomIdxs CSupercell.make
    rw [List.getElem?_map, List.getElem?_range hi]
    simp only [Option.map_some, Option.some.injEq]
    rw [Nat.cast_add, Nat.cast_mul, Int.toNat_of_nonneg hp0]
  · have h1 : (a.1, imagePos s.basis a.2 t) = a ↔ t = 0 := by
      constructor
      · intro h
        have h2 : imagePos s.basis a.2 t = a.2 := congrArg Prod.snd h
        have h3 : ∑ j, (t j : ℝ) • s.basis j = 0 := by
          unfold imagePos at h2
          exact left_eq_add.1 h2.symm
        have := Fintype.linearIndependent_iff.1 hL (fun j => (t j : ℝ)) h3
        funext j
        exact_mod_cast this j
      · rintro rfl
        rw [imagePos_zero]
    have h2 : t = 0 ↔ primCellIdx n = zeroShiftIdx n := by
      constructor
      · rintro rfl
        have hnd : (superShifts n).Nodup := cRange3_nodup _ _
        have := (List.getElem?_inj hlt hnd).1 (ht.trans hz.symm)
        omega
      · intro h
        rw [h, hz] at ht
        exact (Option.some.inj ht).symm
    rw [h1, h2]
    unfold primCellIdx zeroShiftIdx
    rw [primIdxAxis_eq (hn 0), primIdxAxis_eq (hn 1), primIdxAxis_eq (hn 2)]
    have e0 := superLo_flag (hn 0)
    have e1 := superLo_flag (hn 1)
    have e2 := superLo_flag (hn 2)
    change _ ↔ evenFlag (n 2) * (n 0 * n 1 - 1) + evenFlag (n 1) * (n 0 - n 2) =
      evenFlag (n 0) * (n 1 * n 2 - 1)
    generalize evenFlag (n 0) = f0 at *
    generalize evenFlag (n 1) = f1 at *
    generalize evenFlag (n 2) = f2 at *
    generalize -superLo (n 0) = x at *
    generalize -superLo (n 1) = y at *
    generalize -superLo (n 2) = z at *
    generalize n 0 = a0 at *
    generalize n 1 = a1 at *
    generalize n 2 = a2 at *
    constructor
    · intro h
      linear_combination (-2 : ℤ) * h + (1 - a1 * a2) * e0 + (a0 - a2) * e1 + (a0 * a1 - 1) * e2
    · intro h
      have : (2 : ℤ) * (x + y * a0 + z * a0 * a1) = 2 * (x * (a1 * a2) + (y * a2 + z)) := by
        linear_combination (-1 : ℤ) * h + (1 - a1 * a2) * e0 + (a0 - a2) * e1 + (a0 * a1 - 1) * e2
      omega

/-- C84: it holds for odd factors, and whenever the first and the last factor agree, for instance for
`n × n × n` supercells. -/
theorem C84_equal_ends (s : CStruct) (hL : LinearIndependent ℝ s.basis) (n : Fin 3 → ℤ) (hn : ∀ p, 0 < n p)
    (h : n 0 = n 2) (i : ℕ) (a : ℤ × Vec ℝ) (ha : s.atoms[i]? = some a) :
    ∃ k : ℕ, (CSupercell.make s n).ownedAtomIdxs[i]? = some (k : ℤ) ∧
      (CSupercell.make s n).struct.atoms[k]? = some a := by
  obtain ⟨k, b, h1, h2, h3⟩ := C84_exact s hL n hn i a ha
  have : b = a := h3.2 (by rw [h]; ring)
  exact ⟨k, h1, this ▸ h2⟩

-- Lattice and atoms to which the two theorems apply; `2 × 3 × 2` meets the condition, `4 × 1 × 2` does not.
example : LinearIndependent ℝ (CStruct.make (fun i => Pi.single i 4) [(1, 0), (8, ![2, 1, 1])] true).basis ∧
    (CStruct.make (fun i => Pi.single i 4) [(1, 0), (8, ![2, 1, 1])] true).atoms[1]? = some (8, ![2, 1, 1]) ∧
    (![2, 3, 2] : Fin 3 → ℤ) 0 = (![2, 3, 2] : Fin 3 → ℤ) 2 := by
  refine ⟨?_, rfl, rfl⟩
  rw [Fintype.linearIndependent_iff]
  intro g hg i
  have := congrFun hg i
  simp only [CStruct.make, Finset.sum_apply, Pi.smul_apply, smul_eq_mul, Pi.single_apply, mul_ite, mul_zero,
    Pi.zero_apply, Finset.sum_ite_eq, Finset.mem_univ, if_true] at this
  linarith

example : ¬ ((if 2 ∣ (2 : ℤ) then 1 else 0) * ((4 : ℤ) * 1 - 1) + (if 2 ∣ (1 : ℤ) then 1 else 0) * (4 - 2) =
    (if 2 ∣ (4 : ℤ) then 1 else 0) * (1 * 2 - 1)) := by decide

end MaterSDK
