import Verif.Lemmas.CellListImg
import Verif.Lemmas.CellListGeom
import Mathlib.LinearAlgebra.LinearIndependent.Basic
import Mathlib.Tactic.Ring
import Mathlib.Tactic.Linarith

/-! # The owned atoms of a supercell, for all scaling factors (helpers of C84) -/

namespace MaterSDK

/-- Storage index of the displacement zero, first factor outermost. -/
def zeroShiftIdx (sc : Fin 3 → ℤ) : ℤ :=
  -superLo (sc 0) * (sc 1 * sc 2) + (-superLo (sc 1) * sc 2 + -superLo (sc 2))

theorem superShifts_zero (sc : Fin 3 → ℤ) (hsc : ∀ p, 0 < sc p) :
    0 ≤ zeroShiftIdx sc ∧ (superShifts sc)[(zeroShiftIdx sc).toNat]? = some 0 := by
  have h := fun p => super_range (hsc p)
  have h0 : 0 ≤ zeroShiftIdx sc := by
    unfold zeroShiftIdx
    have a0 : 0 ≤ -superLo (sc 0) := by have := (h 0).1; omega
    have a1 : 0 ≤ -superLo (sc 1) := by have := (h 1).1; omega
    have a2 : 0 ≤ -superLo (sc 2) := by have := (h 2).1; omega
    have b1 := (hsc 1).le
    have b2 := (hsc 2).le
    positivity
  refine ⟨h0, ?_⟩
  have hg := cRange3_get (lo := fun i => superLo (sc i)) (hi := fun i => superHi (sc i))
    (i := (-superLo (sc 0)).toNat) (j := (-superLo (sc 1)).toNat) (k := (-superLo (sc 2)).toNat)
    (by have := h 0; omega) (by have := h 1; omega) (by have := h 2; omega)
  unfold superShifts
  have e : (zeroShiftIdx sc).toNat = (-superLo (sc 0)).toNat *
      ((superHi (sc 1) - superLo (sc 1) + 1).toNat * (superHi (sc 2) - superLo (sc 2) + 1).toNat) +
      ((-superLo (sc 1)).toNat * (superHi (sc 2) - superLo (sc 2) + 1).toNat + (-superLo (sc 2)).toNat) := by
    apply Int.ofNat_inj.1
    rw [(h 1).2.2, (h 2).2.2]
    push_cast
    rw [Int.toNat_of_nonneg h0, Int.toNat_of_nonneg (hsc 1).le, Int.toNat_of_nonneg (hsc 2).le,
      Int.toNat_of_nonneg (by have := (h 0).1; omega), Int.toNat_of_nonneg (by have := (h 1).1; omega),
      Int.toNat_of_nonneg (by have := (h 2).1; omega)]
    unfold zeroShiftIdx
    ring
  rw [e, hg]
  congr 1
  funext p
  have hz : ∀ p, superLo (sc p) + ((-superLo (sc p)).toNat : ℤ) = 0 := by
    intro p
    have := (h p).1
    omega
  fin_cases p <;> simp only [Matrix.cons_val_zero, Matrix.cons_val_one, Matrix.cons_val, Pi.zero_apply,
    Fin.zero_eta, Fin.mk_one, Fin.reduceFinMk] <;> exact hz _

/-- The index computed by `calc_prim_cell_idx` names a displacement of the supercell. -/
theorem primCellIdx_range (sc : Fin 3 → ℤ) (hsc : ∀ p, 0 < sc p) :
    0 ≤ primCellIdx sc ∧ primCellIdx sc < ((superShifts sc).length : ℤ) := by
  have h := fun p => super_range (hsc p)
  have hl : ((superShifts sc).length : ℤ) = sc 0 * sc 1 * sc 2 := by
    unfold superShifts
    rw [cRange3_length]
    push_cast
    rw [(h 0).2.2, (h 1).2.2, (h 2).2.2, Int.toNat_of_nonneg (hsc 0).le, Int.toNat_of_nonneg (hsc 1).le,
      Int.toNat_of_nonneg (hsc 2).le]
    ring
  rw [hl]
  unfold primCellIdx
  rw [primIdxAxis_eq (hsc 0), primIdxAxis_eq (hsc 1), primIdxAxis_eq (hsc 2)]
  have b : ∀ p, 0 ≤ -superLo (sc p) ∧ -superLo (sc p) + 1 ≤ sc p := by
    intro p
    have := h p
    omega
  have b0 := b 0; have b1 := b 1; have b2 := b 2
  generalize hx : -superLo (sc 0) = x at *
  generalize hy : -superLo (sc 1) = y at *
  generalize hz : -superLo (sc 2) = z at *
  have s0 := hsc 0; have s1 := hsc 1; have s2 := hsc 2
  generalize sc 0 = a at *
  generalize sc 1 = c at *
  generalize sc 2 = d at *
  obtain ⟨x0, x1⟩ := b0
  obtain ⟨y0, y1⟩ := b1
  obtain ⟨z0, z1⟩ := b2
  refine ⟨by positivity, ?_⟩
  have e1 : (y + 1) * a ≤ c * a := mul_le_mul_of_nonneg_right y1 s0.le
  have e2 : (z + 1) * (a * c) ≤ d * (a * c) := mul_le_mul_of_nonneg_right z1 (by positivity)
  nlinarith [e1, e2]

/-- 1 for an even factor, 0 for an odd one. -/
def evenFlag (n : ℤ) : ℤ := if 2 ∣ n then 1 else 0

theorem superLo_flag {n : ℤ} (h : 0 < n) : 2 * -superLo n = n - 1 - evenFlag n := by
  rw [superLo_eq h]
  unfold evenFlag
  split_ifs <;> omega

end MaterSDK
