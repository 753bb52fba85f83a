import Verif.Spec.EnvMatrix

/-! # The crystal described by the input of the C++ neighbour list -/

namespace MaterSDK

/-- All atoms of the infinite crystal: type and position. -/
def typedCrystal (L : Fin 3 → Vec ℝ) (atoms : List (ℤ × Vec ℝ)) : Set (ℤ × Vec ℝ) :=
  {x | ∃ a ∈ atoms, ∃ n : Fin 3 → ℤ, x = (a.1, a.2 + ∑ i, (n i : ℝ) • L i)}

/-- No atom of the crystal has more neighbours of a type closer than `r` than there are slots for it. -/
def CrystalRoom (C : Set (ℤ × Vec ℝ)) (umax : List ℕ) (r : ℝ) : Prop :=
  ∀ x ∈ C, ∀ (t m : ℕ), umax[t]? = some m → ∀ l : List (Vec ℝ), l.Nodup →
    (∀ p ∈ l, ((t : ℤ), p) ∈ C ∧ p ≠ x.2 ∧ dist3 p x.2 < r) → l.length ≤ m

/-- Derivatives of the four entries of a slot by the three coordinates, seen after a rotation: the
entries are rotated like `rotateRow` says, the directions like vectors. -/
def rotateDeriv (Q : Matrix (Fin 3) (Fin 3) ℝ) (M : Matrix (Fin 4) (Fin 3) ℝ) : Matrix (Fin 4) (Fin 3) ℝ :=
  fun i k => rotateRow Q (fun j => (M * Q.transpose) j k) i

end MaterSDK
