import Verif.Model.Structure
import Mathlib.Data.Real.Basic

/-! # Sizes and errors of stored coordinates -/

namespace MaterSDK

/-- No coordinate of an atom, moved by at most `m i` cells along vector `i`, exceeds `M`. -/
def CoordsUpTo (s : Struct ℝ) (m : Fin 3 → ℕ) (M : ℝ) : Prop :=
  ∀ t ∈ s.sites, ∀ p, |t.pos p| + ∑ i, (m i : ℝ) * |s.lattice i p| ≤ M

/-- Storing coordinates up to `B` changes none of them by more than `δ`. -/
def KeptWithin (store : Vec ℝ → Vec ℝ) (B δ : ℝ) : Prop :=
  ∀ x : Vec ℝ, (∀ q, |x q| ≤ B) → ∀ p, |store x p - x p| ≤ δ

end MaterSDK
