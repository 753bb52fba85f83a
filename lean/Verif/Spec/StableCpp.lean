import Verif.Spec.Stable
import Verif.Spec.CrystalCpp

/-! # Slightly different inputs of the C++ code, used in `Props/StableCpp.lean` -/

namespace MaterSDK

/-- The atoms have the same types in the same order, and no coordinate of an image with cell indices up to `m` differs
by more than `ε`. -/
def MovedAtoms (L L' : Fin 3 → Vec ℝ) (atoms atoms' : List (ℤ × Vec ℝ)) (m : Fin 3 → ℕ) (ε : ℝ) : Prop :=
  List.Forall₂ (fun a a' : ℤ × Vec ℝ => a'.1 = a.1 ∧ ∀ n : Fin 3 → ℤ, (∀ i, |n i| ≤ (m i : ℤ)) →
    ∀ p, |imagePos L' a'.2 n p - imagePos L a.2 n p| ≤ ε) atoms atoms'

/-- Two inputs the neighbour list handles, whose atoms differ by at most `ε` in every coordinate. Atoms of the first
are at least `d` apart, `ε` is small compared with `d`, and no distance is as close to the cutoff as the displacement. The
numbers `m` are large enough for the cutoff. -/
structure SmallMove (L L' : Fin 3 → Vec ℝ) (atoms atoms' : List (ℤ × Vec ℝ)) (m : Fin 3 → ℕ) (rcut d ε : ℝ) :
    Prop where
  ok : CellOk L atoms (fun _ => true)
  ok' : CellOk L' atoms' (fun _ => true)
  big : ∀ i, rcut ≤ (m i : ℝ) * planeDist (Matrix.of L) i
  big' : ∀ i, rcut ≤ (m i : ℝ) * planeDist (Matrix.of L') i
  moved : MovedAtoms L L' atoms atoms' m ε
  far : FarImages L (atoms.map Prod.snd) d
  d_ge : 1 / 30 ≤ d
  d_le : d ≤ rcut
  eps_le : 256 * ε ≤ d
  gap : ∀ c ∈ atoms, ∀ a ∈ atoms, ∀ n : Fin 3 → ℤ, 6 * ε < |dist3 (imagePos L a.2 n) c.2 - rcut|

end MaterSDK
