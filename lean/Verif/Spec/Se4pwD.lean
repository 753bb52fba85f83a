import Verif.Spec.EnvMatrix

/-! # Vocabulary for `Props/Se4pwD.lean` -/

namespace MaterSDK

/-- The positions of the centres and of their listed neighbours (rows of `w` entries) exist, and `P` holds
for the place of each entry of the list, the position of its centre and that of its neighbour. -/
def TablePairs (n : ℕ) (ilist numneigh firstneigh : List ℤ) (w : ℕ) (x : List ℝ)
    (P : ℕ → Vec ℝ → Vec ℝ → Prop) : Prop :=
  ∀ ii < n, ∃ (i : ℕ) (c : Vec ℝ), ilist[ii]? = some (i : ℤ) ∧ StoredAt x i c ∧
    ∀ m : ℤ, numneigh[ii]? = some m → ∀ jj : ℕ, (jj : ℤ) < m → ∀ nb : ℕ,
      firstneigh[ii * w + jj]? = some (nb : ℤ) → ∃ q : Vec ℝ, StoredAt x nb q ∧ P (ii * w + jj) c q

/-- Tolerance of the rows of `Se4pw` for neighbours between `ρ` and `B` away. -/
noncomputable def seTol (rcut rs ρ B : ℝ) : ℝ := 32 * (B / 2 ^ 47) * (1 / (rcut - rs) + 1 / ρ) / ρ

/-- Tolerance of its derivative blocks. -/
noncomputable def seDerivTol (rcut rs ρ B : ℝ) : ℝ := 256 * (B / 2 ^ 47) * (1 / (rcut - rs) + 1 / ρ) ^ 2 / ρ

end MaterSDK
