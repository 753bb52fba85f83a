import Verif.Spec.Cross
import Verif.Spec.NeighD
import Verif.Spec.EnvMatrixD

/-! # Specification vocabulary for comparing the two environment matrices in doubles -/

namespace MaterSDK

/-- Error of a relative position in the Python code: coordinates up to `M`, changed by at most `δ` when they are
stored. -/
noncomputable def pyPosTol (M δ : ℝ) : ℝ := 2 * δ + 400 * (M * 2 ^ (-53 : ℤ))

/-- Error of a distance in the Python code. -/
noncomputable def pyDistTol (M δ : ℝ) : ℝ := 6 * δ + 126 * (M * 2 ^ (-53 : ℤ))

/-- Tolerance of a Python environment row. -/
noncomputable def pyEnvTol (M δ rcut rs d : ℝ) : ℝ := 32 * pyPosTol M δ * (1 / (rcut - rs) + 1 / d) / d

/-- Tolerance of a Python derivative block. -/
noncomputable def pyDerivTol (M δ rcut rs d : ℝ) : ℝ := 256 * pyPosTol M δ * (1 / (rcut - rs) + 1 / d) ^ 2 / d

/-- No atom of the crystal is at a distance of the cutoff up to `τ`. -/
def NoneNear (s : Struct ℝ) (r τ : ℝ) : Prop :=
  ∀ c ∈ s.sites, ∀ t ∈ s.sites, ∀ n : Fin 3 → ℤ, τ < |dist3 (imagePos s.lattice t.pos n) c.pos - r|

end MaterSDK
