import Verif.Spec.CellListD
import Verif.Spec.EnvMatrix

/-! # Specification vocabulary for the C++ environment matrix in doubles -/

namespace MaterSDK

/-- Tolerance of an environment row: how far the smooth weight and its directions can move when a relative
position of length at least `d` moves by the tolerance of the neighbour list. -/
noncomputable def envTol (L : Fin 3 → Vec ℝ) (rcut rs d : ℝ) : ℝ :=
  32 * nbrTol L rcut * (1 / (rcut - rs) + 1 / d) / d

/-- Tolerance of a derivative block. -/
noncomputable def envDerivTol (L : Fin 3 → Vec ℝ) (rcut rs d : ℝ) : ℝ :=
  256 * nbrTol L rcut * (1 / (rcut - rs) + 1 / d) ^ 2 / d

end MaterSDK
