import Verif.Model.CellList
import Verif.Spec.Neigh

/-! # Points of a cell and its planes -/

namespace MaterSDK

/-- The points of the (closed) cell of a structure. -/
def CellPoint (s : CStruct) (x : Vec ℝ) : Prop :=
  ∃ u : Fin 3 → ℝ, (∀ i, 0 ≤ u i ∧ u i ≤ 1) ∧ ∀ p, x p = s.origin p + ∑ i, u i * s.basis i p

/-- The plane of the two other lattice vectors, `k` lattice vectors `i` away from the origin. -/
def OnPlane (L : Fin 3 → Vec ℝ) (i : Fin 3) (k : ℝ) (x : Vec ℝ) : Prop :=
  ∃ c : Fin 3 → ℝ, c i = k ∧ x = ∑ j, c j • L j

end MaterSDK
