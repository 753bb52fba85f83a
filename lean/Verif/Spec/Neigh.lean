import Verif.Model.Neigh
import Verif.Spec.Structure
import Mathlib.LinearAlgebra.CrossProduct

/-! # Specification vocabulary for neighbour tables -/

namespace MaterSDK

open Matrix

/-- Euclidean distance of two points. -/
noncomputable def dist3 (p q : Vec ℝ) : ℝ := Real.sqrt (∑ i, (p i - q i) ^ 2)

open Classical in
/-- The sites of a structure at most `r` away from a point. -/
noncomputable def within (S : Struct ℝ) (p : Vec ℝ) (r : ℝ) : List (Site ℝ) :=
  S.sites.filter (fun t => dist3 t.pos p ≤ r)

open Classical in
/-- Number of sites other than one sitting at `p` that are strictly closer to `p` than `r`. -/
noncomputable def othersCloser (S : Struct ℝ) (p : Vec ℝ) (r : ℝ) : ℕ :=
  S.sites.countP (fun t => 0 < dist3 t.pos p ∧ dist3 t.pos p < r)

open Classical in
/-- The same, for one element. -/
noncomputable def othersCloserOf (S : Struct ℝ) (p : Vec ℝ) (r : ℝ) (e : ℕ) : ℕ :=
  S.sites.countP (fun t => t.z = e ∧ 0 < dist3 t.pos p ∧ dist3 t.pos p < r)

/-- Distance between the lattice planes spanned by the two other lattice vectors: volume of the
cell divided by the area of the face. -/
noncomputable def planeDist (L : Matrix (Fin 3) (Fin 3) ℝ) (i : Fin 3) : ℝ :=
  |L.det| / dist3 (crossProduct (L (i + 1)) (L (i + 2))) 0

open Classical in
/-- The atoms of element `e` other than the one at `p` within distance `r` of `p`. -/
noncomputable def nbrsOf (S : Struct ℝ) (p : Vec ℝ) (r : ℝ) (e : ℕ) : List (Site ℝ) :=
  S.sites.filter (fun t => t.z = e ∧ 0 < dist3 t.pos p ∧ dist3 t.pos p ≤ r)

/-- No atom is a periodic image of another atom (within the tolerance of `NearImage`). -/
def Separated (s : Struct ℝ) : Prop :=
  ∀ (i j : ℕ) (t u : Site ℝ), i ≠ j → s.sites[i]? = some t → s.sites[j]? = some u →
    ¬ NearImage s.lattice t.pos u.pos

end MaterSDK
