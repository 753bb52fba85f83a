import Verif.Model.CellList
import Verif.Spec.Neigh

/-! # Specification vocabulary for the C++ neighbour list -/

namespace MaterSDK

/-- Position of the periodic image of `p` displaced by the lattice vector with coefficients `t`. -/
noncomputable def imagePos (L : Fin 3 → Vec ℝ) (p : Vec ℝ) (t : Fin 3 → ℤ) : Vec ℝ :=
  p + ∑ i, (t i : ℝ) • L i

/-- Cartesian position of the point with fractional coordinates `f`. -/
noncomputable def cartOf (L : Fin 3 → Vec ℝ) (f : Vec ℝ) : Vec ℝ := ∑ i, f i • L i

/-- The image `e = (j, t)` of atom `j` exists in the crystal (no displacement along an axis without
periodicity) and lies closer to the point `c` than `r`. -/
def NearBy (L : Fin 3 → Vec ℝ) (pbc : Fin 3 → Bool) (ps : List (Vec ℝ)) (r : ℝ) (c : Vec ℝ)
    (e : ℕ × (Fin 3 → ℤ)) : Prop :=
  (∀ q, pbc q = false → e.2 q = 0) ∧ ∃ p, ps[e.1]? = some p ∧ dist3 (imagePos L p e.2) c < r

/-- The point `p` lies in the half-open cell of `L`: its fractional coordinates are in `[0, 1)`. -/
def InCell (L : Fin 3 → Vec ℝ) (p : Vec ℝ) : Prop :=
  ∃ f : Vec ℝ, (∀ i, 0 ≤ f i ∧ f i < 1) ∧ p = cartOf L f

/-- Cells and periodicity flags the C++ neighbour list handles: a proper cell, at least one atom, all
atoms wrapped into the cell, along every Cartesian axis some lattice vector with a positive component,
and no component of a non-periodic lattice vector along a periodic Cartesian axis. -/
structure CellOk (L : Fin 3 → Vec ℝ) (atoms : List (ℤ × Vec ℝ)) (pbc : Fin 3 → Bool) : Prop where
  nonsing : (Matrix.of L).det ≠ 0
  nonempty : atoms ≠ []
  inCell : ∀ a ∈ atoms, InCell L a.2
  dir : ∀ p, ∃ q, 0 < L q p
  perp : ∀ p q, pbc p = true → pbc q = false → L q p = 0

/-- Two different images are never closer than `√(1/1000)`. -/
def ApartImages (L : Fin 3 → Vec ℝ) (ps : List (Vec ℝ)) : Prop :=
  ∀ (i j : ℕ) (p q : Vec ℝ) (t : Fin 3 → ℤ), ps[i]? = some p → ps[j]? = some q →
    (j, t) ≠ (i, 0) → 1 / 1000 < dist3 (imagePos L q t) p ^ 2

/-- The three numbers stored for one image. -/
noncomputable def relCoords (L : Fin 3 → Vec ℝ) (ps : List (Vec ℝ)) (c : Vec ℝ) (e : ℕ × (Fin 3 → ℤ)) :
    List ℝ :=
  match ps[e.1]? with
  | some p => [imagePos L p e.2 0 - c 0, imagePos L p e.2 1 - c 1, imagePos L p e.2 2 - c 2]
  | none => []

/-- Row `i` of a flat array with rows of `w` entries. -/
def flatRow {α : Type} (arr : List α) (w i : ℕ) : List α := (arr.drop (i * w)).take w

end MaterSDK
