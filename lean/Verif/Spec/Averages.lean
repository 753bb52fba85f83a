import Verif.Spec.Neigh
import Mathlib.Analysis.SpecialFunctions.Trigonometric.Inverse

/-! # Specification vocabulary for averages over neighbours and frames -/

namespace MaterSDK

open Matrix

open Classical in
/-- The lengths of all bonds from an atom of element `z1` of the cell to an atom of element `z2`
(another atom, or an image) within the cutoff; `S` is the supercell. -/
noncomputable def bondLengths (s S : Struct ℝ) (r : ℝ) (z1 z2 : ℕ) : List ℝ :=
  (s.sites.filter (fun c => c.z = z1)).flatMap (fun c =>
    (nbrsOf S c.pos r z2).map (fun t => dist3 t.pos c.pos))

/-- Cosine of the angle at `c` between the directions to `p` and `q`. -/
noncomputable def cosAt (c p q : Vec ℝ) : ℝ :=
  (∑ i, (p i - c i) * (q i - c i)) / (dist3 p c * dist3 q c)

/-- The pairs of different positions of a list, each once. -/
def distinctPairs {α : Type} : List α → List (α × α)
  | [] => []
  | a :: l => l.map (fun b => (a, b)) ++ distinctPairs l

/-- The contribution of one angle to the order parameter. -/
noncomputable def tetraTerm (c p q : Vec ℝ) : ℝ := (1 / 3 + cosAt c p q) ^ 2

/-- Angle in degrees at `c` between the directions to `p` and `q`. -/
noncomputable def angleAt (c p q : Vec ℝ) : ℝ := Real.arccos (cosAt c p q) * (180 / Real.pi)

open Classical in
/-- The row (angle, shorter length, longer length) of the neighbours at `p` and `q` of a centre at `c`;
no row if the angle is not within `eps` of `std`. -/
noncomputable def angleRow (std eps : ℝ) (c p q : Vec ℝ) : List (ℝ × ℝ × ℝ) :=
  if |angleAt c p q - std| < eps then
    [(angleAt c p q, min (dist3 p c) (dist3 q c), max (dist3 p c) (dist3 q c))]
  else []

/-- A rigid translation. -/
def Struct.moved (s : Struct ℝ) (v : Vec ℝ) : Struct ℝ :=
  ⟨s.lattice, s.sites.map (fun t => ⟨t.z, t.pos + v, t.mag⟩)⟩

/-- The point at integer multiples `n` of the lattice vectors. -/
def latticePoint (L : Matrix (Fin 3) (Fin 3) ℝ) (n : Fin 3 → ℤ) : Vec ℝ := ∑ i, (n i : ℝ) • L i

/-- The images considered for an odd supercell `2m+1`: `-m, ..., m` along each lattice vector. -/
noncomputable def boxShifts (m : Fin 3 → ℕ) : Finset (Fin 3 → ℤ) :=
  Fintype.piFinset (fun i => Finset.Icc (-(m i : ℤ)) (m i))

open Classical in
/-- Number of images of the point `q` in the box within `rcut` of `p`. -/
noncomputable def imageCount (L : Matrix (Fin 3) (Fin 3) ℝ) (m : Fin 3 → ℕ) (rcut : ℝ)
    (p q : Vec ℝ) : ℕ := ((boxShifts m).filter (fun n => dist3 (q + latticePoint L n) p ≤ rcut)).card

/-- Entry in row `i` and column `j` of a matrix given by its rows. -/
def matEntry {α : Type} (M : List (List α)) (i j : ℕ) : Option α := M[i]?.bind (fun row => row[j]?)

end MaterSDK
