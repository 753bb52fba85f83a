import Verif.Spec.CellList

/-! # Specification vocabulary for the C++ neighbour list in doubles -/

namespace MaterSDK

/-- Along every Cartesian axis the point stays `δ` below the upper end of the cell and `δ` above its
lower end; where all lattice vectors have non-negative components it may also reach down to the lower
end itself. -/
def RoomyIn (L : Fin 3 → Vec ℝ) (δ : ℝ) (x : Vec ℝ) : Prop :=
  ∀ p, x p + δ ≤ ∑ i, max 0 (L i p) ∧ (∑ i, min 0 (L i p) + δ ≤ x p ∨ ((∀ i, 0 ≤ L i p) ∧ 0 ≤ x p))

/-- Sum of the absolute components. -/
def sum1 (v : Vec ℝ) : ℝ := |v 0| + |v 1| + |v 2|

/-- How far the cell is from a right-angled one: the product of the lengths of its vectors (measured by
`sum1`) over its volume. -/
noncomputable def skewOf (L : Fin 3 → Vec ℝ) : ℝ :=
  sum1 (L 0) * sum1 (L 1) * sum1 (L 2) / |(Matrix.of L).det|

/-- Size of the numbers the neighbour list works with: the cutoff, and the supercell that holds all images
within the cutoff. -/
noncomputable def scaleOf (L : Fin 3 → Vec ℝ) (rcut : ℝ) : ℝ :=
  rcut + ∑ i, sum1 (L i) * (3 * (rcut / planeDist (Matrix.of L) i) + 3)

/-- Tolerance of the neighbour list: 128 half units in the last place of a number of that size, times the
skewness of the cell. -/
noncomputable def nbrTol (L : Fin 3 → Vec ℝ) (rcut : ℝ) : ℝ := skewOf L * scaleOf L rcut / 2 ^ 46

/-- Crystals the neighbour list handles in doubles: as `CellOk`; in addition the numbers are moderate, the
cell is not extremely skew, and the atoms keep off the upper faces of the cell by the tolerance. -/
structure CellOkD (L : Fin 3 → Vec ℝ) (atoms : List (ℤ × Vec ℝ)) (pbc : Fin 3 → Bool) (rcut : ℝ) : Prop
    extends CellOk L atoms pbc where
  rcut_pos : 0 < rcut
  skew_le : skewOf L ≤ 4096
  scale_le : scaleOf L rcut ≤ 2 ^ 30
  thick : ∀ i, rcut ≤ 2 ^ 20 * planeDist (Matrix.of L) i
  room : ∀ a ∈ atoms, RoomyIn L (nbrTol L rcut) a.2

/-- Two different images are never closer than `d`. -/
def FarImages (L : Fin 3 → Vec ℝ) (ps : List (Vec ℝ)) (d : ℝ) : Prop :=
  ∀ (i j : ℕ) (p q : Vec ℝ) (t : Fin 3 → ℤ), ps[i]? = some p → ps[j]? = some q →
    (j, t) ≠ (i, 0) → d ≤ dist3 (imagePos L q t) p

end MaterSDK
