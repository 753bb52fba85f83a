import Verif.Model.Voxels

/-! # Notions for the properties of the voxels -/

namespace MaterSDK

/-- The grid of bins has the right numbers of rows and columns. -/
def Voxels.Shape (V : Voxels) : Prop :=
  (V.bins.length : ℤ) = V.ny ∧ ∀ row ∈ V.bins, (row.length : ℤ) = V.nz

/-- One bin. -/
def Voxels.bin (V : Voxels) (i j : ℕ) : List (ℚ × ℤ) := ((V.bins[i]?).getD [])[j]?.getD []

/-- Sizes for which the voxels of a periodic box exist: a positive box, voxels at most twice as wide as the
box. -/
def VoxelSizes (vsy vsz : ℚ) (box : Fin 3 → Vec ℚ) : Prop :=
  0 < box 0 0 ∧ 0 < box 1 1 ∧ 0 < box 2 2 ∧ 0 < vsy ∧ 0 < vsz ∧ vsy ≤ 2 * box 1 1 ∧ vsz ≤ 2 * box 2 2

/-- The particle belongs to voxel `(i, j)` of `ny` by `nz` equal ones: an image of its location under the
second and third box vector lies in the voxel. -/
def InVoxel (box : Fin 3 → Vec ℚ) (ny nz : ℤ) (loc : Vec ℚ) (i j : ℕ) : Prop :=
  ∃ s t : ℤ, i * (box 1 1 / ny) ≤ loc 1 - s * box 2 1 - t * box 1 1 ∧
    loc 1 - s * box 2 1 - t * box 1 1 < (i + 1) * (box 1 1 / ny) ∧
    j * (box 2 2 / nz) ≤ loc 2 - s * box 2 2 ∧ loc 2 - s * box 2 2 < (j + 1) * (box 2 2 / nz)

end MaterSDK
