import Verif.Model.DeepMD
import Verif.Spec.Neigh

/-! # Specification vocabulary for DeepPot-SE features -/

namespace MaterSDK

/-- The smooth weight of the DeepPot-SE paper: `1/r` up to `rs`, `1/r` times a quintic switch between
`rs` and `rcut`, zero from `rcut` on. -/
noncomputable def smoothWeight (rcut rs r : ℝ) : ℝ :=
  if r < rs then 1 / r
  else if r < rcut then
    1 / r * (1 - 10 * ((r - rs) / (rcut - rs)) ^ 3 + 15 * ((r - rs) / (rcut - rs)) ^ 4
      - 6 * ((r - rs) / (rcut - rs)) ^ 5)
  else 0

/-- The environment-matrix row of a neighbour at `p` seen from a centre at `x`, with the weight of the
paper. -/
noncomputable def envAt (rcut rs : ℝ) (p x : Vec ℝ) : Fin 4 → ℝ :=
  let r := dist3 p x
  let s := smoothWeight rcut rs r
  ![s, s * (p 0 - x 0) / r, s * (p 1 - x 1) / r, s * (p 2 - x 2) / r]

/-- A rigid motion of a structure: lattice vectors (the rows of the lattice) and positions are
multiplied by `Q`, then every atom is shifted by `v`. -/
def Struct.move (s : Struct ℝ) (Q : Matrix (Fin 3) (Fin 3) ℝ) (v : Vec ℝ) : Struct ℝ :=
  ⟨s.lattice * Q.transpose, s.sites.map (fun t => ⟨t.z, Q.mulVec t.pos + v, t.mag⟩)⟩

/-- A row of the environment matrix with its last three entries multiplied by `Q`. -/
def rotateRow (Q : Matrix (Fin 3) (Fin 3) ℝ) (row : Fin 4 → ℝ) : Fin 4 → ℝ :=
  let u := Q.mulVec ![row 1, row 2, row 3]
  ![row 0, u 0, u 1, u 2]

/-- Number of table rows with a centre of the element. -/
def numCentres (table : List (List NbrEntry)) (cz : ℕ) : ℕ :=
  table.countP (fun r => r.head?.map Prod.fst = some cz)

end MaterSDK
