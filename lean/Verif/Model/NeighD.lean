import Verif.Model.Neigh
import Verif.Model.EnvMatrixD

/-!
# The Python neighbour table in doubles

`make_supercell_`, `get_key_idxs` and `StructureNeighborsV1` (`Verif/Model/Structure.lean`,
`Verif/Model/Neigh.lean`) once more, with every floating point operation followed by a rounding `R`; `R := flR` is
IEEE 754 double arithmetic.  With `R := id` and `keep := fun _ x => x` these are the definitions of those files
(`Lemmas/NeighD.lean`).

pymatgen keeps the fractional coordinates of a site and multiplies them with the lattice when the Cartesian ones are
asked for.  `keep lattice x` stands for what becomes of the Cartesian coordinates `x` on this way; it is an arbitrary
function.

Simplifications.
* No overflow and no underflow; integers converted to `double` are exact.
* Products with the zeros of `np.eye(3)` and sums with them are exact and left out.
* Products and sums are rounded one by one; `np.sqrt` is correctly rounded; `np.linalg.norm` adds the three squares
  from left to right.
* Otherwise as in `Structure.lean` and `Neigh.lean`.
-/

namespace MaterSDK

open Classical

variable (R : ℝ → ℝ) (keep : Matrix (Fin 3) (Fin 3) ℝ → Vec ℝ → Vec ℝ)

/-- `grid[d].ravel() - (scaling_matrix[d]-1)/2`, one entry: structure.py 429-431. -/
noncomputable def centredD (n : ℤ) (i : ℕ) : ℝ := R ((i : ℝ) - R (((n : ℝ) - 1) / 2))

/-- The grid, structure.py 402-432. -/
noncomputable def gridCoeffsD (sc : Fin 3 → ℤ) : List (Vec ℝ) :=
  (List.range (sc 0).toNat).flatMap fun i =>
    (List.range (sc 1).toNat).flatMap fun j =>
      (List.range (sc 2).toNat).map fun k =>
        ![centredD R (sc 0) i, centredD R (sc 1) j, centredD R (sc 2) k]

/-- `shift_matrix_coeffs`, structure.py 433-442. -/
noncomputable def shiftCoeffsD (sc : Fin 3 → ℤ) : List (Vec ℝ) :=
  0 :: (gridCoeffsD R sc).filter (fun c => c ≠ 0)

/-- `tmp_shift_vector_cart`, structure.py 471-473. -/
def shiftVectorD (lat : Matrix (Fin 3) (Fin 3) ℝ) (c : Vec ℝ) : Vec ℝ := fun j =>
  R (R (R (c 0 * lat 0 j) + R (c 1 * lat 1 j)) + R (c 2 * lat 2 j))

/-- `new_lattice_array`, structure.py 393-395. -/
def superLatticeD (lat : Matrix (Fin 3) (Fin 3) ℝ) (sc : Fin 3 → ℤ) : Matrix (Fin 3) (Fin 3) ℝ :=
  fun i j => R ((sc i : ℝ) * lat i j)

/-- `make_supercell_`, structure.py 370-503. -/
noncomputable def Struct.makeSupercellD (s : Struct ℝ) (sc : Fin 3 → ℤ) (reformat : Bool) :
    Except PyErr (Struct ℝ) :=
  let newLattice := superLatticeD R s.lattice sc
  let coords : List (Vec ℝ) := (shiftCoeffsD R sc).flatMap fun c =>
    s.sites.map fun t => (fun j => R (t.pos j + shiftVectorD R s.lattice c j))
  let species := pyRepeat (pyRepeat (pyRepeat (s.sites.map Site.z) (sc 0)) (sc 1)) (sc 2)
  if species.length ≠ coords.length then .error .assertionError
  else
    let supercell : Struct ℝ :=
      ⟨newLattice, (species.zip coords).map (fun p => ⟨p.1, keep newLattice p.2, none⟩)⟩
    .ok (if reformat then supercell.reformat_ else supercell)

/-- `get_key_idxs`, structure.py 281-309, with `_get_bidx2aidx_supercell`, 312-351. -/
noncomputable def Struct.getKeyIdxsD (s : Struct ℝ) (sc : Fin 3 → ℤ) : Except PyErr (List ℕ) := do
  let supercell ← s.makeSupercellD R keep sc false
  let sorted := sortedIndexes supercell.sites
  let d := sorted.map (fun i => (i, sorted.idxOf i))
  let keys ← (List.range s.sites.length).mapM (fun i => pyDictGet d i)
  return sortByKey id keys

/-- `tmp_distances` for one centre, neigh.py 411-415. -/
noncomputable def distancesFromD (coords : List (Vec ℝ)) (c : Vec ℝ) : List ℝ :=
  coords.map (fun p => lengthD R (fun q => R (p q - c q)))

/-- One pass of the loop of `_get_key_neighs_info`, neigh.py 402-432. -/
noncomputable def nbrEntriesD (A : ArgSort) (coords : List (Vec ℝ)) (zs : List ℕ) (rcut : ℝ)
    (center : ℕ) : Except PyErr (List NbrEntry) := do
  let c ← pyGet coords center
  let ds := distancesFromD R coords c
  let num := ds.countP (fun d => d ≤ rcut)
  let idxs := (A.run ds).take num
  idxs.mapM (fun i => do
    let z ← pyGet zs i
    let d ← pyGet ds i
    let p ← pyGet coords i
    return (z, d, p))

/-- `_get_key_neighs_info`, neigh.py 350-440. -/
noncomputable def keyNeighsInfoD (A : ArgSort) (coords : List (Vec ℝ)) (zs : List ℕ)
    (keys : List ℕ) (rcut : ℝ) : Except PyErr (List (List NbrEntry)) := do
  let rows ← keys.mapM (nbrEntriesD R A coords zs rcut)
  let maxNum := runningMax (rows.map List.length)
  return rows.map (fun r => (r ++ List.replicate (zs.length - r.length) zeroEntry).take maxNum)

/-- `StructureNeighborsV1(structure, rcut, scaling_matrix)`, neigh.py 306-347. -/
noncomputable def neighborTableD (A : ArgSort) (s : Struct ℝ) (rcut : ℝ) (sc : Fin 3 → ℤ) :
    Except PyErr (List (List NbrEntry)) := do
  let supercell ← s.makeSupercellD R keep sc true
  let keys ← s.getKeyIdxsD R keep sc
  keyNeighsInfoD R A (supercell.sites.map Site.pos) (supercell.sites.map Site.z) keys rcut

end MaterSDK
