import Verif.Model.Structure
import Mathlib.Analysis.SpecialFunctions.Pow.Real
import Mathlib.Analysis.Real.Sqrt

/-!
# Neighbour tables

Model of `/repo/matersdk/io/publicLayer/neigh.py` 11-210 and 306-440 (`get_nbrs_indices`, 214-255, is in
`Model/Infer.lean`).

Simplifications.
* Scalars are real numbers; `np.linalg.norm` of a row is the square root of the sum of squares.
* Only `coords_are_cartesian=True` (the default everywhere) and `reformat_mark=True` (the class
  documentation requires it).
* The three parallel arrays (atomic numbers, distances, coordinates) are one array of triples.
* `np.argsort` is not stable; it is an arbitrary function with the contract of `ArgSort`.
* Elements are given by atomic number (see `Model/Structure.lean`).
-/

namespace MaterSDK

open Classical

/-- `np.linalg.norm(v)` for a vector of three numbers. -/
noncomputable def norm3 (v : Vec ℝ) : ℝ := Real.sqrt (v 0 ^ 2 + v 1 ^ 2 + v 2 ^ 2)

/-- What is known about `np.argsort` (default, unstable kind): it returns a permutation of the
indices that puts the keys in non-decreasing order. -/
structure ArgSort where
  run : List ℝ → List ℕ
  perm : ∀ l, (run l).Perm (List.range l.length)
  sorted : ∀ l, ((run l).map (fun i => l[i]?.getD 0)).Pairwise (· ≤ ·)

/-- One entry of the neighbour table: atomic number, distance, coordinates. -/
abbrev NbrEntry := ℕ × ℝ × Vec ℝ

/-- The entry of a zero-initialised slot. -/
def zeroEntry : NbrEntry := (0, 0, 0)

/-- `tmp_distances` for one centre, neigh.py 36-40, 411-415. -/
noncomputable def distancesFrom (coords : List (Vec ℝ)) (c : Vec ℝ) : List ℝ :=
  coords.map (fun p => norm3 (p - c))

/-- One pass of the loop of `_get_key_neighs_info`, neigh.py 402-432: number of atoms within the
cutoff and the selected entries. -/
noncomputable def nbrEntries (A : ArgSort) (coords : List (Vec ℝ)) (zs : List ℕ) (rcut : ℝ)
    (center : ℕ) : Except PyErr (List NbrEntry) := do
  let c ← pyGet coords center
  let ds := distancesFrom coords c
  let num := ds.countP (fun d => d ≤ rcut)
  let idxs := (A.run ds).take num
  idxs.mapM (fun i => do
    let z ← pyGet zs i
    let d ← pyGet ds i
    let p ← pyGet coords i
    return (z, d, p))

/-- Running maximum starting at 0, as in `if n > max: max = n`. -/
def runningMax (l : List ℕ) : ℕ := l.foldl (fun m n => if n > m then n else m) 0

/-- `_get_key_neighs_info`, neigh.py 350-440: zero arrays as wide as the supercell, filled from the
left, cut to the largest count. -/
noncomputable def keyNeighsInfo (A : ArgSort) (coords : List (Vec ℝ)) (zs : List ℕ)
    (keys : List ℕ) (rcut : ℝ) : Except PyErr (List (List NbrEntry)) := do
  let rows ← keys.mapM (nbrEntries A coords zs rcut)
  let maxNum := runningMax (rows.map List.length)
  return rows.map (fun r => (r ++ List.replicate (zs.length - r.length) zeroEntry).take maxNum)

/-- `StructureNeighborsV1(structure, rcut, scaling_matrix)`, neigh.py 306-347: the neighbour table. -/
noncomputable def neighborTable (A : ArgSort) (s : Struct ℝ) (rcut : ℝ) (sc : Fin 3 → ℤ) :
    Except PyErr (List (List NbrEntry)) := do
  let supercell ← s.makeSupercell sc true
  let keys ← s.getKeyIdxs sc
  keyNeighsInfo A (supercell.sites.map Site.pos) (supercell.sites.map Site.z) keys rcut

/-- `get_max_num_nbrs_real`, neigh.py 11-55. -/
noncomputable def maxNumNbrsReal (s : Struct ℝ) (rcut : ℝ) (sc : Fin 3 → ℤ) : Except PyErr ℤ := do
  let keys ← s.getKeyIdxs sc
  let supercell ← s.makeSupercell sc true
  let coords := supercell.sites.map Site.pos
  let counts ← keys.mapM (fun k => do
    let c ← pyGet coords k
    return (distancesFrom coords c).countP (fun d => d < rcut))
  return (runningMax counts : ℤ) - 1

/-- Number of entries of one element strictly inside the cutoff, centre excluded: neigh.py 85-103. -/
noncomputable def elementCount (coords : List (Vec ℝ)) (zs : List ℕ) (rcut : ℝ) (k : ℕ) (e : ℕ) :
    Except PyErr ℕ := do
  let c ← pyGet coords k
  let marks := List.zipWith (fun z d => decide (z = e) && decide (d < rcut)) zs (distancesFrom coords c)
  return (marks.set k false).countP (fun b => b)

/-- `get_max_num_nbrs_real_element`, neigh.py 59-108: the dictionary as a list of items, keys in
order of first occurrence. -/
noncomputable def maxNumNbrsRealElement (s : Struct ℝ) (rcut : ℝ) (elements : List ℕ)
    (sc : Fin 3 → ℤ) : Except PyErr (List (ℕ × ℕ)) := do
  let keys ← s.getKeyIdxs sc
  let supercell ← s.makeSupercell sc true
  let coords := supercell.sites.map Site.pos
  let zs := supercell.sites.map Site.z
  (counterKeys elements).mapM (fun e => do
    let counts ← keys.mapM (fun k => elementCount coords zs rcut k e)
    return (e, runningMax counts))

/-- The masked coordinates of one row: entries after the first whose atomic number matches,
neigh.py 143-165 and 186-191. -/
def rowNbrs (row : List NbrEntry) (nz : ℕ) : List (Vec ℝ) :=
  (row.tail.filter (fun e => e.1 = nz)).map (fun e => e.2.2)

/-- `_get_nbrs_indices`, neigh.py 112-210, on a neighbour table of the structure.
`key_nbr_atomic_numbers[:, 0]` of a table without columns is an `IndexError`; a table without rows
comes from a structure without atoms and has no columns either. `width = 0` stands for `max_num_nbrs=False` (0 is falsy too); a width
below the real maximum makes the slice assignment fail (`ValueError`). -/
noncomputable def nbrsIndices (s : Struct ℝ) (table : List (List NbrEntry)) (cz nz width : ℕ) :
    Except PyErr (List (List ℕ)) := do
  if table.isEmpty then .error .indexError
  else if table.any List.isEmpty then .error .indexError
  else
    let rows := table.filter (fun r => (r.head?.map Prod.fst) = some cz)
    let maxReal := runningMax (rows.map (fun r => (rowNbrs r nz).length))
    let padded := rows.map (fun r =>
      rowNbrs r nz ++ List.replicate (maxReal - (rowNbrs r nz).length) (0 : Vec ℝ))
    let lists ← padded.mapM (fun r => r.mapM s.getSiteIndex)
    if width = 0 then return lists
    else if lists ≠ [] ∧ width < maxReal then .error .valueError
    else return lists.map (fun l => l ++ List.replicate (width - maxReal) 0)

end MaterSDK
