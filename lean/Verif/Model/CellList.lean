import Verif.Model.Neigh
import Mathlib.Algebra.Order.Floor.Ring

/-!
# C++ structures, bins and neighbour lists

Model of
* `/repo/source/core/include/vec3Operation.h` 29-33, 72-98 (`dot`, `cross`, `normalize`, `norm`),
* `/repo/source/nblist/include/structure.h` 141-261 (constructors), 425-472 (`calc_cart_coords`),
  482-601 (`make_supercell`), 679-736 (projected lengths, interplanar distances), 751-837 (vertices
  and limits),
* `/repo/source/nblist/include/binLinkedList.h` 331-348, 450-493 (`Supercell`), 587-693, 804-1037
  (`BinLinkedList`),
* `/repo/source/nblist/include/neighborList.h` 15-53, 143-175, 259-324, 453-496, 517-564
  (`NeighborList`),
* `/repo/source/nblist/bind/nblist_bind.cc` 29-176 (the Python entry point only converts types).

Simplifications.
* Scalars are real numbers and `int` is unbounded; integer `/` and `%` truncate towards zero as in
  C++ (`Int.tdiv`, `Int.tmod`).
* Memory is a list; reading or writing outside it is the error `outOfBounds`. The C++ code does not
  check, so there this error stands for undefined behaviour.
* Copying, assigning and freeing objects is not modelled.
* The parallel arrays `atomic_numbers` and `cart_coords` are one array of pairs.
* A cutoff or bin size that is not positive, or a flat lattice, makes the code divide by zero or
  allocate a negative size: error `undefined`.
* The `while` loop over a bin gets as many steps as there are atoms; running out of steps is the error
  `undefined` (it stands for an endless loop).
* `std::sort` is an arbitrary function with the contract of `ArgSort`.
-/

namespace MaterSDK

open Classical

/-- What can go wrong in the C++ code. -/
inductive CErr
  | outOfBounds | undefined | assertFail | exception
  deriving DecidableEq, Repr

/-- Read `l[i]`. -/
def cGet {α : Type} (l : List α) (i : ℤ) : Except CErr α :=
  if i < 0 then .error .outOfBounds
  else match l[i.toNat]? with
    | some a => .ok a
    | none => .error .outOfBounds

/-- Write `l[i] = a`. -/
def cSet {α : Type} (l : List α) (i : ℤ) (a : α) : Except CErr (List α) :=
  if 0 ≤ i ∧ i < l.length then .ok (l.set i.toNat a) else .error .outOfBounds

/-- Write consecutive values from `off` on. -/
def cWrite {α : Type} (l : List α) (off : ℤ) : List α → Except CErr (List α)
  | [] => .ok l
  | v :: vs => do
    let l' ← cSet l off v
    cWrite l' (off + 1) vs

/-- The values of `for (i = lo; i <= hi; i++)`. -/
def cRange (lo hi : ℤ) : List ℤ := (List.range (hi - lo + 1).toNat).map (fun k : ℕ => lo + k)

/-- The values of three nested loops with inclusive bounds. -/
def cRange3 (lo hi : Fin 3 → ℤ) : List (Fin 3 → ℤ) :=
  (cRange (lo 0) (hi 0)).flatMap fun i =>
    (cRange (lo 1) (hi 1)).flatMap fun j =>
      (cRange (lo 2) (hi 2)).map fun k => ![i, j, k]

/-- `vec3Operation::dot`, vec3Operation.h 29-33. -/
def cDot (v w : Vec ℝ) : ℝ := v 0 * w 0 + v 1 * w 1 + v 2 * w 2

/-- `vec3Operation::cross`, vec3Operation.h 72-79. -/
def cCross (v w : Vec ℝ) : Vec ℝ :=
  ![v 1 * w 2 - v 2 * w 1, v 2 * w 0 - v 0 * w 2, v 0 * w 1 - v 1 * w 0]

/-- `vec3Operation::normalize`, vec3Operation.h 82-91. -/
noncomputable def cNormalize (v : Vec ℝ) : Vec ℝ := fun i => v i / norm3 v

/-- `Structure`: lattice vectors, pseudo origin, atomic numbers and Cartesian coordinates. -/
structure CStruct where
  basis : Fin 3 → Vec ℝ
  origin : Vec ℝ
  atoms : List (ℤ × Vec ℝ)

/-- `Structure(num_atoms, basis_vectors, atomic_numbers, coords, is_cart_coords)`,
structure.h 211-261, with `calc_cart_coords`, 453-472. -/
noncomputable def CStruct.make (basis : Fin 3 → Vec ℝ) (atoms : List (ℤ × Vec ℝ)) (isCart : Bool) :
    CStruct :=
  { basis := basis
    origin := 0
    atoms := if isCart then atoms
      else atoms.map (fun a => (a.1, fun p =>
        a.2 0 * basis 0 p + a.2 1 * basis 1 p + a.2 2 * basis 2 p)) }

/-- Lower end of the replica range, structure.h 490-499. -/
def superLo (n : ℤ) : ℤ := if n.tmod 2 = 0 then (-n).tdiv 2 + 1 else (-(n - 1)).tdiv 2

/-- Upper end of the replica range, structure.h 490-499. -/
def superHi (n : ℤ) : ℤ := if n.tmod 2 = 0 then n.tdiv 2 else (n - 1).tdiv 2

/-- `make_supercell`, structure.h 482-601, for positive factors. -/
noncomputable def CStruct.makeSupercell (s : CStruct) (sc : Fin 3 → ℤ) : CStruct :=
  { basis := fun i p => s.basis i p * sc i
    origin := fun p => superLo (sc 0) * s.basis 0 p + superLo (sc 1) * s.basis 1 p +
      superLo (sc 2) * s.basis 2 p
    atoms := (cRange3 (fun i => superLo (sc i)) (fun i => superHi (sc i))).flatMap fun t =>
      s.atoms.map fun a => (a.1, fun p =>
        a.2 p + s.basis 0 p * t 0 + s.basis 1 p * t 1 + s.basis 2 p * t 2) }

/-- `get_projected_lengths`, structure.h 679-702. -/
def CStruct.projected (s : CStruct) (p : Fin 3) : ℝ :=
  |s.basis 0 p| + |s.basis 1 p| + |s.basis 2 p|

/-- `get_interplanar_distances`, structure.h 711-736. -/
noncomputable def CStruct.interplanar (s : CStruct) : Fin 3 → ℝ :=
  ![|cDot (s.basis 0) (cNormalize (cCross (s.basis 1) (s.basis 2)))|,
    |cDot (s.basis 1) (cNormalize (cCross (s.basis 0) (s.basis 2)))|,
    |cDot (s.basis 2) (cNormalize (cCross (s.basis 0) (s.basis 1)))|]

/-- `get_vertexes`, structure.h 751-789. -/
noncomputable def CStruct.vertexes (s : CStruct) : List (Vec ℝ) :=
  (cRange3 (fun _ => 0) (fun _ => 1)).map fun t => fun p =>
    s.origin p + (t 0 * s.basis 0 p + t 1 * s.basis 1 p + t 2 * s.basis 2 p)

/-- `get_limit_xyz()[p][0]`, structure.h 792-837. -/
noncomputable def CStruct.minLimit (s : CStruct) (p : Fin 3) : ℝ :=
  match s.vertexes with
  | [] => 0
  | v :: vs => vs.foldl (fun m w => if w p < m then w p else m) (v p)

/-- `get_limit_xyz()[p][1]`, structure.h 792-837. -/
noncomputable def CStruct.maxLimit (s : CStruct) (p : Fin 3) : ℝ :=
  match s.vertexes with
  | [] => 0
  | v :: vs => vs.foldl (fun m w => if w p > m then w p else m) (v p)

/-- `calc_prim_cell_idx_xyz`, binLinkedList.h 450-465. -/
def primIdxAxis (n : ℤ) : ℤ := if n.tmod 2 ≠ 0 then (n - 1).tdiv 2 else n.tdiv 2 - 1

/-- `calc_prim_cell_idx`, binLinkedList.h 473-480. -/
def primCellIdx (sc : Fin 3 → ℤ) : ℤ :=
  primIdxAxis (sc 0) + primIdxAxis (sc 1) * sc 0 + primIdxAxis (sc 2) * sc 0 * sc 1

/-- `Supercell(structure, scaling_matrix)`, binLinkedList.h 331-348. -/
structure CSupercell where
  struct : CStruct
  primNum : ℕ
  sc : Fin 3 → ℤ
  primIdx : ℤ

/-- Construct the supercell, binLinkedList.h 331-348. -/
noncomputable def CSupercell.make (s : CStruct) (sc : Fin 3 → ℤ) : CSupercell :=
  { struct := s.makeSupercell sc, primNum := s.atoms.length, sc := sc, primIdx := primCellIdx sc }

/-- `calc_owned_atom_idxs`, binLinkedList.h 488-493. -/
def CSupercell.ownedAtomIdxs (S : CSupercell) : List ℤ :=
  (List.range S.primNum).map (fun ii : ℕ => S.primIdx * S.primNum + ii)

/-- `scaling_matrix`, binLinkedList.h 602-608 and 660-665. -/
noncomputable def binScaling (s : CStruct) (rcut : ℝ) (pbc : Fin 3 → Bool) (p : Fin 3) : ℤ :=
  if pbc p = false then 1 else ⌈rcut / s.interplanar p⌉ * 2 + 1

/-- Bin of a point along one axis, binLinkedList.h 821-823. -/
noncomputable def binIdx (minL size : Vec ℝ) (x : Vec ℝ) (p : Fin 3) : ℤ :=
  ⌊(x p - minL p) / size p⌋

/-- Index of a bin in `heads_lst`, binLinkedList.h 824-828. -/
def linIdx (nb b : Fin 3 → ℤ) : ℤ := b 0 + b 1 * nb 0 + b 2 * nb 0 * nb 1

/-- The loop of `_build`, binLinkedList.h 816-831, over the bin indices of the atoms. -/
def fillBins : List ℤ → ℕ → List ℤ → List ℤ → Except CErr (List ℤ × List ℤ)
  | [], _, heads, nexts => .ok (heads, nexts)
  | b :: bs, ii, heads, nexts => do
    let h ← cGet heads b
    let nexts' ← cSet nexts ii h
    let heads' ← cSet heads b ii
    fillBins bs (ii + 1) heads' nexts'

/-- `BinLinkedList`. -/
structure BinList where
  supercell : CSupercell
  rcut : ℝ
  binSize : Vec ℝ
  pbc : Fin 3 → Bool
  numBin : Fin 3 → ℤ
  minLimit : Vec ℝ
  heads : List ℤ
  nexts : List ℤ

/-- `BinLinkedList(structure, rcut, bin_size_xyz, pbc_xyz)`, binLinkedList.h 587-636 and 804-832. -/
noncomputable def BinList.make (s : CStruct) (rcut : ℝ) (binSize : Vec ℝ) (pbc : Fin 3 → Bool) :
    Except CErr BinList :=
  if s.atoms = [] then .error .assertFail
  else if ¬ (0 < rcut ∧ (∀ p, 0 < binSize p) ∧ ∀ p, 0 < s.interplanar p) then .error .undefined
  else
    let S := CSupercell.make s (binScaling s rcut pbc)
    let nb : Fin 3 → ℤ := fun p => ⌈S.struct.projected p / binSize p⌉
    let minL : Vec ℝ := S.struct.minLimit
    let bins := S.struct.atoms.map (fun a => linIdx nb (binIdx minL binSize a.2))
    do
      let hn ← fillBins bins 0 (List.replicate (nb 0 * nb 1 * nb 2).toNat (-1))
        (List.replicate S.struct.atoms.length (-1))
      return { supercell := S, rcut := rcut, binSize := binSize, pbc := pbc, numBin := nb,
               minLimit := minL, heads := hn.1, nexts := hn.2 }

/-- Wrap one bin coordinate, binLinkedList.h 936-943. -/
def wrapBin (pbc : Bool) (nb c : ℤ) : ℤ := if pbc = false then c else (c + nb).tmod nb

/-- `num_extened_neigh_bins`, binLinkedList.h 915-917. -/
noncomputable def BinList.ext (B : BinList) (p : Fin 3) : ℤ := ⌈B.rcut / B.binSize p⌉

/-- Coordinates of the supercell copy of a primitive atom, binLinkedList.h 900-902. -/
def BinList.centre (B : BinList) (i : ℕ) : Except CErr (Vec ℝ) := do
  let a ← cGet B.supercell.struct.atoms (i + B.supercell.primIdx * B.supercell.primNum)
  return a.2

/-- Steps 2 and 3 of `get_neigh_bins`, binLinkedList.h 914-969, from the bin of the centre. -/
noncomputable def BinList.neighBinsOf (B : BinList) (b : Fin 3 → ℤ) : List ℤ :=
  (cRange3 (fun p => -B.ext p) B.ext).map fun o =>
    let c : Fin 3 → ℤ := fun p => wrapBin (B.pbc p) (B.numBin p) (b p + o p)
    if (0 ≤ c 0 ∧ c 0 < B.numBin 0) ∧ (0 ≤ c 1 ∧ c 1 < B.numBin 1) ∧ (0 ≤ c 2 ∧ c 2 < B.numBin 2)
    then linIdx B.numBin c else -1

/-- `get_neigh_bins`, binLinkedList.h 895-978. -/
noncomputable def BinList.neighBins (B : BinList) (i : ℕ) : Except CErr (List ℤ) :=
  if ¬ i < B.supercell.primNum then .error .assertFail
  else do
    let x ← B.centre i
    return B.neighBinsOf (binIdx B.supercell.struct.minLimit B.binSize x)

/-- The `while` loop over one bin, binLinkedList.h 1011-1029: the atoms met. -/
def walkBin (nexts : List ℤ) : ℕ → ℤ → Except CErr (List ℤ)
  | 0, idx => if idx = -1 then .ok [] else .error .undefined
  | n + 1, idx =>
    if idx = -1 then .ok []
    else do
      let nx ← cGet nexts idx
      let rest ← walkBin nexts n nx
      return idx :: rest

/-- `relative_distance2`, binLinkedList.h 1014-1018. -/
def cDist2 (p q : Vec ℝ) : ℝ := (p 0 - q 0) ^ 2 + (p 1 - q 1) ^ 2 + (p 2 - q 2) ^ 2

/-- The test of binLinkedList.h 1020-1023; `EPSILON` is `1e-3` (line 13). -/
noncomputable def BinList.close (B : BinList) (c x : Vec ℝ) : Bool :=
  decide (cDist2 x c < B.rcut ^ 2 ∧ cDist2 x c > 1 / 1000)

/-- The atoms of one bin that pass the test, binLinkedList.h 1009-1030. -/
noncomputable def BinList.fromBin (B : BinList) (c : Vec ℝ) (b : ℤ) : Except CErr (List ℤ) :=
  if b = -1 then .ok []
  else do
    let h ← cGet B.heads b
    let idxs ← walkBin B.nexts B.nexts.length h
    let found ← idxs.mapM (fun k => do
      let a ← cGet B.supercell.struct.atoms k
      return (k, B.close c a.2))
    return (found.filter (fun e => e.2)).map Prod.fst

/-- `get_neigh_atoms`, binLinkedList.h 988-1037. -/
noncomputable def BinList.neighAtoms (B : BinList) (i : ℕ) : Except CErr (List ℤ) := do
  let c ← B.centre i
  let bins ← B.neighBins i
  let lists ← bins.mapM (B.fromBin c)
  return lists.flatten

/-- Sorting one list by distance, neighborList.h 286-320. -/
noncomputable def sortByDistance (A : ArgSort) (atoms : List (ℤ × Vec ℝ)) (c : Vec ℝ) (l : List ℤ) :
    Except CErr (List ℤ) := do
  let ds ← l.mapM (fun k => do
    let a ← cGet atoms k
    return Real.sqrt (cDist2 a.2 c))
  (A.run ds).mapM (fun j : ℕ => cGet l j)

/-- `NeighborList`: the bin list and one list of supercell atoms per primitive atom. -/
structure NbrLists where
  bins : BinList
  lists : List (List ℤ)

/-- `_build`, neighborList.h 259-324. -/
noncomputable def NbrLists.build (A : ArgSort) (B : BinList) (sort : Bool) : Except CErr NbrLists := do
  let lists ← (List.range B.supercell.primNum).mapM B.neighAtoms
  if sort then do
    let sorted ← lists.zipIdx.mapM (fun e => do
      let c ← B.centre e.2
      sortByDistance A B.supercell.struct.atoms c e.1)
    return ⟨B, sorted⟩
  else return ⟨B, lists⟩

/-- `NeighborList(structure, rcut, bin_size_xyz, pbc_xyz, sort)`, neighborList.h 143-151. -/
noncomputable def NbrLists.makeWith (A : ArgSort) (s : CStruct) (rcut : ℝ) (binSize : Vec ℝ)
    (pbc : Fin 3 → Bool) (sort : Bool) : Except CErr NbrLists := do
  let B ← BinList.make s rcut binSize pbc
  NbrLists.build A B sort

/-- `NeighborList(structure, rcut, pbc_xyz, sort)`, neighborList.h 163-175: bins of half the cutoff
(binLinkedList.h 653). -/
noncomputable def NbrLists.make (A : ArgSort) (s : CStruct) (rcut : ℝ)
    (pbc : Fin 3 → Bool) (sort : Bool) : Except CErr NbrLists :=
  NbrLists.makeWith A s rcut (fun _ => rcut / 2) pbc sort

/-- Neighbour count of one centre for a pair of elements, neighborList.h 464-482. -/
def NbrLists.countOf (N : NbrLists) (nz : ℤ) (l : List ℤ) : Except CErr ℕ := do
  let zs ← l.mapM (fun k => do
    let a ← cGet N.bins.supercell.struct.atoms k
    return a.1)
  return zs.count nz

/-- `get_max_num_neigh_atoms_ssss`, neighborList.h 453-485. -/
def NbrLists.maxNumOf (N : NbrLists) (cz nz : ℤ) : Except CErr ℕ := do
  let counts ← N.lists.zipIdx.mapM (fun e => do
    let a ← cGet N.bins.supercell.struct.atoms (e.2 : ℤ)
    if a.1 = cz then N.countOf nz e.1 else return 0)
  return runningMax counts

/-- `get_max_num_neigh_atoms`, neighborList.h 488-496. -/
def NbrLists.maxNum (N : NbrLists) : ℕ := runningMax (N.lists.map List.length)

/-- What `find_info4mlff` hands out. -/
structure MlffInfo where
  inum : ℕ
  ilist : List ℤ
  numneigh : List ℕ
  firstneigh : List ℤ
  rel : List ℝ
  types : List ℤ
  nghost : ℕ

/-- Write one row after another, row `ii` from `ii * width` on. -/
def cWriteRows {α : Type} (width : ℤ) : ℕ → List (List α) → List α → Except CErr (List α)
  | _, [], arr => .ok arr
  | ii, row :: rows, arr => do
    let arr' ← cWrite arr (ii * width) row
    cWriteRows width (ii + 1) rows arr'

/-- `find_info4mlff`, neighborList.h 517-564, with arrays allocated as in nblist_bind.cc 97-104. -/
def NbrLists.findInfo (N : NbrLists) (umax : ℕ) : Except CErr MlffInfo := do
  let n := N.bins.supercell.primNum
  let atoms := N.bins.supercell.struct.atoms
  let types ← (List.range n).mapM (fun ii : ℕ => do
    let a ← cGet atoms (ii : ℤ)
    return a.1)
  let firstneigh ← cWriteRows (umax : ℤ) 0 (N.lists.map (fun l => l.map (fun k => k.tmod (n : ℤ))))
    (List.replicate (n * umax) (-1))
  let relRows ← N.lists.zipIdx.mapM (fun e => do
    let c ← N.bins.centre e.2
    let xs ← e.1.mapM (fun k => do
      let a ← cGet atoms k
      return [a.2 0 - c 0, a.2 1 - c 1, a.2 2 - c 2])
    return xs.flatten)
  let rel ← cWriteRows ((umax : ℤ) * 3) 0 relRows (List.replicate (n * umax * 3) 0)
  return { inum := n, ilist := (List.range n).map (fun ii : ℕ => (ii : ℤ)),
           numneigh := N.lists.map List.length, firstneigh := firstneigh, rel := rel,
           types := types, nghost := 0 }

end MaterSDK
