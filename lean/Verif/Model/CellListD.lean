import Verif.Model.CellList
import Verif.Model.Float64

/-!
# The C++ neighbour list in doubles

The functions of `Verif/Model/CellList.lean` once more, with every floating point operation followed by a
rounding `R`; `R := flR` is IEEE 754 double arithmetic, and `R := id` gives back the definitions of
`CellList.lean` (`Lemmas/CellListD.lean`). The order of the operations is that of the source.

Simplifications.
* No overflow and no underflow; integers converted to `double` are exact.
* Products and sums are rounded one by one (no fused operations, no extended precision).
* `std::pow(x, 2)` is the rounded square of `x`, `std::sqrt` is correctly rounded.
* Otherwise as in `CellList.lean`.
-/

namespace MaterSDK

open Classical

variable (R : ℝ → ℝ)

/-- The constant `EPSILON`, binLinkedList.h 13. -/
noncomputable def dEps : ℝ := R (1 / 1000)

/-- `vec3Operation::dot`, vec3Operation.h 29-33. -/
def dDot (v w : Vec ℝ) : ℝ := R (R (R (v 0 * w 0) + R (v 1 * w 1)) + R (v 2 * w 2))

/-- `vec3Operation::cross`, vec3Operation.h 72-79. -/
def dCross (v w : Vec ℝ) : Vec ℝ :=
  ![R (R (v 1 * w 2) - R (v 2 * w 1)), R (R (v 2 * w 0) - R (v 0 * w 2)), R (R (v 0 * w 1) - R (v 1 * w 0))]

/-- `vec3Operation::normalize`, vec3Operation.h 82-91. -/
noncomputable def dNormalize (v : Vec ℝ) : Vec ℝ := fun i =>
  R (v i / R (Real.sqrt (R (R (R (v 0 ^ 2) + R (v 1 ^ 2)) + R (v 2 ^ 2)))))

/-- `Structure(...)`, structure.h 211-261, with `calc_cart_coords`, 453-472. -/
noncomputable def CStruct.makeD (basis : Fin 3 → Vec ℝ) (atoms : List (ℤ × Vec ℝ)) (isCart : Bool) : CStruct :=
  { basis := basis
    origin := 0
    atoms := if isCart then atoms
      else atoms.map (fun a => (a.1, fun p =>
        R (R (R (a.2 0 * basis 0 p) + R (a.2 1 * basis 1 p)) + R (a.2 2 * basis 2 p)))) }

/-- `make_supercell`, structure.h 482-601, for positive factors. -/
noncomputable def CStruct.makeSupercellD (s : CStruct) (sc : Fin 3 → ℤ) : CStruct :=
  { basis := fun i p => R (s.basis i p * sc i)
    origin := fun p => R (R (R (superLo (sc 0) * s.basis 0 p) + R (superLo (sc 1) * s.basis 1 p)) +
      R (superLo (sc 2) * s.basis 2 p))
    atoms := (cRange3 (fun i => superLo (sc i)) (fun i => superHi (sc i))).flatMap fun t =>
      s.atoms.map fun a => (a.1, fun p =>
        R (R (R (a.2 p + R (s.basis 0 p * t 0)) + R (s.basis 1 p * t 1)) + R (s.basis 2 p * t 2))) }

/-- `get_projected_lengths`, structure.h 679-702. -/
def CStruct.projectedD (s : CStruct) (p : Fin 3) : ℝ :=
  R (R (|s.basis 0 p| + |s.basis 1 p|) + |s.basis 2 p|)

/-- `get_interplanar_distances`, structure.h 711-736. -/
noncomputable def CStruct.interplanarD (s : CStruct) : Fin 3 → ℝ :=
  ![|dDot R (s.basis 0) (dNormalize R (dCross R (s.basis 1) (s.basis 2)))|,
    |dDot R (s.basis 1) (dNormalize R (dCross R (s.basis 0) (s.basis 2)))|,
    |dDot R (s.basis 2) (dNormalize R (dCross R (s.basis 0) (s.basis 1)))|]

/-- `get_vertexes`, structure.h 751-789. -/
noncomputable def CStruct.vertexesD (s : CStruct) : List (Vec ℝ) :=
  (cRange3 (fun _ => 0) (fun _ => 1)).map fun t => fun p =>
    R (s.origin p + R (R (R (t 0 * s.basis 0 p) + R (t 1 * s.basis 1 p)) + R (t 2 * s.basis 2 p)))

/-- `get_limit_xyz()[p][0]`, structure.h 792-837. -/
noncomputable def CStruct.minLimitD (s : CStruct) (p : Fin 3) : ℝ :=
  match s.vertexesD R with
  | [] => 0
  | v :: vs => vs.foldl (fun m w => if w p < m then w p else m) (v p)

/-- Construct the supercell, binLinkedList.h 331-348. -/
noncomputable def CSupercell.makeD (s : CStruct) (sc : Fin 3 → ℤ) : CSupercell :=
  { struct := s.makeSupercellD R sc, primNum := s.atoms.length, sc := sc, primIdx := primCellIdx sc }

/-- `scaling_matrix`, binLinkedList.h 602-608 and 660-665. -/
noncomputable def binScalingD (s : CStruct) (rcut : ℝ) (pbc : Fin 3 → Bool) (p : Fin 3) : ℤ :=
  if pbc p = false then 1 else ⌈R (rcut / s.interplanarD R p)⌉ * 2 + 1

/-- Bin of a point along one axis, binLinkedList.h 821-823. -/
noncomputable def binIdxD (minL size : Vec ℝ) (x : Vec ℝ) (p : Fin 3) : ℤ :=
  ⌊R (R (x p - minL p) / size p)⌋

/-- `BinLinkedList(structure, rcut, bin_size_xyz, pbc_xyz)`, binLinkedList.h 587-636 and 804-832. -/
noncomputable def BinList.makeD (s : CStruct) (rcut : ℝ) (binSize : Vec ℝ) (pbc : Fin 3 → Bool) :
    Except CErr BinList :=
  if s.atoms = [] then .error .assertFail
  else if ¬ (0 < rcut ∧ (∀ p, 0 < binSize p) ∧ ∀ p, 0 < s.interplanarD R p) then .error .undefined
  else
    let S := CSupercell.makeD R s (binScalingD R s rcut pbc)
    let nb : Fin 3 → ℤ := fun p => ⌈R (S.struct.projectedD R p / binSize p)⌉
    let minL : Vec ℝ := S.struct.minLimitD R
    let bins := S.struct.atoms.map (fun a => linIdx nb (binIdxD R minL binSize a.2))
    do
      let hn ← fillBins bins 0 (List.replicate (nb 0 * nb 1 * nb 2).toNat (-1))
        (List.replicate S.struct.atoms.length (-1))
      return { supercell := S, rcut := rcut, binSize := binSize, pbc := pbc, numBin := nb,
               minLimit := minL, heads := hn.1, nexts := hn.2 }

/-- `num_extened_neigh_bins`, binLinkedList.h 915-917. -/
noncomputable def BinList.extD (B : BinList) (p : Fin 3) : ℤ := ⌈R (B.rcut / B.binSize p)⌉

/-- Steps 2 and 3 of `get_neigh_bins`, binLinkedList.h 914-969, from the bin of the centre. -/
noncomputable def BinList.neighBinsOfD (B : BinList) (b : Fin 3 → ℤ) : List ℤ :=
  (cRange3 (fun p => -B.extD R p) (B.extD R)).map fun o =>
    let c : Fin 3 → ℤ := fun p => wrapBin (B.pbc p) (B.numBin p) (b p + o p)
    if (0 ≤ c 0 ∧ c 0 < B.numBin 0) ∧ (0 ≤ c 1 ∧ c 1 < B.numBin 1) ∧ (0 ≤ c 2 ∧ c 2 < B.numBin 2)
    then linIdx B.numBin c else -1

/-- `get_neigh_bins`, binLinkedList.h 895-978. -/
noncomputable def BinList.neighBinsD (B : BinList) (i : ℕ) : Except CErr (List ℤ) :=
  if ¬ i < B.supercell.primNum then .error .assertFail
  else do
    let x ← B.centre i
    return B.neighBinsOfD R (binIdxD R (B.supercell.struct.minLimitD R) B.binSize x)

/-- `relative_distance2`, binLinkedList.h 1014-1018. -/
def dDist2 (p q : Vec ℝ) : ℝ :=
  R (R (R (R (p 0 - q 0) ^ 2) + R (R (p 1 - q 1) ^ 2)) + R (R (p 2 - q 2) ^ 2))

/-- The test of binLinkedList.h 1020-1023. -/
noncomputable def BinList.closeD (B : BinList) (c x : Vec ℝ) : Bool :=
  decide (dDist2 R x c < R (B.rcut ^ 2) ∧ dDist2 R x c > dEps R)

/-- The atoms of one bin that pass the test, binLinkedList.h 1009-1030. -/
noncomputable def BinList.fromBinD (B : BinList) (c : Vec ℝ) (b : ℤ) : Except CErr (List ℤ) :=
  if b = -1 then .ok []
  else do
    let h ← cGet B.heads b
    let idxs ← walkBin B.nexts B.nexts.length h
    let found ← idxs.mapM (fun k => do
      let a ← cGet B.supercell.struct.atoms k
      return (k, B.closeD R c a.2))
    return (found.filter (fun e => e.2)).map Prod.fst

/-- `get_neigh_atoms`, binLinkedList.h 988-1037. -/
noncomputable def BinList.neighAtomsD (B : BinList) (i : ℕ) : Except CErr (List ℤ) := do
  let c ← B.centre i
  let bins ← B.neighBinsD R i
  let lists ← bins.mapM (B.fromBinD R c)
  return lists.flatten

/-- Sorting one list by distance, neighborList.h 286-320. -/
noncomputable def sortByDistanceD (A : ArgSort) (atoms : List (ℤ × Vec ℝ)) (c : Vec ℝ) (l : List ℤ) :
    Except CErr (List ℤ) := do
  let ds ← l.mapM (fun k => do
    let a ← cGet atoms k
    return R (Real.sqrt (dDist2 R a.2 c)))
  (A.run ds).mapM (fun j : ℕ => cGet l j)

/-- `_build`, neighborList.h 259-324. -/
noncomputable def NbrLists.buildD (A : ArgSort) (B : BinList) (sort : Bool) : Except CErr NbrLists := do
  let lists ← (List.range B.supercell.primNum).mapM (B.neighAtomsD R)
  if sort then do
    let sorted ← lists.zipIdx.mapM (fun e => do
      let c ← B.centre e.2
      sortByDistanceD R A B.supercell.struct.atoms c e.1)
    return ⟨B, sorted⟩
  else return ⟨B, lists⟩

/-- `NeighborList(structure, rcut, pbc_xyz, sort)`, neighborList.h 163-175: bins of half the cutoff
(binLinkedList.h 653). -/
noncomputable def NbrLists.makeD (A : ArgSort) (s : CStruct) (rcut : ℝ)
    (pbc : Fin 3 → Bool) (sort : Bool) : Except CErr NbrLists := do
  let B ← BinList.makeD R s rcut (fun _ => R (rcut / 2)) pbc
  NbrLists.buildD R A B sort

/-- `find_info4mlff`, neighborList.h 517-564, with arrays allocated as in nblist_bind.cc 97-104. -/
def NbrLists.findInfoD (N : NbrLists) (umax : ℕ) : Except CErr MlffInfo := do
  let n := N.bins.supercell.primNum
  let atoms := N.bins.supercell.struct.atoms
  let types ← (List.range n).mapM (fun ii : ℕ => do
    let a ← cGet atoms (ii : ℤ)
    return a.1)
  let firstneigh ← cWriteRows (umax : ℤ) 0 (N.lists.map (fun l => l.map (fun k => k.tmod (n : ℤ))))
    (List.replicate (n * umax) (-1))
  let relRows ← N.lists.zipIdx.mapM (fun e => do
    let c ← N.bins.centre e.2
    let xs ← e.1.mapM (fun k => do
      let a ← cGet atoms k
      return [R (a.2 0 - c 0), R (a.2 1 - c 1), R (a.2 2 - c 2)])
    return xs.flatten)
  let rel ← cWriteRows ((umax : ℤ) * 3) 0 relRows (List.replicate (n * umax * 3) 0)
  return { inum := n, ilist := (List.range n).map (fun ii : ℕ => (ii : ℤ)),
           numneigh := N.lists.map List.length, firstneigh := firstneigh, rel := rel,
           types := types, nghost := 0 }

end MaterSDK
