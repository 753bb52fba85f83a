import Verif.Model.EnvMatrix

/-!
# `PairTildeR` and `TildeR`

Model of
* `/repo/source/descriptor/deepmd/include/se.h` 430-549 (constructors of `PairTildeR`), 602-616
  (`calc_num_center_atoms`), 741-743 (`get_max_num_neigh_atoms`), 752-849 and 853-968 (`generate`),
  977-1112 and 1116-1271 (`deriv`),
* 1307-1474 (constructors of `TildeR`), 1575-1611 (`calc_num_center_atoms_lst`,
  `calc_num_neigh_atoms_lst`), 1753-1857, 1860-1981, 1984-2096 (`generate`), 2105-2205, 2208-2341,
  2344-2459 (`deriv`),
* `/repo/source/core/include/arrayUtils.h` 27-49, 83-110 (allocation; with `init_mark` the entries are
  zero, without it they hold no value).

Simplifications.
* Scalars are real numbers, `int` is unbounded, an array of pointers to rows is a list of lists.
* The four numbers of a row, and the twelve numbers of a block of derivatives, are always written
  together and count as one entry.
* Writing outside an array is the error `outOfBounds`; the code does not check.  A failed `assert` is the
  error `assertFail` (a build without assertions goes on).
* The neighbours of a centre are read before they are visited; every error in that loop is
  `outOfBounds`, so the order of reads and writes cannot be seen.
* Allocating with a negative size gives an empty array.
* Memory which is allocated and freed on the way is not part of this model.
-/

namespace MaterSDK

open Classical

/-- What the loops read: the number of centres, the index of a centre in the arrays of all atoms, its
neighbours, and the arrays of atomic numbers and positions. -/
structure PairSrc where
  num : ℕ
  centre : ℕ → Except CErr ℤ
  nbrs : ℕ → Except CErr (List ℤ)
  ty : ℤ → Except CErr ℤ
  pos : ℤ → Except CErr (Vec ℝ)

/-- The arguments of the static functions, se.h 855-861. -/
structure LmpIn where
  inum : ℤ
  ilist : List ℤ
  numneigh : List ℤ
  firstneigh : List (List ℤ)
  x : List (Vec ℝ)
  types : List ℤ

/-- The static functions read `ilist[ii]`, `numneigh[ii]`, `firstneigh[ii][jj]`, `x`, `types`,
se.h 918-936. -/
def LmpIn.src (p : LmpIn) : PairSrc where
  num := p.inum.toNat
  centre ii := cGet p.ilist (ii : ℤ)
  nbrs ii := do
    let n ← cGet p.numneigh (ii : ℤ)
    (List.range n.toNat).mapM (fun jj : ℕ => do
      let fl ← cGet p.firstneigh (ii : ℤ)
      cGet fl (jj : ℤ))
  ty i := cGet p.types i
  pos i := cGet p.x i

/-- The member functions read the neighbour list and its supercell, se.h 761-762, 793-816. -/
def NbrLists.src (N : NbrLists) : PairSrc where
  num := N.lists.length
  centre ii := .ok ((ii : ℤ) + N.bins.supercell.primIdx * N.bins.supercell.primNum)
  nbrs ii := cGet N.lists (ii : ℤ)
  ty i := do
    let a ← cGet N.bins.supercell.struct.atoms i
    return a.1
  pos i := do
    let a ← cGet N.bins.supercell.struct.atoms i
    return a.2

/-- The arrays for the static functions taken from a neighbour list, the way
`/repo/source/descriptor/deepmd/test/test_se_lmp.cc` 124-149 does it. -/
def NbrLists.toLmp (N : NbrLists) : LmpIn where
  inum := (N.lists.length : ℤ)
  ilist := (List.range N.lists.length).map (fun ii : ℕ =>
    (ii : ℤ) + N.bins.supercell.primIdx * N.bins.supercell.primNum)
  numneigh := N.lists.map (fun l => (l.length : ℤ))
  firstneigh := N.lists
  x := N.bins.supercell.struct.atoms.map Prod.snd
  types := N.bins.supercell.struct.atoms.map Prod.fst

/-- `arr[c][k] = a`. -/
def writeSlot {α : Type} (arr : List (List α)) (c k : ℤ) (a : α) : Except CErr (List (List α)) := do
  let row ← cGet arr c
  let row' ← cSet row k a
  cSet arr c row'

/-- One neighbour, se.h 808-838, 935-959, 1031-1103, 1190-1262: the state holds the array and
`tmp_nidx`. -/
def pairNbrStep {α : Type} (S : PairSrc) (nz : ℤ) (val : Vec ℝ → α) (c : Vec ℝ) (cidx : ℕ)
    (st : List (List α) × ℕ) (nb : ℤ) : Except CErr (List (List α) × ℕ) := do
  let t ← S.ty nb
  if t ≠ nz then return st
  else do
    let q ← S.pos nb
    let arr ← writeSlot st.1 cidx st.2 (val ![q 0 - c 0, q 1 - c 1, q 2 - c 2])
    return (arr, st.2 + 1)

/-- The loop over the centres, se.h 799-841, 923-963, 1023-1106, 1180-1264: the state holds the array and
`tmp_cidx`; `roomy` is the condition asserted in the static functions (929, 1186). -/
def pairFill {α : Type} (S : PairSrc) (cz nz : ℤ) (val : Vec ℝ → α) (roomy : Bool)
    (arr : List (List α)) : Except CErr (List (List α) × ℕ) :=
  (List.range S.num).foldlM (fun (st : List (List α) × ℕ) (ii : ℕ) => do
    let i ← S.centre ii
    let c ← S.pos i
    let t ← S.ty i
    if t ≠ cz then return st
    else if roomy = false then .error .assertFail
    else do
      let l ← S.nbrs ii
      let r ← l.foldlM (pairNbrStep S nz val c st.2) (st.1, 0)
      return (r.1, st.2 + 1)) (arr, 0)

/-- Number of centres of one element, se.h 885-890, 1141-1146. -/
def PairSrc.numCentres (S : PairSrc) (cz : ℤ) : Except CErr ℕ := do
  let ts ← (List.range S.num).mapM (fun ii : ℕ => do
    let i ← S.centre ii
    S.ty i)
  return ts.count cz

/-- Largest number of neighbours of one element around centres of another, se.h 893-909, 1156-1174. -/
def PairSrc.maxNbrs (S : PairSrc) (cz nz : ℤ) : Except CErr ℕ := do
  let ms ← (List.range S.num).mapM (fun ii : ℕ => do
    let i ← S.centre ii
    let t ← S.ty i
    if t = cz then do
      let l ← S.nbrs ii
      let zs ← l.mapM S.ty
      return zs.count nz
    else return 0)
  return runningMax ms

/-- An array of `n` rows of `w` entries. -/
def allocRows {α : Type} (n w : ℤ) (a : α) : List (List α) :=
  List.replicate n.toNat (List.replicate w.toNat a)

/-- The static `PairTildeR::generate`, se.h 853-968; `atEnd` is for the static `PairTildeR::deriv`,
1116-1271, which asserts the number of centres when it is done (1265). -/
def pairLmp {α : Type} (p : LmpIn) (cz nz w : ℤ) (val : Vec ℝ → α) (zero : α) (atEnd : Bool) :
    Except CErr (List (List α)) := do
  let n ← p.src.numCentres cz
  let m ← p.src.maxNbrs cz nz
  let r ← pairFill p.src cz nz val (decide ((m : ℤ) ≤ w)) (allocRows (n : ℤ) w zero)
  if atEnd && decide (r.2 ≠ n) then .error .assertFail
  else return r.1

/-- The static `PairTildeR::generate`, se.h 853-968. -/
noncomputable def pairGenerateLmp (p : LmpIn) (cz nz w : ℤ) (rcut rs : ℝ) :
    Except CErr (List (List (Fin 4 → ℝ))) :=
  pairLmp p cz nz w (cEnvRow rcut rs) 0 false

/-- The static `PairTildeR::deriv`, se.h 1116-1271; the expressions 1206-1260 are those of
se4pw.h 132-195. -/
noncomputable def pairDerivLmp (p : LmpIn) (cz nz w : ℤ) (rcut rs : ℝ) :
    Except CErr (List (List (Matrix (Fin 4) (Fin 3) ℝ))) :=
  pairLmp p cz nz w (cSe4pwDeriv rcut rs) 0 true

/-- `PairTildeR`, se.h 246-252. -/
structure PairTilde where
  nbr : NbrLists
  cz : ℤ
  nz : ℤ
  numC : ℕ
  numN : ℤ
  rs : ℝ

/-- `calc_num_center_atoms`, se.h 605-616, and one entry of `calc_num_center_atoms_lst`,
se.h 1580-1587: the first cell of the supercell is counted. -/
def NbrLists.numCentresOf (N : NbrLists) (cz : ℤ) : Except CErr ℕ := do
  let zs ← (List.range N.lists.length).mapM (fun ii : ℕ => do
    let a ← cGet N.bins.supercell.struct.atoms (ii : ℤ)
    return a.1)
  return zs.count cz

/-- `PairTildeR(neighbor_list, center, neigh, num_neigh_atoms, rcut_smooth)`, se.h 430-444. -/
def PairTilde.makeWith (N : NbrLists) (cz nz w : ℤ) (rs : ℝ) : Except CErr PairTilde := do
  let n ← N.numCentresOf cz
  return ⟨N, cz, nz, n, w, rs⟩

/-- `PairTildeR(neighbor_list, center, neigh, rcut_smooth)`, se.h 474-483: the number of slots is the
largest number of neighbours. -/
def PairTilde.makeAuto (N : NbrLists) (cz nz : ℤ) (rs : ℝ) : Except CErr PairTilde := do
  let n ← N.numCentresOf cz
  let w ← N.maxNumOf cz nz
  return ⟨N, cz, nz, n, w, rs⟩

/-- The member `PairTildeR::generate`, se.h 752-849, which asserts the number of centres when it is done
(842). -/
noncomputable def PairTilde.generate (P : PairTilde) : Except CErr (List (List (Fin 4 → ℝ))) := do
  let r ← pairFill P.nbr.src P.cz P.nz (cEnvRow P.nbr.bins.rcut P.rs) true
    (allocRows (P.numC : ℤ) P.numN 0)
  if r.2 ≠ P.numC then .error .assertFail
  else return r.1

/-- The member `PairTildeR::deriv`, se.h 977-1112. -/
noncomputable def PairTilde.deriv (P : PairTilde) :
    Except CErr (List (List (Matrix (Fin 4) (Fin 3) ℝ))) := do
  let r ← pairFill P.nbr.src P.cz P.nz (cSe4pwDeriv P.nbr.bins.rcut P.rs) true
    (allocRows (P.numC : ℤ) P.numN 0)
  return r.1

/-- Copy the block of one pair of elements, se.h 1826-1837, 1947-1958, 2063-2074, 2168-2191, 2301-2324,
2427-2450. -/
def copyPairBlock {α β : Type} (wrap : α → β) (blk : List (List α)) (cs ns : ℤ) (n w : ℤ)
    (arr : List (List β)) : Except CErr (List (List β)) :=
  (List.range n.toNat).foldlM (fun (arr : List (List β)) (kk : ℕ) => do
    let row ← cGet blk (kk : ℤ)
    (List.range w.toNat).foldlM (fun (arr : List (List β)) (ll : ℕ) => do
      let a ← cGet row (ll : ℤ)
      writeSlot arr (cs + kk) (ns + ll) (wrap a)) arr) arr

/-- The loops over the pairs of elements, se.h 1813-1850, 1930-1973, 2046-2090, 2156-2198, 2283-2332,
2409-2458; `gen` is the call which fills one block and `cstart_idxs`, `nstart_idxs` are the sums of the
counts before (1786-1803). -/
def stackPairs {α β : Type} (wrap : α → β) (gen : ℤ → ℤ → ℕ → ℤ → Except CErr (List (List α)))
    (cz nz : List ℤ) (nc : List ℕ) (nn : List ℤ) (arr : List (List β)) : Except CErr (List (List β)) :=
  cz.zipIdx.foldlM (fun (arr : List (List β)) (ci : ℤ × ℕ) =>
    nz.zipIdx.foldlM (fun (arr : List (List β)) (nj : ℤ × ℕ) => do
      let n ← cGet nc (ci.2 : ℤ)
      let w ← cGet nn (nj.2 : ℤ)
      let blk ← gen ci.1 nj.1 n w
      let cs ← cGet (nstartIdxs (nc.map (fun k : ℕ => (k : ℤ)))) (ci.2 : ℤ)
      let ns ← cGet (nstartIdxs nn) (nj.2 : ℤ)
      copyPairBlock wrap blk cs ns (n : ℤ) w arr) arr) arr

/-- Read the first `k` entries of an array given by the caller. -/
def cTake {α : Type} (l : List α) (k : ℕ) : Except CErr (List α) :=
  (List.range k).mapM (fun i : ℕ => cGet l (i : ℤ))

/-- The static `TildeR::generate` which allocates its result without clearing it, se.h 1860-1981: an
entry never written is `none`. -/
noncomputable def tildeGenerateLmp (p : LmpIn) (cz nz nn : List ℤ) (rcut rs : ℝ) :
    Except CErr (List (List (Option (Fin 4 → ℝ)))) := do
  let nc ← cz.mapM p.src.numCentres
  let nn ← cTake nn nz.length
  stackPairs some (fun c z _ w => pairGenerateLmp p c z w rcut rs) cz nz nc nn
    (allocRows ((nc.sum : ℕ) : ℤ) nn.sum none)

/-- The static `TildeR::generate` which fills an array of the caller, se.h 1984-2096. -/
noncomputable def tildeGenerateInto (arr : List (List (Fin 4 → ℝ))) (p : LmpIn) (cz nz nn : List ℤ)
    (rcut rs : ℝ) : Except CErr (List (List (Fin 4 → ℝ))) := do
  let nc ← cz.mapM p.src.numCentres
  let nn ← cTake nn nz.length
  stackPairs id (fun c z _ w => pairGenerateLmp p c z w rcut rs) cz nz nc nn arr

/-- The static `TildeR::deriv` which allocates its result, se.h 2208-2341; the entries are cleared. -/
noncomputable def tildeDerivLmp (p : LmpIn) (cz nz nn : List ℤ) (rcut rs : ℝ) :
    Except CErr (List (List (Matrix (Fin 4) (Fin 3) ℝ))) := do
  let nc ← cz.mapM p.src.numCentres
  let nn ← cTake nn nz.length
  stackPairs id (fun c z _ w => pairDerivLmp p c z w rcut rs) cz nz nc nn
    (allocRows ((nc.sum : ℕ) : ℤ) nn.sum 0)

/-- The static `TildeR::deriv` which fills an array of the caller, se.h 2344-2459. -/
noncomputable def tildeDerivInto (arr : List (List (Matrix (Fin 4) (Fin 3) ℝ))) (p : LmpIn)
    (cz nz nn : List ℤ) (rcut rs : ℝ) : Except CErr (List (List (Matrix (Fin 4) (Fin 3) ℝ))) := do
  let nc ← cz.mapM p.src.numCentres
  let nn ← cTake nn nz.length
  stackPairs id (fun c z _ w => pairDerivLmp p c z w rcut rs) cz nz nc nn arr

/-- `TildeR`, se.h 409-417. -/
structure Tilde where
  nbr : NbrLists
  cz : List ℤ
  nz : List ℤ
  nc : List ℕ
  nn : List ℤ
  rs : ℝ

/-- One entry of `calc_num_neigh_atoms_lst`, se.h 1599-1610: the largest number of neighbours around
any centre. -/
def NbrLists.maxNbrsOf (N : NbrLists) (nz : ℤ) : Except CErr ℕ := do
  let ms ← N.lists.mapM (N.countOf nz)
  return runningMax ms

/-- `TildeR(neighbor_list, …, num_neigh_atoms_lst, rcut_smooth)`, se.h 1307-1337. -/
def Tilde.makeWith (N : NbrLists) (cz nz nn : List ℤ) (rs : ℝ) : Except CErr Tilde := do
  let nc ← cz.mapM N.numCentresOf
  let nn ← cTake nn nz.length
  return ⟨N, cz, nz, nc, nn, rs⟩

/-- `TildeR(neighbor_list, …, rcut_smooth)`, se.h 1351-1378. -/
def Tilde.makeAuto (N : NbrLists) (cz nz : List ℤ) (rs : ℝ) : Except CErr Tilde := do
  let nc ← cz.mapM N.numCentresOf
  let nn ← nz.mapM N.maxNbrsOf
  return ⟨N, cz, nz, nc, nn.map (fun k : ℕ => (k : ℤ)), rs⟩

/-- `TildeR(structure, rcut, pbc_xyz, sort, …, rcut_smooth)`, se.h 1444-1474. -/
noncomputable def Tilde.ofStructure (A : ArgSort) (s : CStruct) (rcut : ℝ) (pbc : Fin 3 → Bool)
    (sort : Bool) (cz nz : List ℤ) (rs : ℝ) : Except CErr Tilde := do
  let N ← NbrLists.make A s rcut pbc sort
  Tilde.makeAuto N cz nz rs

/-- The member `TildeR::generate`, se.h 1753-1857. -/
noncomputable def Tilde.generate (T : Tilde) : Except CErr (List (List (Option (Fin 4 → ℝ)))) :=
  stackPairs some (fun c z n w => (PairTilde.mk T.nbr c z n w T.rs).generate) T.cz T.nz T.nc T.nn
    (allocRows ((T.nc.sum : ℕ) : ℤ) T.nn.sum none)

/-- The member `TildeR::deriv`, se.h 2105-2205. -/
noncomputable def Tilde.deriv (T : Tilde) : Except CErr (List (List (Matrix (Fin 4) (Fin 3) ℝ))) :=
  stackPairs id (fun c z n w => (PairTilde.mk T.nbr c z n w T.rs).deriv) T.cz T.nz T.nc T.nn
    (allocRows ((T.nc.sum : ℕ) : ℤ) T.nn.sum 0)

end MaterSDK
