import Verif.Model.Trajectory
import Verif.Model.Elements
import Verif.Model.Structure
import Mathlib.Data.List.Sort

/-!
# Data sets

Model of `/repo/matersdk/data/infoset.py`, `infosets.py` and the writing and selecting parts of
`struct_collection.py`. Arrays are lists of rows, one row per frame. Python dictionaries are lists of
pairs in insertion order.
-/

namespace MaterSDK

/-- `d.update({k: v})`. -/
def dictSet {α β : Type} [DecidableEq α] (d : List (α × β)) (k : α) (v : β) : List (α × β) :=
  if k ∈ d.map Prod.fst then d.map (fun p => if p.1 = k then (k, v) else p) else d ++ [(k, v)]

/-- `d[k] += 1`. -/
def dictIncr {α : Type} [DecidableEq α] (d : List (α × Nat)) (k : α) : Except PyErr (List (α × Nat)) := do
  return dictSet d k ((← pyDictGet d k) + 1)

/-- `np.unique(l, return_counts=True)`: the distinct values in increasing order with their counts. -/
def npUnique (l : List Int) : List (Int × Nat) :=
  (l.dedup.insertionSort (· ≤ ·)).map (fun (z : Int) => (z, l.count z))

/-- `l.index(x)`. -/
def pyIndex {α : Type} [DecidableEq α] (l : List α) (x : α) : Except PyErr Nat :=
  if x ∈ l then .ok (l.idxOf x) else .error .valueError

/-- An `InfoSet`, infoset.py 11-55. `none` stands for `False`. -/
structure InfoSet where
  box : List (List ℚ)
  types : List (List Nat)
  coord : List (List ℚ)
  etot : List (List ℚ)
  fatom : List (List ℚ)
  formulaDict : List (Str × Nat)
  formula : Str
  numFrames : Nat
  virial : Option (List (List ℚ))
  eatom : Option (List (List ℚ))
  magmom : Option (List (List ℚ))
  deriving DecidableEq

/-- infoset.py 92-93: elements of the first frame, by increasing atomic number, with counts. -/
def compositionOf (types0 : List Int) : Except PyErr (List (Str × Nat)) :=
  (npUnique types0).foldlM (fun d p => do return dictSet d (← specieOf p.1) p.2) []

/-- infoset.py 97-103: the given elements, with the counts in the first frame. -/
def compositionFor (numbers types0 : List Int) : Except PyErr (List (Str × Nat)) := do
  let d0 ← numbers.foldlM (fun d an => do return dictSet d (← specieOf an) 0) []
  numbers.foldlM (fun d an =>
    types0.foldlM (fun d t => if t = an then do dictIncr d (← specieOf an) else .ok d) d) d0

/-- infoset.py 105-106. -/
def formulaText (d : List (Str × Nat)) : Str := d.flatMap (fun p => p.1 ++ showNat p.2)

/-- An optional array of `frames_info`, infoset.py 72-85. -/
def optArray (mark : Bool) (arrs : List (Kind × List (List ℚ))) (i : Nat) :
    Except PyErr (Option (List (List ℚ))) :=
  if mark then (pyGet arrs i).map (fun p => some p.2) else .ok none

/-- infoset.py 90-103 and 113: the composition and the list whose indices are the stored types. -/
def pickComposition (numbers : Option (List Int)) (types0 : List Int) :
    Except PyErr (List (Str × Nat) × List Int) :=
  match numbers with
  | none => do
    let d ← compositionOf types0
    let ns ← (d.map Prod.fst).mapM numberOf
    return (d, ns.map (fun (z : Nat) => (z : Int)))
  | some ns => do
    let d ← compositionFor ns types0
    return (d, ns)

/-- `InfoSet.from_file(file_path, "PWMAT/MOVEMENT", infosets_atomic_numbers)`, infoset.py 58-134; the
file is given by its text, `none` is the default `False`. The integer array of types is held as
rationals in `framesInfo`. -/
def infoSetFromFile (text : Str) (numbers : Option (List Int)) : Except PyErr InfoSet := do
  let m ← MVExtractor.load text
  let (v, e, mm) ← findExtra m.rows m.slices
  let arrs ← m.framesInfo
  let box ← pyGet arrs 0
  let types ← pyGet arrs 1
  let coord ← pyGet arrs 2
  let etot ← pyGet arrs 3
  let fatoms ← pyGet arrs 4
  let virial ← optArray v arrs 5
  let eatom ← optArray e arrs (if v then 6 else 5)
  let magmom ← optArray mm arrs (if v && e then 7 else if v || e then 6 else 5)
  let typesZ : List (List Int) := types.2.map (fun row => row.map Rat.num)
  let types0 ← pyGet typesZ 0
  let dn ← pickComposition numbers types0
  let newTypes ← typesZ.mapM (fun row => row.mapM (pyIndex dn.2))
  return ⟨box.2, newTypes, coord.2, etot.2, fatoms.2, dn.1, formulaText dn.1, box.2.length, virial,
    eatom, magmom⟩

/-! ## Writing an InfoSet -/

/-- What one call of `np.save` writes. -/
inductive Rows
  | nums (rows : List (List ℚ))
  | ints (rows : List (List Nat))
  deriving DecidableEq

/-- `arr[start:end, :]` for non-negative bounds. -/
def Rows.slice : Rows → Nat → Nat → Rows
  | .nums r, i, j => .nums (pySlice r i j)
  | .ints r, i, j => .ints (pySlice r i j)

/-- The arrays written by `to_dir`, infoset.py 167-177: file name and array. -/
def InfoSet.arrays (s : InfoSet) : List (Str × Rows) :=
  [(chars% "box.npy", .nums s.box), (chars% "types.npy", .ints s.types),
   (chars% "coord.npy", .nums s.coord), (chars% "etot.npy", .nums s.etot),
   (chars% "fatom.npy", .nums s.fatom)] ++
  (s.virial.toList.map (fun a => (chars% "virial.npy", Rows.nums a))) ++
  (s.eatom.toList.map (fun a => (chars% "eatom.npy", Rows.nums a))) ++
  (s.magmom.toList.map (fun a => (chars% "magmoms", Rows.nums a)))

/-- `"part.{0:0>3}".format(rank)`. -/
def partName (rank : Nat) : Str :=
  (chars% "part.") ++ List.replicate (3 - (showNat rank).length) '0' ++ showNat rank

/-- The bounds of the parts, infoset.py 138-142 and 153-160. `int(nf / ps)` is the quotient rounded
towards zero (`Int.tdiv`; exact for frame numbers below 2^53). The loop stops at the first empty part. -/
def partBounds (nf : Nat) (ps : Option Int) : Except PyErr (List (Int × Int)) :=
  let go : Nat → Int → List (Int × Int) := fun num size =>
    ((List.range num).map (fun (r : Nat) =>
      let start : Int := (r : Int) * size
      (start, if r + 1 = num then (nf : Int) else start + size))).takeWhile (fun p => p.2 ≠ p.1)
  match ps with
  | none => .ok (go 1 nf)
  | some p => if p = 0 then .error .zeroDivision else .ok (go (Int.tdiv nf p + 1).toNat p)

/-- What `to_dir` leaves in the directory: the folder, the lines of `type_map.raw`, and for each part
its name and arrays. -/
structure Written where
  folder : Str
  typeMap : List Str
  parts : List (Str × List (Str × Rows))
  deriving DecidableEq

/-- `InfoSet.to_dir(dir_path, part_size)`, infoset.py 137-177. `existing` are the names already in
`dir_path`: `os.mkdir` of an existing folder raises `FileExistsError`. A slice with a negative bound
does not occur (`partBounds_some`, `partBounds_none`, `partBounds_neg`). -/
def InfoSet.toDir (s : InfoSet) (existing : List Str) (ps : Option Int) : Except PyErr Written := do
  let bounds ← partBounds s.numFrames ps
  if s.formula ∈ existing then .error .osError
  else return ⟨s.formula, s.formulaDict.map Prod.fst,
    bounds.zipIdx.map (fun p => (partName p.2,
      s.arrays.map (fun a => (a.1, a.2.slice p.1.1.toNat p.1.2.toNat))))⟩

/-! ## Several trajectories -/

/-- infosets.py 43-46: the atomic numbers of all elements met, in order of first appearance. -/
def gatherNumbers (sets : List InfoSet) : Except PyErr (List Int) :=
  sets.foldlM (fun acc s => (s.formulaDict.map Prod.fst).foldlM (fun acc k => do
    let z ← numberOf k
    return if (z : Int) ∈ acc then acc else acc ++ [(z : Int)]) acc) []

/-- `np.concatenate(arrays, axis=0)`: the row widths must agree. (Every array here has at least one
row, so its width is that of its rows.) -/
def npConcat {α : Type} (arrs : List (List (List α))) : Except PyErr (List (List α)) :=
  match arrs.flatten with
  | [] => .ok []
  | r :: rs => if rs.all (fun x => x.length = r.length) then .ok (r :: rs) else .error .valueError

/-- `np.concatenate` of optional arrays when every member has one, infosets.py 105-110. -/
def concatOpt (arrs : List (Option (List (List ℚ)))) : Except PyErr (Option (List (List ℚ))) :=
  if none ∈ arrs then .ok none else (npConcat (arrs.filterMap id)).map some

/-- The merged set of one formula, infosets.py 68-111. `last` is the value of the loop variable
`tmp_infoset` after the loop, i.e. the last of all sets. -/
def mergeSets (f : Str) (members : List InfoSet) (last : InfoSet) : Except PyErr InfoSet := do
  let box ← npConcat (members.map InfoSet.box)
  let types ← npConcat (members.map InfoSet.types)
  let coord ← npConcat (members.map InfoSet.coord)
  let etot ← npConcat (members.map InfoSet.etot)
  let fatom ← npConcat (members.map InfoSet.fatom)
  let virial ← concatOpt (members.map InfoSet.virial)
  let eatom ← concatOpt (members.map InfoSet.eatom)
  let magmom ← concatOpt (members.map InfoSet.magmom)
  return ⟨box, types, coord, etot, fatom, last.formulaDict, f, (members.map InfoSet.numFrames).sum,
    virial, eatom, magmom⟩

/-- Step 4 of `from_dir`, infosets.py 56-111. -/
def reduceSets (sets : List InfoSet) : Except PyErr (List InfoSet) := do
  let groups ← (counterKeys (sets.map InfoSet.formula)).mapM (fun f => do
    let members := sets.filter (fun s => s.formula = f)
    if members.length = 1 then return members
    else match sets.getLast? with
      | none => return []
      | some last => return [← mergeSets f members last])
  return groups.flatten

/-- `InfoSets.from_dir`, infosets.py 29-117, for the texts of the files found. -/
def infoSetsFromDir (texts : List Str) : Except PyErr (List InfoSet) := do
  let first ← texts.mapM (fun t => infoSetFromFile t none)
  let numbers ← gatherNumbers first
  let sets ← texts.mapM (fun t => infoSetFromFile t (some numbers))
  reduceSets sets

/-- `InfoSets.get_num_frames`, infosets.py 120-124. -/
def totalFrames (sets : List InfoSet) : Nat := (sets.map InfoSet.numFrames).sum

/-- `InfoSets.to_dir`, infosets.py 127-133: each set is written to a folder named by its formula. -/
def infoSetsToDir (sets : List InfoSet) (existing : List Str) (ps : Option Int) :
    Except PyErr (List Written) := do
  let size : Int := match ps with | none => (totalFrames sets : Int) | some p => p
  let rec go : List InfoSet → List Str → Except PyErr (List Written)
    | [], _ => .ok []
    | s :: ss, ex => do
      let w ← s.toDir ex (some size)
      let ws ← go ss (ex ++ [s.formula])
      return w :: ws
  go sets existing

/-! ## StructCollection -/

/-- What `StructCollection` needs of a frame's structure: lattice (9 numbers), Cartesian coordinates,
forces, atomic energies, atomic numbers. -/
structure FrameData where
  box : List ℚ
  coord : List ℚ
  force : List ℚ
  eatom : List ℚ
  numbers : List Nat
  deriving DecidableEq

/-- A `StructCollection`, struct_collection.py 34-50. -/
structure StructCollection where
  frames : List FrameData
  etot : List ℚ
  ep : List ℚ
  ek : List ℚ
  /-- virial tensors, flattened -/
  virial : List (List ℚ)
  deriving DecidableEq

/-- The constructor looks at the first frame: `IndexError` without frames
(struct_collection.py 48-50, 109, 141). -/
def mkCollection (frames : List FrameData) (etot ep ek : List ℚ) (virial : List (List ℚ)) :
    Except PyErr StructCollection :=
  if frames = [] then .error .indexError else .ok ⟨frames, etot, ep, ek, virial⟩

/-- `_get_atomic_numbers`, struct_collection.py 134-143. -/
def StructCollection.atomicNumbers (c : StructCollection) : List Nat :=
  match c.frames with
  | [] => []
  | f :: _ => counterKeys f.numbers

/-- One folder `set.xxx`. -/
structure SetDir where
  name : Str
  cell : List (List ℚ)
  coord : List (List ℚ)
  energy : List (List ℚ)
  force : List (List ℚ)
  virial : Option (List (List ℚ))
  eatom : Option (List (List ℚ))
  deriving DecidableEq

/-- `"set.%03d" % idx`. -/
def setName (i : Nat) : Str :=
  (chars% "set.") ++ List.replicate (3 - (showNat i).length) '0' ++ showNat i

/-- Number of sets, struct_collection.py 257-259. Python `//` is floor division. -/
def numSets (n : Nat) (size : Int) : Except PyErr Int :=
  if size = 0 then .error .zeroDivision
  else
    let q := Int.fdiv n size
    .ok (if size * q < n then q + 1 else q)

/-- Python slice `l[i:j]` with integer bounds, here only used with `0 ≤ i`, `0 ≤ j`. -/
def sliceI {α : Type} (l : List α) (i j : Int) : List α := pySlice l i.toNat j.toNat

/-- `StructCollection.to(dir_path, set_size)`, struct_collection.py 180-276: contents of
`type_map.raw`, `type.raw` and the set folders. The virial array must have one row per frame, else
`reshape` raises (line 254; only the case of rows of equal length is modelled). -/
def StructCollection.to (c : StructCollection) (size : Int) :
    Except PyErr (List Str × List Str × List SetDir) := do
  let n := c.frames.length
  let typeMap := (List.range c.atomicNumbers.length).map showNat
  let types ← (match c.frames with
    | [] => .error PyErr.indexError
    | f :: _ => f.numbers.mapM (fun z => do return showNat (← pyIndex c.atomicNumbers z)) :
      Except PyErr (List Str))
  if c.etot.length ≠ n ∨ c.virial.length ≠ n then .error .valueError
  else do
    let k ← numSets n size
    let anyVirial : Bool := c.virial.any (fun r => r.any (fun x => x ≠ 0))
    let eatoms := c.frames.map FrameData.eatom
    let anyEatom : Bool := eatoms.any (fun r => r.any (fun x => x ≠ 0))
    let sets := (List.range k.toNat).map (fun (i : Nat) =>
      let lo : Int := (i : Int) * size
      let hi : Int := ((i : Int) + 1) * size
      { name := setName i
        cell := sliceI (c.frames.map FrameData.box) lo hi
        coord := sliceI (c.frames.map FrameData.coord) lo hi
        energy := sliceI (c.etot.map (fun x => [x])) lo hi
        force := sliceI (c.frames.map FrameData.force) lo hi
        virial := if anyVirial then some (sliceI c.virial lo hi) else none
        eatom := if anyEatom then some (sliceI eatoms lo hi) else none : SetDir })
    return (typeMap, types, sets)

/-- `StructCollection.from_indices`, struct_collection.py 279-314. `max` of an empty list is a
`ValueError`. -/
def StructCollection.fromIndices (c : StructCollection) (idx : List Int) :
    Except PyErr StructCollection :=
  match idx.max? with
  | none => .error .valueError
  | some mx =>
    if mx > (c.frames.length : Int) then .error .indexError
    else do
      let frames ← idx.mapM (pyGetI c.frames)
      let etot ← idx.mapM (pyGetI c.etot)
      let ep ← idx.mapM (pyGetI c.ep)
      let ek ← idx.mapM (pyGetI c.ek)
      let virial := match idx.mapM (pyGetI c.virial) with
        | .ok v => v
        | .error _ => List.replicate 10 [0]
      mkCollection frames etot ep ek virial

end MaterSDK
