import Verif.Model.Dataset
import Verif.Model.Trajectory

/-!
# Structure collections as Python objects

Model of `StructCollection` (`/repo/matersdk/data/struct_collection.py` 34-177 and the order of effects
of `to`, 205-276) and of `DStructure.get_atomic_force`, `get_atomic_energy`
(`/repo/matersdk/io/publicLayer/structure.py` 506-535), on top of `Model/Dataset`, where the forces and
atomic energies of a frame are given.

Simplifications.
* Of pymatgen's site properties only `atomic_force` and `atomic_energy` are kept, each present or absent.
  Reading an absent property is an `AttributeError` (pymatgen `Site.__getattr__`).
* The properties of a pymatgen `PeriodicSite` which the code asks for are listed in `siteAttributes`.
* A folder is the two `raw` files and the set folders. Where `type.raw` cannot be written because a
  frame has no sites does not occur: the constructor needs a first frame.
* `np.array` of ragged rows is not modelled: every frame has the same number of atoms, or the last step
  of `to` is not looked at.
-/

namespace MaterSDK

/-! ## Python slices -/

/-- A Python `slice` object. -/
structure PySliceObj where
  start : Option Int
  stop : Option Int
  step : Option Int
  deriving DecidableEq

/-- CPython `PySlice_AdjustIndices`: one bound of a slice of a sequence of length `n`. -/
def adjustBound (n : Nat) (step b : Int) : Int :=
  if b < 0 then
    (if b + n < 0 then (if step < 0 then -1 else 0) else b + n)
  else if (n : Int) ≤ b then (if step < 0 then (n : Int) - 1 else n)
  else b

/-- The first bound of a slice, CPython `PySlice_Unpack` and `PySlice_AdjustIndices`. -/
def sliceStart (s : PySliceObj) (n : Nat) (step : Int) : Int :=
  match s.start with
  | none => if step < 0 then (n : Int) - 1 else 0
  | some b => adjustBound n step b

/-- The second bound of a slice. -/
def sliceStop (s : PySliceObj) (n : Nat) (step : Int) : Int :=
  match s.stop with
  | none => if step < 0 then -1 else (n : Int)
  | some b => adjustBound n step b

/-- The number of items of a slice. -/
def sliceLen (start stop step : Int) : Int :=
  if step < 0 then (if stop < start then (start - stop - 1) / (-step) + 1 else 0)
  else (if start < stop then (stop - start - 1) / step + 1 else 0)

/-- `list(range(*s.indices(n)))`: the indices a slice selects from a sequence of length `n`. -/
def sliceIndices (s : PySliceObj) (n : Nat) : Except PyErr (List Int) :=
  let step := s.step.getD 1
  if step = 0 then .error .valueError
  else .ok ((List.range (sliceLen (sliceStart s n step) (sliceStop s n step) step).toNat).map
    (fun (k : Nat) => sliceStart s n step + k * step))

/-- `l[s]` for a list, or for a numpy array along its first axis. -/
def sliceGet {α : Type} (l : List α) (s : PySliceObj) : Except PyErr (List α) := do
  let idx ← sliceIndices s l.length
  idx.mapM (pyGetI l)

/-! ## Sites and structures -/

/-- A site: atomic number, Cartesian coordinates and the two site properties. -/
structure SiteObj where
  number : Nat
  cart : List ℚ
  force : Option (List ℚ)
  energy : Option (List ℚ)
  deriving DecidableEq

/-- A `DStructure`. -/
structure StructV where
  box : List ℚ
  sites : List SiteObj
  deriving DecidableEq

/-- Names known to a pymatgen `PeriodicSite` without further site properties. -/
def siteAttributes : List Str :=
  [chars% "species", chars% "specie", chars% "species_string", chars% "coords", chars% "frac_coords",
   chars% "lattice", chars% "properties", chars% "is_ordered", chars% "label", chars% "x", chars% "y",
   chars% "z", chars% "a", chars% "b", chars% "c"]

/-- Looking up a name on a site. -/
def siteGetAttr (name : Str) : Except PyErr Unit :=
  if name ∈ siteAttributes then .ok () else .error .attributeError

/-- `site.atomic_force`. -/
def SiteObj.getForce (t : SiteObj) : Except PyErr (List ℚ) :=
  match t.force with
  | some f => .ok f
  | none => .error .attributeError

/-- `site.atomic_energy[0]`. -/
def SiteObj.getEnergy (t : SiteObj) : Except PyErr ℚ :=
  match t.energy with
  | some e => pyGet e 0
  | none => .error .attributeError

/-- `DStructure.get_atomic_force`, structure.py 506-519. -/
def StructV.atomicForce (s : StructV) : Except PyErr (List (List ℚ)) := s.sites.mapM SiteObj.getForce

/-- `DStructure.get_atomic_energy`, structure.py 522-535. -/
def StructV.atomicEnergy (s : StructV) : Except PyErr (List ℚ) := s.sites.mapM SiteObj.getEnergy

/-- The object made by `Structure(lattice=, species=, coords=, coords_are_cartesian=)` without
`site_properties`, structure.py 54-58 and 90-94. `z` gives the number of a species text. -/
def StructV.ofQ (z : Str → Nat) (s : QStruct) : StructV where
  box := [s.a.x, s.a.y, s.a.z, s.b.x, s.b.y, s.b.z, s.c.x, s.c.y, s.c.z]
  sites := s.sites.map (fun t => ⟨z t.specie,
    [t.frac.x * s.a.x + t.frac.y * s.b.x + t.frac.z * s.c.x,
     t.frac.x * s.a.y + t.frac.y * s.b.y + t.frac.z * s.c.y,
     t.frac.x * s.a.z + t.frac.y * s.b.z + t.frac.z * s.c.z], none, none⟩)

/-! ## Collections -/

/-- A `StructCollection`, struct_collection.py 34-50. -/
structure CollObj where
  frames : List StructV
  etot : List ℚ
  ep : List ℚ
  ek : List ℚ
  virial : List (List ℚ)
  /-- `atomic_numbers_lst` -/
  numbers : List Nat
  /-- `an2na`, in order of insertion -/
  an2na : List (Nat × Nat)
  /-- `num_atoms` -/
  numAtoms : Nat
  deriving DecidableEq

/-- `StructCollection.__init__` for a list of structures, struct_collection.py 34-50, with
`_get_num_atoms` (103-110), `_get_num_atoms_per_element` (113-131) and `_get_atomic_numbers`
(134-143). -/
def mkColl (frames : List StructV) (etot ep ek : List ℚ) (virial : List (List ℚ)) :
    Except PyErr CollObj := do
  let f ← pyGet frames 0
  let numbers := counterKeys (f.sites.map SiteObj.number)
  let an2na := numbers.map (fun z => (z, (f.sites.filter (fun t => t.number = z)).length))
  return ⟨frames, etot, ep, ek, virial, numbers, an2na, f.sites.length⟩

/-- `StructCollection.__init__` when `structures_lst` is a single structure: a sequence of sites.
`species` of a site is a composition, whose elements have a `Z`; then `sites` is asked for
(struct_collection.py 141, 129). -/
def mkCollOfStruct (s : StructV) : Except PyErr Unit := do
  let _ ← pyGet s.sites 0
  siteGetAttr (chars% "species")
  siteGetAttr (chars% "sites")
  siteGetAttr (chars% "num_sites")

/-- `collection[i]` for an integer, struct_collection.py 81-96. What would be returned is left out:
it is never reached. -/
def CollObj.getInt (c : CollObj) (i : Int) : Except PyErr Unit := do
  let s ← pyGetI c.frames i
  let _ ← pyGetI c.etot i
  let _ ← pyGetI c.ep i
  let _ ← pyGetI c.ek i
  let _ ← pyGetI c.virial i
  mkCollOfStruct s

/-- `collection[s]` for a slice, struct_collection.py 81-96. -/
def CollObj.getSlice (c : CollObj) (s : PySliceObj) : Except PyErr CollObj := do
  let frames ← sliceGet c.frames s
  let etot ← sliceGet c.etot s
  let ep ← sliceGet c.ep s
  let ek ← sliceGet c.ek s
  let virial ← sliceGet c.virial s
  mkColl frames etot ep ek virial

/-- `from_indices`, struct_collection.py 279-314, on objects. -/
def CollObj.select (c : CollObj) (idx : List Int) : Except PyErr CollObj :=
  match idx.max? with
  | none => .error .valueError
  | some mx =>
    if mx > (c.frames.length : Int) then .error .indexError
    else do
      let frames ← idx.mapM (pyGetI c.frames)
      let etot ← idx.mapM (pyGetI c.etot)
      let ep ← idx.mapM (pyGetI c.ep)
      let ek ← idx.mapM (pyGetI c.ek)
      let virial := match idx.mapM (pyGetI c.virial) with
        | .ok v => v
        | .error _ => List.replicate 10 [0]
      mkColl frames etot ep ek virial

/-- `for x in collection`: the class has no `__iter__`, so Python calls `collection[k]` for
`k = 0, 1, …` until an `IndexError`; `k` is the next index, the first argument bounds the number of
calls. The number of items seen. -/
def CollObj.iterFrom (c : CollObj) : ℕ → ℕ → Except PyErr ℕ
  | 0, k => .ok k
  | fuel + 1, k =>
    match c.getInt k with
    | .error .indexError => .ok k
    | .error e => .error e
    | .ok _ => c.iterFrom fuel (k + 1)

/-- `sum(1 for x in collection)`. -/
def CollObj.iter (c : CollObj) : Except PyErr ℕ := c.iterFrom (c.frames.length + 1) 0

/-- `__repr__`, struct_collection.py 57-78: the values printed (number of frames, number of atoms,
whether some virial is not 0, whether the atomic energy of the first site is not 0, counts). -/
def CollObj.repr (c : CollObj) : Except PyErr (Nat × Nat × Bool × Bool × List (Nat × Nat)) := do
  let f ← pyGet c.frames 0
  let t ← pyGet f.sites 0
  let e ← (match t.energy with
    | some e => .ok e
    | none => .error .attributeError : Except PyErr (List ℚ))
  return (c.frames.length, c.numAtoms, c.virial.any (fun r => r.any (fun x => x ≠ 0)),
    e.any (fun x => x ≠ 0), c.an2na)

/-- `from_trajectory_s`, struct_collection.py 146-177. -/
def collFromTrajectory (z : Str → Nat) (m : Movement) : Except PyErr CollObj := do
  let (ss, es, vs) ← m.allInfo
  mkColl (ss.map (StructV.ofQ z)) (es.map (fun e => e.1)) (es.map (fun e => e.2.1))
    (es.map (fun e => e.2.2)) (vs.map List.flatten)

/-! ## Export -/

/-- What `to` reads of a structure, struct_collection.py 244-248. -/
def StructV.frameData (s : StructV) : Except PyErr FrameData := do
  let force ← s.atomicForce
  let eatom ← s.atomicEnergy
  return ⟨s.box, (s.sites.map SiteObj.cart).flatten, force.flatten, eatom, s.sites.map SiteObj.number⟩

/-- The output folder. -/
structure OutDir where
  typeMap : Option (List Str)
  types : Option (List Str)
  sets : List SetDir
  deriving DecidableEq

/-- `to(dir_path, set_size)`, struct_collection.py 180-276, with the folder found and the folder left:
it is removed and made anew (206-212), then the two `raw` files are written (226-236), then the
structures are read (244-248), and the sets are written last. -/
def CollObj.export (c : CollObj) (size : Int) (_old : Option OutDir) :
    OutDir × Except PyErr Unit :=
  let d0 : OutDir := ⟨none, none, []⟩
  let typeMap := (List.range c.numbers.length).map showNat
  let d1 : OutDir := ⟨some typeMap, none, []⟩
  match (do
      let f ← pyGet c.frames 0
      (f.sites.map SiteObj.number).mapM (fun z => do return showNat (← pyIndex c.numbers z)) :
      Except PyErr (List Str)) with
  | .error e => (if c.frames = [] then d0 else d1, .error e)
  | .ok types =>
    let d2 : OutDir := ⟨some typeMap, some types, []⟩
    match (do
        let fs ← c.frames.mapM StructV.frameData
        (StructCollection.mk fs c.etot c.ep c.ek c.virial).to size :
        Except PyErr (List Str × List Str × List SetDir)) with
    | .error e => (d2, .error e)
    | .ok out => (⟨some typeMap, some types, out.2.2⟩, .ok ())

end MaterSDK
