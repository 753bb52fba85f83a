import Verif.Model.ACExtractor

/-!
# MOVEMENT trajectories

Model of `/repo/matersdk/io/pwmat/utils/mvextractor.py` and
`/repo/matersdk/io/pwmat/output/movement.py`. A file is its text; `fileLines` gives the rows Python
iterates over.
-/

namespace MaterSDK

/-- The separator text, mvextractor.py 42 (of the class) / movement.py 55: 38 dashes. -/
def sepText : Str := chars% "--------------------------------------"

/-- Differences of consecutive entries: the loop of mvextractor.py 49-51, movement.py 62-63. -/
def consecDiffs : List Nat → List Int
  | a :: b :: rest => ((b : Int) - (a : Int)) :: consecDiffs (b :: rest)
  | _ => []

/-- `get_chunksizes`, mvextractor.py 24-52; `get_chunksize`, movement.py 37-65 (same code).
`row_idxs[0]` raises `IndexError` when there is no separator row. -/
def chunkSizes (rows : List Str) : Except PyErr (List Int) := do
  let idxs := lineLocate rows sepText
  let first ← pyGet idxs 0
  return (first : Int) :: consecDiffs idxs

/-- `np.cumsum`, starting from an accumulator. -/
def cumsumFrom : Int → List Int → List Int
  | _, [] => []
  | acc, x :: xs => (acc + x) :: cumsumFrom (acc + x) xs

/-- `get_chunkslices`, mvextractor.py 55-66; `get_chunkslice`, movement.py 68-84: cumulative sums
of the sizes with a 0 inserted in front. -/
def chunkSlices (sizes : List Int) : List Int := cumsumFrom 0 (0 :: sizes)

/-- The loop of `get_frame_str`, mvextractor.py 69-77; `_get_frame_str`, movement.py 105-114.
`idx` is the current line index, `lo`/`hi` are `chunkslices[fidx]` and `chunkslices[fidx+1]`. -/
def frameLoop (lo hi : Int) : Nat → List Str → Str
  | _, [] => []
  | idx, line :: rest =>
    if lo ≤ (idx : Int) ∧ (idx : Int) < hi then line ++ frameLoop lo hi (idx + 1) rest
    else if hi ≤ (idx : Int) then []
    else frameLoop lo hi (idx + 1) rest

/-- `get_frame_str(fidx)`. The two slice look-ups happen inside the loop, so with an empty file no
exception is raised. Negative `fidx` follows Python's negative indexing. -/
def frameStr (rows : List Str) (slices : List Int) (fidx : Int) : Except PyErr Str :=
  if rows = [] then .ok []
  else do
    let lo ← pyGetI slices fidx
    let hi ← pyGetI slices (fidx + 1)
    return frameLoop lo hi 0 rows

/-- Sequential reading, mvextractor.py 122-126, movement.py 125-129 and 168-172: for each chunk,
`readline()` as many times as its size; past the end of the file `readline()` gives `""`. -/
def seqFrames : List Int → List Str → List Str
  | [], _ => []
  | k :: ks, rows => (rows.take k.toNat).flatten :: seqFrames ks (rows.drop k.toNat)

/-! ## Movement (movement.py) -/

/-- A `Movement` object, movement.py 17-34. -/
structure Movement where
  rows : List Str
  sizes : List Int
  slices : List Int
  deriving DecidableEq

/-- `Movement.__init__(movement_path)`, movement.py 17-34. The class is abstract, see `openMovement`. -/
def Movement.load (text : Str) : Except PyErr Movement := do
  let sizes ← chunkSizes (fileLines text)
  return ⟨fileLines text, sizes, chunkSlices sizes⟩

/-- `Movement._get_frame_str(idx_frame)`, movement.py 87-114. -/
def Movement.frameStr (m : Movement) (i : Int) : Except PyErr Str :=
  MaterSDK.frameStr m.rows m.slices i

/-- The frame texts consumed by `get_all_frame_structures` and `get_all_frame_structures_info`,
movement.py 125-129 and 168-172. -/
def Movement.allFrameStrs (m : Movement) : List Str := seqFrames m.sizes m.rows

/-- `get_frame_energy(idx_frame)` after the frame text has been fetched, movement.py 274-279. -/
def frameEnergy (frame : Str) : Except PyErr (ℚ × ℚ × ℚ) := do
  let row := split (← pyGet (splitCh '\n' frame) 0)
  let et ← parseFloat (strip (← pyGet row 8))
  let ep ← parseFloat (strip (← pyGet row 9))
  let t10 ← pyGet row 10
  let ek ← parseFloat (strip t10.dropLast)
  return (et, ep, ek)

/-- Energies of one frame in `get_all_frame_structures_info`, movement.py 181-192. -/
def allFramesEnergy (frame : Str) : Except PyErr (ℚ × ℚ × ℚ) := do
  let row := split (← pyGet (splitCh '\n' frame) 0)
  let idx ← pyGet (listLocate row (chars% "=")) 1
  let et ← parseFloat (strip (← pyGet row (idx + 1)))
  let ep ← parseFloat (strip (← pyGet row (idx + 2)))
  let k := strip (← pyGet row (idx + 3))
  let last ← pyGetI k (-1)
  let ek ← if last = ',' then parseFloat k.dropLast else parseFloat k
  return (et, ep, ek)

/-- `[float(v.strip()) for v in row.split()[-3:]]`, movement.py 207, 314. -/
def last3 (row : Str) : Except PyErr (List ℚ) :=
  (pyLastN (split row) 3).mapM (fun t => parseFloat (strip t))

/-- `np.vstack` of three rows: they need equal lengths. -/
def vstack3 (x y z : List ℚ) : Except PyErr (List (List ℚ)) :=
  if x.length = y.length ∧ y.length = z.length then .ok [x, y, z] else .error .valueError

/-- `get_frame_virial(idx_frame)` after the frame text has been fetched, movement.py 304-319. -/
def frameVirial (frame : Str) : Except PyErr (List (List ℚ)) := do
  let rows := splitCh '\n' frame
  let idx ← pyGet (listLocate rows (chars% "LATTICE VECTOR")) 0
  let r1 ← pyGet rows (idx + 1)
  if (split r1).length = 3 then return List.replicate 3 (List.replicate 3 0)
  else
    let x ← last3 r1
    let y ← last3 (← pyGet rows (idx + 2))
    let z ← last3 (← pyGet rows (idx + 3))
    vstack3 x y z

/-- The virial appended (or not) for one frame by `get_all_frame_structures_info`,
movement.py 199-212: `none` when the row has exactly three tokens and nothing is appended. -/
def allFramesVirial (frame : Str) : Except PyErr (Option (List (List ℚ))) := do
  let rows := splitCh '\n' frame
  let first ← pyGet rows 0
  let _ ← parseInt (← pyGet (split first) 0)
  let idx ← pyGet (listLocate rows (chars% "LATTICE VECTOR")) 0
  let r1 ← pyGet rows (idx + 1)
  if (split r1).length = 3 then return none
  else
    let x ← last3 r1
    let y ← last3 (← pyGet rows (idx + 2))
    let z ← last3 (← pyGet rows (idx + 3))
    return some (← vstack3 x y z)

/-! ## MVExtractor (mvextractor.py) -/

/-- Turn `try: f() except AttributeError: mark = False` into a Boolean; other exceptions escape. -/
def markOf {α : Type} (r : Except PyErr α) : Except PyErr Bool :=
  match r with
  | .ok _ => .ok true
  | .error .attributeError => .ok false
  | .error e => .error e

/-- `_find_extra_properties`, mvextractor.py 174-197: (virial, eatoms, magmoms), from frame 0. -/
def findExtra (rows : List Str) (slices : List Int) : Except PyErr (Bool × Bool × Bool) := do
  let f0 ← frameStr rows slices 0
  let a ← acStr f0
  let v ← markOf a.getVirial
  let e ← markOf a.getEatoms
  let m ← markOf a.getMagmoms
  return (v, e, m)

/-- An `MVExtractor` object, mvextractor.py 11-17. -/
structure MVExtractor where
  rows : List Str
  sizes : List Int
  slices : List Int
  virialMark : Bool
  eatomsMark : Bool
  magmomsMark : Bool
  deriving DecidableEq

/-- `MVExtractor(movement_path)`, mvextractor.py 11-17. -/
def MVExtractor.load (text : Str) : Except PyErr MVExtractor := do
  let rows := fileLines text
  let sizes ← chunkSizes rows
  let slices := chunkSlices sizes
  let (v, e, m) ← findExtra rows slices
  return ⟨rows, sizes, slices, v, e, m⟩

/-- `get_num_frames`, mvextractor.py 20-21 and 47: the number of separator rows. -/
def MVExtractor.numFrames (m : MVExtractor) : Nat := (lineLocate m.rows sepText).length

/-- `get_frame_str(fidx)`, mvextractor.py 69-77. -/
def MVExtractor.frameStr (m : MVExtractor) (i : Int) : Except PyErr Str :=
  MaterSDK.frameStr m.rows m.slices i

/-- The chunks consumed by `get_frames_info`, mvextractor.py 122-126. -/
def MVExtractor.allFrameStrs (m : MVExtractor) : List Str := seqFrames m.sizes m.rows

end MaterSDK
