import Verif.Model.Movement
import Verif.Model.StructIO

/-!
# Contents of a trajectory

Model of `MVExtractor.get_frame_info`, `get_frames_info`, `get_info_labels` (mvextractor.py 80-171)
and of `Movement.get_all_frame_structures_info`, `get_frame_energy`, `get_frame_virial`
(movement.py 140-319).
-/

namespace MaterSDK

/-- What an array returned by `MVExtractor` contains. -/
inductive Kind
  | box | types | coords | etot | fatoms | virial | eatoms | magmoms
  deriving DecidableEq, Repr

/-- `if mark: arrays.append(value)`, the value being computed only under the mark. -/
def optKind (mark : Bool) (k : Kind) (r : Except PyErr (List ℚ)) : Except PyErr (List (Kind × List ℚ)) :=
  if mark then r.map (fun v => [(k, v)]) else .ok []

/-- `get_frame_info(fidx)`, mvextractor.py 80-107: the list of arrays, each tagged with what it
contains. Integer types are shown as rationals. The calls are made in the order box, types, coords,
etot, fatoms and then the optional ones. -/
def MVExtractor.frameInfo (m : MVExtractor) (i : Int) : Except PyErr (List (Kind × List ℚ)) := do
  let a ← acStr (← m.frameStr i)
  let box ← a.getBasis
  let types ← a.getTypes
  let coords ← a.getCoords
  let etot ← a.getEtot
  let virial ← optKind m.virialMark .virial a.getVirial
  let magmoms ← optKind m.magmomsMark .magmoms a.getMagmoms
  let eatoms ← optKind m.eatomsMark .eatoms a.getEatoms
  return [(.box, box), (.types, types.map (fun (t : Int) => (t : ℚ))), (.coords, coords), (.etot, [etot]),
    (.fatoms, a.getFatoms)] ++ virial ++ magmoms ++ eatoms

/-- One pass of the loop of `get_frames_info`, mvextractor.py 124-141, in the order of the `append`
calls. -/
def MVExtractor.chunkInfo (m : MVExtractor) (frame : Str) : Except PyErr (List (Kind × List ℚ)) := do
  let a ← acStr frame
  let box ← a.getBasis
  let coords ← a.getCoords
  let types ← a.getTypes
  let etot ← a.getEtot
  let virial ← optKind m.virialMark .virial a.getVirial
  let eatoms ← optKind m.eatomsMark .eatoms a.getEatoms
  let magmoms ← optKind m.magmomsMark .magmoms a.getMagmoms
  return [(.box, box), (.coords, coords), (.types, types.map (fun (t : Int) => (t : ℚ))), (.etot, [etot]),
    (.fatoms, a.getFatoms)] ++ virial ++ eatoms ++ magmoms

/-- `np.array(list of one-dimensional arrays)`: different lengths raise `ValueError` (numpy 1.24 and
later). -/
def npStack (rows : List (List ℚ)) : Except PyErr (List (List ℚ)) :=
  match rows with
  | [] => .ok []
  | r :: rs => if rs.all (fun x => x.length = r.length) then .ok (r :: rs) else .error .valueError

/-- The list collected for one kind over the chunks. -/
def column (k : Kind) (recs : List (List (Kind × List ℚ))) : List (List ℚ) :=
  recs.filterMap (fun r => (r.find? (fun p => p.1 = k)).map Prod.snd)

/-- The kinds returned by `get_frames_info`, mvextractor.py 143-152, in order. -/
def MVExtractor.kinds (m : MVExtractor) : List Kind :=
  [.box, .types, .coords, .etot, .fatoms] ++ (if m.virialMark then [.virial] else []) ++
    (if m.eatomsMark then [.eatoms] else []) ++ (if m.magmomsMark then [.magmoms] else [])

/-- `get_frames_info`, mvextractor.py 110-153: for each kind the stacked array, one row per frame. -/
def MVExtractor.framesInfo (m : MVExtractor) : Except PyErr (List (Kind × List (List ℚ))) := do
  let recs ← m.allFrameStrs.mapM m.chunkInfo
  m.kinds.mapM (fun k => do return (k, ← npStack (column k recs)))

/-- The label written for a kind, mvextractor.py 156-171 (the spelling `etaoms` is the code's). -/
def labelOf : Kind → Str
  | .box => chars% "box" | .types => chars% "types" | .coords => chars% "coords"
  | .etot => chars% "etot" | .fatoms => chars% "fatoms" | .virial => chars% "virial"
  | .eatoms => chars% "etaoms" | .magmoms => chars% "magmoms"

/-- `get_info_labels`, mvextractor.py 156-171. -/
def MVExtractor.infoLabels (m : MVExtractor) : List Str :=
  ([.box, .types, .coords, .etot, .fatoms].map labelOf) ++
    (if m.virialMark then [labelOf .virial] else []) ++
    (if m.eatomsMark then [labelOf .eatoms] else []) ++
    (if m.magmomsMark then [labelOf .magmoms] else [])

/-- `Movement.get_frame_energy(idx_frame)`, movement.py 248-279. -/
def Movement.energyOf (m : Movement) (i : Int) : Except PyErr (ℚ × ℚ × ℚ) := do
  frameEnergy (← m.frameStr i)

/-- `Movement.get_frame_virial(idx_frame)`, movement.py 282-319. -/
def Movement.virialOf (m : Movement) (i : Int) : Except PyErr (List (List ℚ)) := do
  frameVirial (← m.frameStr i)

/-- One pass of the loop of `get_all_frame_structures_info`, movement.py 169-212: structure, energies,
virial (if appended). -/
def infoStep (frame : Str) : Except PyErr (QStruct × (ℚ × ℚ × ℚ) × Option (List (List ℚ))) := do
  let s ← fromStr frame true
  let e ← allFramesEnergy frame
  let v ← allFramesVirial frame
  return (s, e, v)

/-- `Movement.get_all_frame_structures_info`, movement.py 140-220: structures, energies, virials. -/
def Movement.allInfo (m : Movement) :
    Except PyErr (List QStruct × List (ℚ × ℚ × ℚ) × List (List (List ℚ))) := do
  let xs ← m.allFrameStrs.mapM infoStep
  return (xs.map (fun x => x.1), xs.map (fun x => x.2.1), xs.filterMap (fun x => x.2.2))

end MaterSDK
