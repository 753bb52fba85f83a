import Verif.Model.Dataset
import Verif.Lemmas.DatasetRead
import Verif.Spec.Dataset

/-! # What the files of a part folder say about frames -/

namespace MaterSDK

/-- The file `nm` of a part folder has one row per frame: what `R` reads from the frame. -/
def FileSays (R : Str → List ℚ → Prop) (nm : Str) (files : List (Str × Rows)) (frames : List Str) : Prop :=
  ∃ rows, (nm, Rows.nums rows) ∈ files ∧ List.Forall₂ R frames rows

/-- Stored type indices name, in the element list, the elements of the atomic numbers in the frame. -/
def TypesSay (typeMap : List Str) (f : Str) (stored : List ℕ) : Prop :=
  ∃ zs, typesOf f = .ok zs ∧
    List.Forall₂ (fun z j => ∃ sym, typeMap[j]? = some sym ∧ specieOf z = .ok sym) zs stored

/-- The files of a part folder hold box, coordinates, total energy, forces and elements of these frames, one row
per frame in this order. -/
structure PartSays (typeMap : List Str) (files : List (Str × Rows)) (frames : List Str) : Prop where
  box : FileSays (fun f v => readKind .box f = .ok v) (chars% "box.npy") files frames
  coord : FileSays (fun f v => readKind .coords f = .ok v) (chars% "coord.npy") files frames
  etot : FileSays (fun f v => readKind .etot f = .ok v) (chars% "etot.npy") files frames
  fatom : FileSays (fun f v => readKind .fatoms f = .ok v) (chars% "fatom.npy") files frames
  types : ∃ rows, (chars% "types.npy", Rows.ints rows) ∈ files ∧
    List.Forall₂ (TypesSay typeMap) frames rows
  names : (files.map Prod.fst).Nodup

/-- A part folder has no file with this name. -/
def FileMissing (nm : Str) (files : List (Str × Rows)) : Prop := nm ∉ files.map Prod.fst

end MaterSDK
