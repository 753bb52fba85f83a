import Verif.Model.Neigh
import Verif.Model.Perturb
import Verif.Model.Dataset

/-!
# Whole collections and batches

Model of `/repo/matersdk/data/struct_collection.py` 317-366 and 427-492,
`/repo/matersdk/adalearn/generator/perturbation.py` 112-131 and
`/repo/matersdk/calculation/kpoints/kmesh.py` 7-15.

Simplifications.
* A python call is checked against the parameter names of the function: too many positional arguments,
  an unknown or doubled keyword and a missing argument are a `TypeError`.
* A folder is the list of its subfolders with their files; only names and the fact that a file is there
  matter, contents are texts.
* `os.cpu_count()` is an integer argument. `mp.Pool(k)` refuses `k < 1` with a `ValueError`; otherwise
  `starmap` maps the function over the arguments and hands on an exception.
* In `save_all_info` the statements after the call of `to` (lines 366-422) are never reached and are
  left out.
-/

namespace MaterSDK

/-! ## Calls -/

/-- Parameter names of a function without `self`/`cls`, and the names of those without a default. -/
structure PySig where
  params : List Str
  required : List Str

/-- Binding of arguments: `pos` positional arguments and keywords `kws`. -/
def PySig.bind (g : PySig) (pos : ℕ) (kws : List Str) : Except PyErr Unit :=
  if g.params.length < pos then .error .typeError
  else if ∃ k ∈ kws, k ∉ g.params.drop pos then .error .typeError
  else if ¬ kws.Nodup then .error .typeError
  else if ∃ r ∈ g.required, r ∉ g.params.take pos ∧ r ∉ kws then .error .typeError
  else .ok ()

/-- `DStructure.to`, structure.py 103-107. -/
def toSig : PySig :=
  ⟨[chars% "file_path", chars% "file_format", chars% "include_magnetic_moments"],
   [chars% "file_path", chars% "file_format"]⟩

/-- `DStructure.from_file`, structure.py 26-30. -/
def fromFileSig : PySig :=
  ⟨[chars% "file_path", chars% "file_format", chars% "sort"], [chars% "file_path", chars% "file_format"]⟩

/-! ## `save_all_info` -/

/-- Subfolders with their files. -/
abbrev Folder := List (Str × List (Str × Str))

/-- `f"%0{num_bits}d" % idx`. -/
def imageName (bits i : ℕ) : Str := List.replicate (bits - (showNat i).length) '0' ++ showNat i

/-- Up to and including the call of `to`, struct_collection.py 354-365: the folder of the frame is
emptied or made, then the structure is written. `text` is what `to` would write. -/
def saveImage (bits i : ℕ) (text : Str) (d : Folder) : Folder × Except PyErr Unit :=
  let d := d.filter (fun p => p.1 ≠ imageName bits i) ++ [(imageName bits i, [])]
  match toSig.bind 0 [chars% "output_file_format", chars% "output_file_path"] with
  | .error e => (d, .error e)
  | .ok _ => (dictSet d (imageName bits i) [(chars% "atom.config", text)], .ok ())

/-- The loop over the frames, struct_collection.py 353-365, which ends with the first exception. -/
def saveImages (bits : ℕ) : List (ℕ × Str) → Folder → Folder × Except PyErr Unit
  | [], d => (d, .ok ())
  | (i, text) :: l, d =>
    match saveImage bits i text d with
    | (d, .error e) => (d, .error e)
    | (d, .ok _) => saveImages bits l d

/-- `save_all_info`, struct_collection.py 317-365, for the texts of the frames. -/
def saveAllInfo (texts : List Str) (d : Folder) : Folder × Except PyErr Unit :=
  saveImages (showNat texts.length).length (texts.zipIdx.map (fun p => (p.2, p.1))) d

/-! ## `batch_perturb` -/

/-- The files of one system after a call: whether `structures` exists, and its files. -/
structure SystemDir where
  hasStructures : Bool
  files : List (Str × Str)

/-- `"{0}.config".format(i)`. -/
def configName (i : ℕ) : Str := showNat i ++ (chars% ".config")

/-- The inner loop, perturbation.py 128-131; `render` gives what `to` would write. -/
def writePerturbed (render : Struct ℝ → Str) : List (ℕ × Struct ℝ) → List (Str × Str) →
    List (Str × Str) × Except PyErr Unit
  | [], fs => (fs, .ok ())
  | (i, s) :: l, fs =>
    match toSig.bind 0 [chars% "output_file_path", chars% "output_file_format"] with
    | .error e => (fs, .error e)
    | .ok _ => writePerturbed render l (dictSet fs (configName i) (render s))

/-- One pass of the outer loop, perturbation.py 119-131. The structure has been read from
`atom.config`. -/
noncomputable def perturbSystem (F : QR) (render : Struct ℝ → Str) (s : Struct ℝ) (pertNum : ℤ) (frac dist : ℝ)
    (e0 : ℕ → Fin 6 → ℝ) (es : ℕ → ℕ → Vec ℝ) (d : SystemDir) : SystemDir × Except PyErr Unit :=
  match perturb F s pertNum frac dist e0 es with
  | .error e => (d, .error e)
  | .ok structs =>
    let r := writePerturbed render (structs.zipIdx.map (fun p => (p.2, p.1))) d.files
    (⟨true, r.1⟩, r.2)

/-! ## `KMesh` -/

/-- `KMesh.__init__`, kmesh.py 7-15; `read` stands for the body of `from_file`. -/
def kmeshInit {α : Type} (read : Except PyErr α) : Except PyErr α := do
  fromFileSig.bind 0 [chars% "file_format", chars% "file_path", chars% "coords_are_cartesian"]
  read

/-! ## Largest numbers of neighbours of a collection -/

/-- `mp.Pool(os.cpu_count()-2)`. -/
def mpPool (cpus : ℤ) : Except PyErr Unit := if cpus - 2 < 1 then .error .valueError else .ok ()

/-- `np.max` of a list of integers. -/
def npMaxInt (l : List ℤ) : Except PyErr ℤ :=
  match l.max? with
  | none => .error .valueError
  | some m => .ok m

/-- `StructCollection.get_max_num_nbrs_real`, struct_collection.py 427-446. -/
noncomputable def collectionMax (cpus : ℤ) (frames : List (Struct ℝ)) (rcut : ℝ) (sc : Fin 3 → ℤ) :
    Except PyErr ℤ := do
  mpPool cpus
  let ms ← frames.mapM (fun (s : Struct ℝ) => maxNumNbrsReal s rcut sc)
  npMaxInt ms

/-- One pass of the double loop, struct_collection.py 487-489. -/
def maxStep (r : List (ℕ × ℕ)) (p : ℕ × ℕ) : Except PyErr (List (ℕ × ℕ)) := do
  let old ← pyDictGet r p.1
  return if p.2 > old then dictSet r p.1 p.2 else r

/-- struct_collection.py 481-491: maxima of the dictionaries of the frames. -/
def mergeMax (ds : List (List (ℕ × ℕ))) : Except PyErr (List (ℕ × ℕ)) := do
  let first ← pyGet ds 0
  ds.flatten.foldlM maxStep (first.map (fun p => (p.1, 0)))

/-- `StructCollection.get_max_num_nbrs_real_element`, struct_collection.py 449-492. -/
noncomputable def collectionMaxElement (cpus : ℤ) (frames : List (Struct ℝ)) (rcut : ℝ) (els : List ℕ)
    (sc : Fin 3 → ℤ) : Except PyErr (List (ℕ × ℕ)) := do
  mpPool cpus
  let ds ← frames.mapM (fun (s : Struct ℝ) => maxNumNbrsRealElement s rcut els sc)
  mergeMax ds

end MaterSDK
