import Verif.Model.DeepMD
import Verif.Py.Str

/-!
# Saving and loading a normaliser

Model of `TildeRNormalizer.to` and `TildeRNormalizer.from_file`,
`/repo/matersdk/feature/deepmd/preprocess.py` 172-213.

Simplifications.
* The files are a function from paths to contents. An hdf5 file is the list of its data sets;
  `create_dataset` refuses a name that exists (`ValueError`).
* A data set keeps the numbers it is given: a list of Python integers comes back as an integer array with the
  same entries, a float as the same double. Integers fit into 64 bits.
* A data set of another kind than the one `to` writes under its name is refused (`TypeError`); h5py hands out
  anything.
-/

namespace MaterSDK

/-- What a data set of a normaliser file holds. -/
inductive NormData where
  | real (x : ℝ)
  | numbers (l : List ℕ)
  | ints (l : List ℤ)
  | table (rows : List (Fin 4 → ℝ))

/-- The data sets of a file, in the order of creation. -/
abbrev NormFile := List (Str × NormData)

/-- `h5_file.create_dataset(name, data=v)`. -/
def NormFile.create (f : NormFile) (name : Str) (v : NormData) : Except PyErr NormFile :=
  if name ∈ f.map Prod.fst then .error .valueError else .ok (f ++ [(name, v)])

/-- A normaliser with the scaling factors it was given (preprocess.py 26-78). -/
structure SavedNormalizer where
  norm : Normalizer
  scaling : List ℤ

/-- The writes of `to`, preprocess.py 173-182, into a file that starts empty (mode `'w'`). -/
def SavedNormalizer.dataSets (N : SavedNormalizer) : Except PyErr NormFile := do
  let f ← NormFile.create [] (chars% "rcut") (.real N.norm.rcut)
  let f ← NormFile.create f (chars% "rcut_smooth") (.real N.norm.rs)
  let f ← NormFile.create f (chars% "center_atomic_numbers") (.numbers N.norm.centres)
  let f ← NormFile.create f (chars% "nbr_atomic_numbers") (.numbers N.norm.nbrs)
  let f ← NormFile.create f (chars% "max_num_nbrs") (.ints N.norm.widths)
  let f ← NormFile.create f (chars% "scaling_matrix") (.ints N.scaling)
  let f ← NormFile.create f (chars% "davgs") (.table N.norm.davgs)
  NormFile.create f (chars% "dstds") (.table N.norm.dstds)

/-- The hdf5 files on disk. -/
abbrev NormDisk := Str → Option NormFile

/-- `TildeRNormalizer.to`, preprocess.py 172-184. -/
def SavedNormalizer.to (N : SavedNormalizer) (disk : NormDisk) (path : Str) : Except PyErr NormDisk := do
  let f ← N.dataSets
  return fun p => if p = path then some f else disk p

/-- `hdf5_file[name][()]`, a number. -/
def NormFile.getReal (f : NormFile) (name : Str) : Except PyErr ℝ := do
  match ← pyDictGet f name with
  | .real x => return x
  | _ => .error .typeError

/-- `hdf5_file[name][()]`, a list of atomic numbers. -/
def NormFile.getNumbers (f : NormFile) (name : Str) : Except PyErr (List ℕ) := do
  match ← pyDictGet f name with
  | .numbers l => return l
  | _ => .error .typeError

/-- `hdf5_file[name][()]`, a list of integers. -/
def NormFile.getInts (f : NormFile) (name : Str) : Except PyErr (List ℤ) := do
  match ← pyDictGet f name with
  | .ints l => return l
  | _ => .error .typeError

/-- `hdf5_file[name][()]`, a table with four columns. -/
def NormFile.getTable (f : NormFile) (name : Str) : Except PyErr (List (Fin 4 → ℝ)) := do
  match ← pyDictGet f name with
  | .table r => return r
  | _ => .error .typeError

/-- `TildeRNormalizer.from_file`, preprocess.py 187-213. -/
def normalizerFromFile (disk : NormDisk) (path : Str) : Except PyErr SavedNormalizer :=
  match disk path with
  | none => .error .osError
  | some f => do
    let rcut ← f.getReal (chars% "rcut")
    let rs ← f.getReal (chars% "rcut_smooth")
    let centres ← f.getNumbers (chars% "center_atomic_numbers")
    let nbrs ← f.getNumbers (chars% "nbr_atomic_numbers")
    let widths ← f.getInts (chars% "max_num_nbrs")
    let scaling ← f.getInts (chars% "scaling_matrix")
    let davgs ← f.getTable (chars% "davgs")
    let dstds ← f.getTable (chars% "dstds")
    let n ← mkNormalizer rcut rs centres nbrs widths davgs dstds
    return ⟨n, scaling⟩

end MaterSDK
