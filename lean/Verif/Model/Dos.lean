import Verif.Py.Str
import Verif.Py.Basic
import Verif.Model.Locator

/-!
# Densities of states, fat bands and job scripts

Model of
* `/repo/matersdk/io/pwmat/output/dostotalspin.py` 5-149,
* `/repo/matersdk/io/pwmat/output/fatabandstructureTxt.py` 8-196,
* `/repo/matersdk/hpc/slurm/job.py` 6-69.

Simplifications.
* Numbers are rational; a field that is not a number is a `ValueError` here (pandas would keep text).
* Every row must have as many fields as the header (else `ValueError` here; pandas pads or shifts).
* `pd.read_csv` renames a repeated column name by appending `.1`, `.2`, ...; new names are assumed not to
  collide with other names of the header.
* `list(set(...))` has an unspecified order, an argument with the contract of `SetOrder`.
* The regular expression `^El` is a prefix test, which it is for element symbols (letters only).
* The regular expression `name|KPOINT|ENERGY|weight_tot` without regard to case is a test for substrings of
  the lower-case text, which it is for orbital names of ASCII letters, digits and dashes.
* The backup file written by `_preprocess` is the list of its rows.
-/

namespace MaterSDK

/-- A table: column names and rows of numbers. -/
structure Frame where
  cols : List Str
  rows : List (List ℚ)
  deriving DecidableEq

/-- Renaming of repeated column names; `seen` are the names already used. -/
def mangleFrom (seen : List Str) : List Str → List Str
  | [] => []
  | n :: ns =>
    (if seen.count n = 0 then n else n ++ '.' :: showNat (seen.count n)) :: mangleFrom (n :: seen) ns

/-- `pd.read_csv(..., delimiter='\s+')` on the rows of a file: blank rows are skipped, the first row is the
header. -/
def readCsv (rows : List Str) : Except PyErr Frame :=
  match (rows.map split).filter (fun ws => ws ≠ []) with
  | [] => .error .valueError
  | hdr :: data => do
    let vals ← data.mapM (fun (ws : List Str) =>
      if ws.length = hdr.length then ws.mapM parseFloat else .error .valueError)
    return ⟨mangleFrom [] hdr, vals⟩

/-- The values of the columns whose name satisfies `p`, summed (`df.loc[:, mask].sum(axis=1)`), in one row. -/
def maskSum (cols : List Str) (p : Str → Bool) (row : List ℚ) : ℚ :=
  (((cols.zip row).filter (fun cv => p cv.1)).map Prod.snd).sum

/-- `df.loc[:, name]`: the index of the column, `KeyError` when there is none. -/
def colIdx (cols : List Str) (name : Str) : Except PyErr ℕ :=
  if name ∈ cols then .ok (cols.idxOf name) else .error .keyError

/-- What is known about `list(set(l))`. -/
structure SetOrder where
  toList : List Str → List Str
  nodup : ∀ l, (toList l).Nodup
  mem : ∀ l x, x ∈ toList l ↔ x ∈ l

/-- `name.split('-')[0]`. -/
def colElement (name : Str) : Str := (splitCh '-' name).headD []

/-! ## DOS.totalspin -/

/-- The first row of the backup file as words, dostotalspin.py 33-39: the first word `#` is removed. -/
def dosHeader (first : Str) : List Str := (split first).erase ['#']

/-- The backup file, dostotalspin.py 22-53. An empty file is an `IndexError`. -/
def dosBackup (rows : List Str) : Except PyErr (List Str) :=
  match rows with
  | [] => .error .indexError
  | first :: rest =>
    .ok ((List.intercalate (chars% "\t   ") (dosHeader first) ++ ['\n']) :: rest)

/-- `Dostotalspin(path)` followed by `pd.read_csv` of the backup file. -/
def dosFrame (rows : List Str) : Except PyErr Frame := do
  let bak ← dosBackup rows
  readCsv bak

/-- `get_tdos`, dostotalspin.py 56-76. -/
def getTdos (f : Frame) : Except PyErr Frame := do
  if chars% "Energy" ∈ f.cols ∧ chars% "Total" ∈ f.cols then
    return ⟨[chars% "Energy", chars% "Total"], f.rows.map (fun r =>
      [r.getD (f.cols.idxOf (chars% "Energy")) 0, r.getD (f.cols.idxOf (chars% "Total")) 0])⟩
  else
    let e ← colIdx f.cols (chars% "Energy")
    let t ← colIdx f.cols (chars% "total")
    return ⟨[chars% "Energy", chars% "total"], f.rows.map (fun r => [r.getD e 0, r.getD t 0])⟩

/-- `get_pdos_elements`, dostotalspin.py 79-127. -/
def getPdosElements (O : SetOrder) (f : Frame) : Except PyErr Frame := do
  let elements := O.toList ((f.cols.drop 2).map colElement)
  let e ← colIdx f.cols (chars% "Energy")
  return ⟨chars% "Energy" :: elements, f.rows.map (fun r =>
    r.getD e 0 :: elements.map (fun (el : Str) => maskSum f.cols (fun c => el.isPrefixOf c) r))⟩

/-- `get_pdos_orbitals`, dostotalspin.py 130-149; column names are different, so one column is dropped. -/
def getPdosOrbitals (f : Frame) : Except PyErr Frame := do
  let i ← (if chars% "Total" ∈ f.cols then colIdx f.cols (chars% "Total")
    else colIdx f.cols (chars% "total"))
  return ⟨f.cols.eraseIdx i, f.rows.map (fun r => r.eraseIdx i)⟩

/-! ## Fat bands -/

/-- `_get_num_bands` and `_get_num_kpoints`, fatabandstructureTxt.py 33-57. -/
def fatCounts (rows : List Str) : Except PyErr (ℕ × ℤ) := do
  let idxs := lineLocate rows (chars% "BAND")
  let a ← pyGet idxs 1
  let b ← pyGet idxs 0
  return (idxs.length, (a : ℤ) - b - 2)

/-- `_preprocess`, fatabandstructureTxt.py 94-121. -/
def fatFrame (rows : List Str) : Except PyErr Frame := do
  let f ← readCsv (rows.filter (fun r => !strIn (chars% "BAND") r))
  let k ← colIdx f.cols (chars% "KPOINT")
  return ⟨f.cols, f.rows.map (fun r => r.set k (r.getD k 0 / (529177249 / 1000000000)))⟩

/-- `list.remove`: `ValueError` when absent. -/
def pyRemove (l : List Str) (x : Str) : Except PyErr (List Str) :=
  if x ∈ l then .ok (l.erase x) else .error .valueError

/-- `_get_elements_lst`, fatabandstructureTxt.py 77-91. -/
def fatElements (O : SetOrder) (f : Frame) : Except PyErr (List Str) := do
  let c ← pyRemove f.cols (chars% "KPOINT")
  let c ← pyRemove c (chars% "ENERGY")
  let c ← pyRemove c (chars% "weight_tot")
  return O.toList (c.map colElement)

/-- Cut a list into pieces of given sizes. -/
def cutSizes {α : Type} : List ℕ → List α → List (List α)
  | [], _ => []
  | n :: ns, l => l.take n :: cutSizes ns (l.drop n)

/-- `np.array_split(l, k)`: the first `len(l) % k` pieces have one entry more. -/
def arraySplit {α : Type} (l : List α) (k : ℕ) : Except PyErr (List (List α)) :=
  if k = 0 then .error .valueError
  else .ok (cutSizes (List.replicate (l.length % k) (l.length / k + 1)
    ++ List.replicate (k - l.length % k) (l.length / k)) l)

/-- `FatbandStructure(path)`, fatabandstructureTxt.py 23-30: the number of bands, the table and the
elements. -/
def fatInit (O : SetOrder) (rows : List Str) : Except PyErr (ℕ × Frame × List Str) := do
  let n ← fatCounts rows
  let f ← fatFrame rows
  let els ← fatElements O f
  return (n.1, f, els)

/-- `get_total_dfs_lst`, fatabandstructureTxt.py 124-140. -/
def fatTotal (O : SetOrder) (rows : List Str) : Except PyErr (List Frame) := do
  let (n, f, _) ← fatInit O rows
  let parts ← arraySplit f.rows n
  return parts.map (fun p => ⟨f.cols, p⟩)

/-- The table of element weights, fatabandstructureTxt.py 156-173. -/
def fatElementFrame (f : Frame) (els : List Str) : Except PyErr Frame := do
  let k ← colIdx f.cols (chars% "KPOINT")
  let e ← colIdx f.cols (chars% "ENERGY")
  let w ← colIdx f.cols (chars% "weight_tot")
  return ⟨[chars% "KPOINT", chars% "ENERGY", chars% "weight_tot"] ++ els,
    f.rows.map (fun r => [r.getD k 0, r.getD e 0, r.getD w 0]
      ++ els.map (fun (el : Str) => maskSum f.cols (fun c => el.isPrefixOf c) r))⟩

/-- `get_element_dfs_lst`, fatabandstructureTxt.py 143-178. -/
def fatElementDfs (O : SetOrder) (rows : List Str) : Except PyErr (List Frame) := do
  let (n, f, els) ← fatInit O rows
  let g ← fatElementFrame f els
  let parts ← arraySplit g.rows n
  return parts.map (fun p => ⟨g.cols, p⟩)

/-- `str.lower` for ASCII letters. -/
def lower (s : Str) : Str := s.map Char.toLower

/-- `re.search("{orbital}|KPOINT|ENERGY|weight_tot", name, re.IGNORECASE)`, fatabandstructureTxt.py 191. -/
def orbitalMask (orbital name : Str) : Bool :=
  strIn (lower orbital) (lower name) || strIn (lower (chars% "KPOINT")) (lower name)
    || strIn (lower (chars% "ENERGY")) (lower name) || strIn (lower (chars% "weight_tot")) (lower name)

/-- `get_orbital_dfs_lst`, fatabandstructureTxt.py 180-196. -/
def fatOrbitalDfs (O : SetOrder) (rows : List Str) (orbital : Str) : Except PyErr (List Frame) := do
  let (n, f, _) ← fatInit O rows
  let parts ← arraySplit (f.rows.map (fun r =>
    ((f.cols.zip r).filter (fun cv => orbitalMask orbital cv.1)).map Prod.snd)) n
  return parts.map (fun p => ⟨f.cols.filter (orbitalMask orbital), p⟩)

/-! ## Job scripts -/

/-- `str(z)` of an integer. -/
def showInt (z : ℤ) : Str := if z < 0 then '-' :: showNat z.natAbs else showNat z.natAbs

/-- `"{0}".format(x)` for an optional value. -/
def showOpt {α : Type} (f : α → Str) : Option α → Str
  | none => chars% "None"
  | some a => f a

/-- The attributes of a `Job`, job.py 6-53; `attach_command` returns `None` unless a subclass overrides
it. -/
structure Job where
  partition : Option Str
  name : Option Str
  numNodes : Option ℤ
  numTasks : Option ℤ
  threads : Option ℤ
  numGpus : Option ℤ
  gpusPerTask : Option ℤ
  command : Option Str

/-- The text written by `Job.to`, job.py 58-69. -/
def jobText (j : Job) : Str :=
  chars% "#!/bin/bash\n"
  ++ (chars% "#SBATCH --partition=" ++ showOpt id j.partition ++ ['\n'])
  ++ (chars% "#SBATCH --job-name=" ++ showOpt id j.name ++ ['\n'])
  ++ (chars% "#SBATCH --nodes=" ++ showOpt showInt j.numNodes ++ ['\n'])
  ++ (chars% "#SBATCH --ntasks-per-node=" ++ showOpt showInt j.numTasks ++ ['\n'])
  ++ (chars% "#SBATCH --threads-per-core=" ++ showOpt showInt j.threads)
  ++ (chars% "#SBATCH --gres=gpu:" ++ showOpt showInt j.numGpus)
  ++ (chars% "#SBATCH --gpus-per-task=" ++ showOpt showInt j.gpusPerTask)
  ++ chars% "\n\n\n"
  ++ showOpt id j.command

end MaterSDK
