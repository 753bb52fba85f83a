import Verif.Model.ACExtractor

/-!
# Eigen-energies and band edges

Model of `/repo/matersdk/io/pwmat/output/report.py` and `outfermi.py`.

Simplifications.
* Energies are exact rationals; `inf` is `none`. `round` and `np.round` round the exact value, ties to
  even.
* `linecache.getline` returns a row of the cached text, which is the text of the first read of the
  path in the process; `_search_aim` and `readlines` read the file itself. The two texts are separate
  inputs. (`linecache` adds a missing final newline, which `split` ignores.)
* Rows of different lengths make `np.array` raise `ValueError` (numpy 1.24 and later).
* The assertion at the end of `get_eigen_energies` compares a tuple with an array. For shapes that do
  not broadcast numpy 1.25 and later raise `ValueError`; earlier versions answer `True`. The version is
  the input `np125`.
-/

namespace MaterSDK

/-- `round(q, k)`. -/
def roundDec (k : ℕ) (q : ℚ) : ℚ := (rhe (q * 10 ^ k) : ℚ) / 10 ^ k

/-- The inputs of a `Report`: the rows of the file, the rows `linecache` has for it, and the rows
`linecache` has for OUT.FERMI (`none`: there is no such file). -/
structure RunFiles where
  report : List Str
  cached : List Str
  fermi : Option (List Str)

/-- `Report._search_aim`, report.py 17-40: numbers (from 1) of the rows that contain the text. -/
def searchAim (rows : List Str) (aim : Str) : List ℕ :=
  (rows.zipIdx.filter (fun p => strIn aim p.1)).map (fun p => p.2 + 1)

/-- `int(line.split()[-1])` on the first row with the keyword: report.py 55-62, 76-82. -/
def reportCount (f : RunFiles) (key : Str) : Except PyErr Int := do
  let idx ← pyGet (searchAim f.report key) 0
  let word ← pyGetI (split (getline f.cached idx)) (-1)
  parseInt word

/-- `Report.get_num_bands`, report.py 43-62. -/
def numBands (f : RunFiles) : Except PyErr Int := reportCount f (chars% "NUM_BAND")

/-- `Report.get_num_kpts`, report.py 65-84. -/
def numKpts (f : RunFiles) : Except PyErr Int := reportCount f (chars% "NUM_KPT")

/-- `spin2eigen_energies`: k-point by band, for the two spins. -/
structure EigenTable where
  up : List (List ℚ)
  down : List (List ℚ)
  deriving DecidableEq

/-- `np.array(list of one-dimensional arrays)`. -/
def npRect (rows : List (List ℚ)) : Except PyErr (List (List ℚ)) :=
  match rows with
  | [] => .ok []
  | r :: rs => if rs.all (fun s => s.length = r.length) then .ok (r :: rs) else .error .valueError

/-- Second dimension of an array. -/
def npWidth (rows : List (List ℚ)) : ℕ := (rows.head?.map List.length).getD 0

/-- The eigen-energies below one header: report.py 117-118. -/
def eigenBlock (rows : List Str) (numLines : Int) (start : ℕ) : Except PyErr (List ℚ) :=
  ((sliceN rows start numLines).flatMap split).mapM parseFloat

/-- The assertion of report.py 136-137. `up.shape` has one entry when there is no block for spin up. -/
def spinAssert (np125 : Bool) (t : EigenTable) : Except PyErr Unit :=
  if t.down.flatten = [] then .ok ()
  else if t.up.isEmpty then
    match t.down.flatten with
    | [v] => if v = 0 then .error .assertionError else .ok ()
    | _ => .error .valueError
  else if npWidth t.down = 1 ∨ npWidth t.down = 2 then .error .valueError
  else if np125 then .error .valueError
  else .ok ()

/-- `Report.get_eigen_energies`, report.py 87-139. -/
def eigenEnergies (np125 : Bool) (f : RunFiles) : Except PyErr EigenTable := do
  let nk ← numKpts f
  let nb ← numBands f
  let numLines : Int := -(-nb / 5)
  let blocks ← (searchAim f.report (chars% "eigen energies, in eV")).mapM (eigenBlock f.report numLines)
  let up ← npRect (blocks.take nk.toNat)
  let down ← npRect (blocks.drop nk.toNat)
  spinAssert np125 ⟨up, down⟩
  return ⟨up, down⟩

/-- `OutFermi.get_efermi`, outfermi.py 12-20. -/
def getEfermi (rows : List Str) : Except PyErr ℚ := do
  let word ← pyGetI (split (getline rows 1)) (-2)
  let e ← parseFloat word
  return roundDec 3 e

/-- The loop over the bands of one spin, report.py 198-202. -/
def bandCrosses (tol : ℚ) (tab : List (List ℚ)) (ef : ℚ) : Bool :=
  (List.range (npWidth tab)).any (fun b =>
    let col := tab.filterMap (fun r => r[b]?)
    col.any (fun e => e - ef < -tol) && col.any (fun e => e - ef > tol))

/-- `Report._is_metal` (default tolerance), report.py 161-203. A missing OUT.FERMI file runs into
`raise("...")`, a `TypeError`. -/
def isMetal (np125 : Bool) (f : RunFiles) : Except PyErr Bool :=
  match f.fermi with
  | none => .error .typeError
  | some rows => do
    let ef ← getEfermi rows
    let t ← eigenEnergies np125 f
    return bandCrosses (1 / 10000) t.up ef || bandCrosses (1 / 10000) t.down ef

/-- The keys of `spin2eigen_energies`. -/
inductive Spin | up | down
  deriving DecidableEq

/-- The array of a spin. -/
def EigenTable.get (t : EigenTable) : Spin → List (List ℚ)
  | .up => t.up
  | .down => t.down

/-- A band edge: one position of the four lists of the result. `energy = none` is infinite. -/
structure Edge where
  energy : Option ℚ
  kpt : ℕ
  band : ℕ
  spin : Option Spin
  deriving DecidableEq

/-- All entries with their (zero-based) k-point and band, in the order of `np.where`. -/
def spinEntries (t : EigenTable) (s : Spin) : List (Spin × ℕ × ℕ × ℚ) :=
  (t.get s).zipIdx.flatMap (fun r => r.1.zipIdx.map (fun e => (s, r.2, e.2, e.1)))

/-- The entries of both spins. -/
def allEntries (t : EigenTable) : List (Spin × ℕ × ℕ × ℚ) := spinEntries t .up ++ spinEntries t .down

/-- One pass of the search for the CBM, report.py 247-254. -/
def cbmStep (ef : ℚ) (c : Edge) (x : Spin × ℕ × ℕ × ℚ) : Edge :=
  let (s, k, b, e) := x
  if e ≥ ef ∧ (∀ v ∈ c.energy, e < v) then ⟨some (roundDec 4 e), k + 1, b + 1, some s⟩ else c

/-- One pass of the search for the VBM, report.py 308-315. -/
def vbmStep (ef : ℚ) (c : Edge) (x : Spin × ℕ × ℕ × ℚ) : Edge :=
  let (s, k, b, e) := x
  if e ≤ ef ∧ (∀ v ∈ c.energy, e > v) then ⟨some (roundDec 4 e), k + 1, b + 1, some s⟩ else c

/-- The edges appended in step 5: report.py 263-272, 324-333. The row looked at is `kpt`, which counts
from 1; missing entries are skipped. `shift` is 1 for the CBM and 0 for the VBM. -/
def shareEdges (t : EigenTable) (c : Edge) (shift : ℕ) (s : Spin) : List Edge :=
  (List.range (npWidth t.up)).filterMap (fun b =>
    match (t.get s)[c.kpt]?, c.energy with
    | some row, some v =>
      match row[b]? with
      | some e => if |e - v| < 1 / 1000 then some ⟨c.energy, c.kpt, b + shift, some s⟩ else none
      | none => none
    | _, _ => none)

/-- The four lists of the result; without any block for spin up, `shape[1]` is an `IndexError`. -/
def edgeLists (t : EigenTable) (c : Edge) (shift : ℕ) : Except PyErr (List Edge) :=
  if t.up.isEmpty then .error .indexError
  else .ok (c :: (shareEdges t c shift .up ++ shareEdges t c shift .down))

/-- `Report.get_cbm`, report.py 206-273. -/
def getCbm (np125 : Bool) (f : RunFiles) : Except PyErr (Option (List Edge)) := do
  if ← isMetal np125 f then return none
  else
    let ef ← getEfermi (f.fermi.getD [])
    let t ← eigenEnergies np125 f
    let l ← edgeLists t ((allEntries t).foldl (cbmStep ef) ⟨none, 0, 0, none⟩) 1
    return some l

/-- `Report.get_vbm`, report.py 276-334. -/
def getVbm (np125 : Bool) (f : RunFiles) : Except PyErr (Option (List Edge)) := do
  if ← isMetal np125 f then return none
  else
    let ef ← getEfermi (f.fermi.getD [])
    let t ← eigenEnergies np125 f
    let l ← edgeLists t ((allEntries t).foldl (vbmStep ef) ⟨none, 0, 0, none⟩) 0
    return some l

/-- The two results of `get_vbm` and `get_cbm`; `None` cannot be subscripted. -/
def bandEdges (np125 : Bool) (f : RunFiles) : Except PyErr (List Edge × List Edge) := do
  let v ← getVbm np125 f
  let c ← getCbm np125 f
  match v, c with
  | some v, some c => .ok (v, c)
  | _, _ => .error .typeError

/-- `Report.get_bandgap`, report.py 337-361: `none` is infinite. -/
def getBandgap (np125 : Bool) (f : RunFiles) : Except PyErr (Option ℚ) := do
  let (vs, cs) ← bandEdges np125 f
  let v ← pyGet vs 0
  let c ← pyGet cs 0
  match v.energy, c.energy with
  | some x, some y => return some (y - x)
  | _, _ => return none

/-- `Report.get_bandgap_type`, report.py 364-391. -/
def getBandgapType (np125 : Bool) (f : RunFiles) : Except PyErr ℕ := do
  let (vs, cs) ← bandEdges np125 f
  if (vs.map Edge.kpt).any (fun k => k ∈ cs.map Edge.kpt) then return 1 else return 0

end MaterSDK
