import Verif.Model.Locator

/-!
# Extractors for atom.config text

Model of `/repo/matersdk/io/pwmat/utils/acextractor.py`. Numbers are exact rationals.
-/

namespace MaterSDK

/-- `np.array(rows).reshape(-1)`: rows of different lengths make numpy (1.24 and later) raise
`ValueError`. -/
def npFlat (rows : List (List ℚ)) : Except PyErr (List ℚ) :=
  match rows with
  | [] => .ok []
  | r :: rs => if rs.all (fun x => x.length = r.length) then .ok (r :: rs).flatten
               else .error .valueError

/-- `[float(v) for v in row.split()[1:4]]`, acextractor.py 191-192, 315-316, 387-388. -/
def rowCoord (row : Str) : Except PyErr (List ℚ) := (pySlice (split row) 1 4).mapM parseFloat

/-- `int(row.split()[0])`, acextractor.py 160, 296. -/
def rowType (row : Str) : Except PyErr Int := do
  parseInt (← pyGet (split row) 0)

/-- `float(row.split()[-1])`, acextractor.py 220, 334. -/
def rowLast (row : Str) : Except PyErr ℚ := do
  parseFloat (← pyGetI (split row) (-1))

/-! ## ACExtractor (reads a file) -/

/-- `linecache.getline(path, k)`: row `k` counted from 1, the empty string when there is none.
`rows` are the rows held by the line cache for this path. -/
def getline (rows : List Str) (k : Nat) : Str := if k = 0 then [] else (rows[k - 1]?).getD []

/-- `ACExtractor.get_num_atoms`, acextractor.py 91-100. `cached` are the rows seen by linecache. -/
def acNumAtoms (cached : List Str) : Except PyErr Int := do
  parseInt (← pyGet (split (getline cached 1)) 0)

/-- `ACExtractor.get_basis_vectors`, acextractor.py 103-131. The LATTICE row is searched in the file
as it is now (`rows`, lines 120-122), the three rows are read through linecache (line 126). -/
def acBasis (cached rows : List Str) : Except PyErr (List ℚ) := do
  let idx ← pyGet (lineLocate rows (chars% "LATTICE")) 0
  let ls ← [idx + 1, idx + 2, idx + 3].mapM
    (fun k => ((split (getline cached k)).take 3).mapM parseFloat)
  return ls.flatten

/-- Python `rows[idx : idx + n]` where `n` is a Python int that may be negative. With `n < 0` the
upper bound may become negative and then counts from the end. -/
def sliceN (rows : List Str) (idx : Nat) (n : Int) : List Str :=
  let hi : Int := (idx : Int) + n
  let hi' : Int := if hi < 0 then hi + rows.length else hi
  pySlice rows idx hi'.toNat

/-- `ACExtractor.get_types`, acextractor.py 134-162. -/
def acTypes (numAtoms : Int) (rows : List Str) : Except PyErr (List Int) := do
  let idx ← pyGet (lineLocate rows (chars% "POSITION")) 0
  (sliceN rows idx numAtoms).mapM rowType

/-- `ACExtractor.get_coords`, acextractor.py 165-195. -/
def acCoords (numAtoms : Int) (rows : List Str) : Except PyErr (List ℚ) := do
  let idx ← pyGet (lineLocate rows (chars% "POSITION")) 0
  let cs ← (sliceN rows idx numAtoms).mapM rowCoord
  npFlat cs

/-- `ACExtractor.get_magmoms`, acextractor.py 198-225: any exception gives zeros. -/
def acMagmoms (numAtoms : Int) (rows : List Str) : List ℚ :=
  let r : Except PyErr (List ℚ) := do
    let idx ← pyGetI (lineLocate rows (chars% "MAGNETIC")) (-1)
    (sliceN rows idx numAtoms).mapM rowLast
  match r with
  | .ok l => l
  | .error _ => List.replicate numAtoms.toNat 0

/-- The attributes set by `ACExtractor.__init__`, acextractor.py 75-88. -/
structure ACInfo where
  numAtoms : Int
  basis : List ℚ
  types : List Int
  coords : List ℚ
  deriving DecidableEq

/-- `ACExtractor(file_path)`, acextractor.py 75-88: `cached` are the rows linecache holds for the
path, `rows` the rows in the file now. -/
def acExtractor (cached rows : List Str) : Except PyErr ACInfo := do
  let n ← acNumAtoms cached
  let b ← acBasis cached rows
  let t ← acTypes n rows
  let c ← acCoords n rows
  return ⟨n, b, t, c⟩

/-! ## ACstrExtractor (reads a string) -/

/-- `re.search(r"(\d+) atoms", text, re.IGNORECASE)` then `int(group(1))`, acextractor.py 246-249.
No match: `match_object` is `None` and `.group` raises `AttributeError`. -/
def searchAtoms : Str → Except PyErr Nat
  | [] => .error .attributeError
  | c :: cs =>
    let (ds, r) := (c :: cs).span Char.isDigit
    if ds ≠ [] ∧ (chars% " ATOMS").isPrefixOf (upper r) then .ok (natOfDigits ds)
    else searchAtoms cs

/-- An `ACstrExtractor` object: acextractor.py 235-239. -/
structure ACStr where
  strs : List Str
  numAtoms : Nat
  deriving DecidableEq

/-- `ACstrExtractor(atom_config_str)`, acextractor.py 235-249. -/
def acStr (text : Str) : Except PyErr ACStr := do
  let n ← searchAtoms text
  return ⟨splitCh '\n' text, n⟩

namespace ACStr

/-- The rows `self.strs_lst[aim_idx+1 : aim_idx+self.num_atoms+1]` used by all per-atom blocks. -/
def block (a : ACStr) (idx : Nat) : List Str := pySlice a.strs (idx + 1) (idx + a.numAtoms + 1)

/-- `get_basis_vectors`, acextractor.py 252-277. -/
def getBasis (a : ACStr) : Except PyErr (List ℚ) := do
  let idx ← pyGet (listLocate a.strs (chars% "LATTICE")) 0
  let ls ← [idx + 1, idx + 2, idx + 3].mapM
    (fun k => do ((split (← pyGet a.strs k)).take 3).mapM parseFloat)
  return ls.flatten

/-- `get_types`, acextractor.py 280-298. -/
def getTypes (a : ACStr) : Except PyErr (List Int) := do
  let idx ← pyGet (listLocate a.strs (chars% "POSITION")) 0
  (a.block idx).mapM rowType

/-- `get_coords`, acextractor.py 301-319. -/
def getCoords (a : ACStr) : Except PyErr (List ℚ) := do
  let idx ← pyGet (listLocate a.strs (chars% "POSITION")) 0
  let cs ← (a.block idx).mapM rowCoord
  npFlat cs

/-- Python `list + int`: always a `TypeError`. -/
def listPlusInt (_l : List Nat) (_k : Nat) : Except PyErr Nat := .error .typeError

/-- Body of the `try` of `get_magmoms`, acextractor.py 329-336. Line 331 does not take `[0]`, so
`aim_idx` is a list and `aim_idx+1` in line 333 raises `TypeError`. -/
def magmomsBody (a : ACStr) : Except PyErr (List ℚ) := do
  let aim := listLocate a.strs (chars% "MAGNETIC")
  let lo ← listPlusInt aim 1
  let hi ← listPlusInt aim (a.numAtoms + 1)
  (pySlice a.strs lo hi).mapM rowLast

/-- `get_magmoms`, acextractor.py 322-338: every exception becomes `AttributeError`. -/
def getMagmoms (a : ACStr) : Except PyErr (List ℚ) :=
  match a.magmomsBody with
  | .ok l => .ok l
  | .error _ => .error .attributeError

/-- `get_etot`, acextractor.py 341-348 (the one-element array is modelled by its element). -/
def getEtot (a : ACStr) : Except PyErr ℚ := do
  let parts := splitCh ',' (← pyGet a.strs 0)
  let idx ← pyGet (listLocate parts (chars% "EK (EV) =")) 0
  let part ← pyGet parts idx
  let tok ← pyGet (split part) 3
  parseFloat (strip tok)

/-- Body of the `try` of `get_eatoms`, acextractor.py 357-368. -/
def eatomsBody (a : ACStr) : Except PyErr (List ℚ) := do
  let idx ← pyGet (listLocate a.strs (chars% "ATOMIC-ENERGY, ")) 0
  (a.block idx).mapM (fun row => do parseFloat (← pyGet (split row) 1))

/-- `get_eatoms`, acextractor.py 351-371. -/
def getEatoms (a : ACStr) : Except PyErr (List ℚ) :=
  match a.eatomsBody with
  | .ok l => .ok l
  | .error _ => .error .attributeError

/-- Body of the `try` of `get_fatoms`, acextractor.py 380-390. -/
def fatomsBody (a : ACStr) : Except PyErr (List ℚ) := do
  let idx ← pyGet (listLocate a.strs (chars% "FORCE")) 0
  let cs ← (a.block idx).mapM rowCoord
  npFlat cs

/-- `get_fatoms`, acextractor.py 374-392: any exception gives `3 * num_atoms` zeros. -/
def getFatoms (a : ACStr) : List ℚ :=
  match a.fatomsBody with
  | .ok l => l
  | .error _ => List.replicate (a.numAtoms * 3) 0

/-- First loop of `get_virial`, acextractor.py 411-416: every lattice row must have a token that
contains STRESS. -/
def checkStress (a : ACStr) (k : Nat) : Except PyErr Unit := do
  let toks := split (← pyGet a.strs k)
  if (listLocate toks (chars% "STRESS")).length = 0 then .error .attributeError else .ok ()

/-- One row of the second loop of `get_virial`, acextractor.py 419-425. -/
def virialRow (a : ACStr) (k : Nat) : Except PyErr (List ℚ) := do
  let toks := pyLastN (split (← pyGet a.strs k)) 3
  let x ← parseFloat (← pyGet toks 0)
  let y ← parseFloat (← pyGet toks 1)
  let z ← parseFloat (← pyGet toks 2)
  return [x, y, z]

/-- `get_virial`, acextractor.py 395-427. -/
def getVirial (a : ACStr) : Except PyErr (List ℚ) := do
  let idx ← pyGet (listLocate a.strs (chars% "LATTICE")) 0
  let _ ← [idx + 1, idx + 2, idx + 3].mapM a.checkStress
  let ls ← [idx + 1, idx + 2, idx + 3].mapM a.virialRow
  return ls.flatten

end ACStr

end MaterSDK
