import Verif.Model.ACExtractor
import Verif.Model.Elements

/-!
# Reading and writing structures as text

Model of the `pwmat` branches of `DStructure.from_file`, `DStructure.from_str` and `DStructure.to`,
`/repo/matersdk/io/publicLayer/structure.py` 27-180, and of the process-wide line cache.

Simplifications: coordinates are exact rationals (every binary64 number is one, and Python formats
the exact value); a pymatgen `Structure` is its lattice rows, its sites (species text and fractional
coordinates) and the optional site property `magmom`; pymatgen's own element table is taken to be
the table of parameters.py restricted to 1..118.
-/

namespace MaterSDK

/-- A triple of rationals. -/
structure Q3 where
  x : ℚ
  y : ℚ
  z : ℚ
  deriving DecidableEq

/-- A site: `str(site.specie)` and the fractional coordinates. -/
structure QSite where
  specie : Str
  frac : Q3
  deriving DecidableEq

/-- A structure as far as text input and output see it. -/
structure QStruct where
  a : Q3
  b : Q3
  c : Q3
  sites : List QSite
  /-- `site_properties["magmom"]`, absent when the property was never set. -/
  magmom : Option (List ℚ)
  deriving DecidableEq

/-- `"   {0:<14E}    {1:<14E}    {2:<14E}\n"`, structure.py 132-151. -/
def latticeRow (v : Q3) : Str :=
  (chars% "   ") ++ ljust 14 (fmtSci 6 v.x) ++ (chars% "    ") ++ ljust 14 (fmtSci 6 v.y) ++
    (chars% "    ") ++ ljust 14 (fmtSci 6 v.z) ++ (chars% "\n")

/-- The text of one site, structure.py 158-165, given the atomic number. -/
def siteText (z : Nat) (v : Q3) : Str :=
  (chars% "  ") ++ ljust 2 (showNat z) ++ (chars% "         ") ++ ljust 10 (fmtFixed 6 v.x) ++
    (chars% "         ") ++ ljust 10 (fmtFixed 6 v.y) ++ (chars% "         ") ++
    ljust 10 (fmtFixed 6 v.z) ++ (chars% "     1  1  1\n")

/-- One pass of the loop structure.py 157-165: the species look-up may raise `KeyError`. -/
def siteRow (s : QSite) : Except PyErr Str := do
  let z ← numberOf s.specie
  return siteText z s.frac

/-- The text of one magnetic row, structure.py 171-175. -/
def magText (z : Nat) (m : ℚ) : Str :=
  (chars% "  ") ++ ljust 3 (showNat z) ++ (chars% " ") ++ fmtFixed 2 m ++ (chars% "\n")

/-- One pass of the loop structure.py 170-175. -/
def magRow (magmom : Option (List ℚ)) (i : Nat) (s : QSite) : Except PyErr Str := do
  let z ← numberOf s.specie
  match magmom with
  | none => .error .keyError
  | some ms => do
    let m ← pyGet ms i
    return magText z m

/-- The rows written before the sites, structure.py 128-154. -/
def headerRows (s : QStruct) : List Str :=
  [(chars% "  ") ++ showNat s.sites.length ++ (chars% " atoms\n"),
   chars% "Lattice vector (Angstrom)\n",
   latticeRow s.a, latticeRow s.b, latticeRow s.c,
   chars% "Position (normalized), move_x, move_y, move_z\n"]

/-- All `f.write` calls of `to(file_format="pwmat")`, structure.py 126-175, in order; an argument
that raises is an error. -/
def pwmatWrites (s : QStruct) (mag : Bool) : List (Except PyErr Str) :=
  (headerRows s).map .ok ++ s.sites.map siteRow ++
    (if mag then .ok (chars% "Magnetic\n") :: s.sites.zipIdx.map (fun p => magRow s.magmom p.2 p.1)
     else [])

/-- Execute writes until one raises: the text in the file and the exception, if any. -/
def runWrites : List (Except PyErr Str) → Str × Option PyErr
  | [] => ([], none)
  | .ok r :: rs => let (t, e) := runWrites rs; (r ++ t, e)
  | .error e :: _ => ([], some e)

/-- `DStructure.to(path, "pwmat", include_magnetic_moments)`: the content of the file afterwards and
the exception. The file is truncated when opened (line 126), so earlier content is lost even if the
call raises. -/
def toPwmat (s : QStruct) (mag : Bool) : Str × Option PyErr := runWrites (pwmatWrites s mag)

/-- pymatgen: an integer species is an element number 1..118, anything else raises. -/
def elementOf (t : Int) : Except PyErr Str :=
  if 1 ≤ t ∧ t ≤ 118 then specieOf t else .error .valueError

/-- `coords.reshape(-1, 3)`. -/
def reshape3 : List ℚ → Except PyErr (List Q3)
  | [] => .ok []
  | x :: y :: z :: rest => do return ⟨x, y, z⟩ :: (← reshape3 rest)
  | _ => .error .valueError

/-- `Structure(lattice, species, coords, coords_are_cartesian=False)` from the parsed arrays,
structure.py 54-58. Unequal lengths raise in pymatgen. -/
def buildStruct (info : ACInfo) : Except PyErr QStruct := do
  match info.basis with
  | [a, b, c, d, e, f, g, h, i] =>
    let coords ← reshape3 info.coords
    let species ← info.types.mapM elementOf
    if species.length = coords.length then
      return ⟨⟨a, b, c⟩, ⟨d, e, f⟩, ⟨g, h, i⟩, species.zipWith QSite.mk coords, none⟩
    else .error .valueError
  | _ => .error .valueError

/-- `DStructure.from_file(path, "pwmat")`, structure.py 52-61. -/
def fromFile (cached rows : List Str) : Except PyErr QStruct := do
  let info ← acExtractor cached rows
  buildStruct info

/-- Attributes of an `ACstrExtractor` object: set by `__init__` (acextractor.py 236-239; lines
240-243, which would set the `*_array` attributes, are commented out). -/
def acStrAttributes : List Str :=
  [chars% "atom_config_str", chars% "strs_lst", chars% "num_atoms"]

/-- Attribute access on an `ACstrExtractor` object. -/
def acStrGetAttr (name : Str) : Except PyErr Unit :=
  if name ∈ acStrAttributes then .ok () else .error .attributeError

/-- `DStructure.from_str(str_content, str_format)`, structure.py 66-100. The three attributes read
in lines 91-93 are looked up on the extractor. -/
def fromStr (text : Str) (isPwmat : Bool) : Except PyErr QStruct := do
  if isPwmat then
    let a ← acStr text
    acStrGetAttr (chars% "basis_vectors_array")
    acStrGetAttr (chars% "species_array")
    acStrGetAttr (chars% "coords_array")
    -- what the constructor call would build if the attributes existed
    let basis ← a.getBasis
    let types ← a.getTypes
    let coords ← a.getCoords
    buildStruct ⟨a.numAtoms, basis, types, coords⟩
  else .error .valueError

/-! ## Files and the line cache -/

/-- Files on disk and the module-level dictionary `linecache.cache`. -/
structure World where
  files : Str → Option Str
  cache : Str → Option (List Str)

/-- `linecache.getlines(path)`: use the cache entry if there is one, else read the file and fill the
cache. (`linecache` appends a newline to a last row without one; `split` ignores it.) A file that
cannot be read gives no rows and is not cached. -/
def World.getlines (w : World) (path : Str) : List Str × World :=
  match w.cache path with
  | some ls => (ls, w)
  | none =>
    match w.files path with
    | none => ([], w)
    | some t =>
      (fileLines t, { w with cache := fun p => if p = path then some (fileLines t) else w.cache p })

/-- `DStructure.from_file(path, "pwmat")` on a world. The first access (acextractor.py 98) goes
through linecache; a missing file then yields `''` and an `IndexError`. -/
def World.read (w : World) (path : Str) : Except PyErr QStruct × World :=
  let (cached, w') := w.getlines path
  match w.files path with
  | none => (do let _ ← acNumAtoms cached; .error .osError, w')
  | some t => (fromFile cached (fileLines t), w')

/-- `DStructure.to(path, "pwmat")` on a world. -/
def World.write (w : World) (path : Str) (s : QStruct) (mag : Bool) : Option PyErr × World :=
  let (t, e) := toPwmat s mag
  (e, { w with files := fun p => if p = path then some t else w.files p })

end MaterSDK
