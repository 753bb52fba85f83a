import Verif.Py.Basic
import Mathlib.Data.List.Sort
import Mathlib.Data.Matrix.Mul
import Mathlib.LinearAlgebra.Matrix.NonsingularInverse
import Mathlib.Algebra.Order.Floor.Defs
import Mathlib.Algebra.Field.Rat
import Mathlib.Data.Rat.Floor

/-!
# `DStructure`: sorting, supercells, key indices, vacancies, counts, site lookup

Model of `/repo/matersdk/io/publicLayer/structure.py` 183-636.

Simplifications.
* A pymatgen `Structure` is a lattice (rows are the lattice vectors) and a list of sites. Only the
  Cartesian positions are stored: fractional coordinates are recomputed from them by pymatgen.
* A site carries the atomic number of its species. All species are the ones of the SDK's element
  table (entry 0 is the vacancy `X0+`), on which symbols and numbers are in bijection (C05), so
  comparing symbols is comparing numbers and `specie2atomic_number[str(specie)]` is the number. A
  species outside the table makes every sort by element raise `KeyError` before anything is
  returned; that branch is not part of this file.
* Scalars are an arbitrary field `K` (rationals in examples, reals in the geometry files).
-/

namespace MaterSDK

/-- A Cartesian vector or a row of a lattice. -/
abbrev Vec (K : Type) := Fin 3 → K

/-- A site: atomic number, Cartesian position, optional `magmom` site property. -/
structure Site (K : Type) where
  z : Nat
  pos : Vec K
  mag : Option K := none
  deriving DecidableEq

/-- `DStructure`. -/
structure Struct (K : Type) where
  lattice : Matrix (Fin 3) (Fin 3) K
  sites : List (Site K)

variable {K : Type} [Field K]

/-- Stable sort by an integer key, Python's `list.sort(key=...)` / `sorted(..., key=...)`. -/
def sortByKey {α : Type} (key : α → Nat) (l : List α) : List α :=
  l.insertionSort (fun a b => key a ≤ key b)

/-- `reformat_elements_`, structure.py 214-226. -/
def Struct.reformat_ (s : Struct K) : Struct K :=
  { s with sites := sortByKey Site.z s.sites }

/-- `reformat_elements`, structure.py 229-278. The new species come from the reordered sites, the
coordinates are the original ones; reading `site.magmom` of a site without that property is an
`AttributeError`; pymatgen refuses lists of different lengths (`StructureError`, here
`runtimeError`). -/
def Struct.reformatElements (s : Struct K) (elements : List Nat) : Except PyErr (Struct K) :=
  let newSites := elements.flatMap (fun e => s.sites.filter (fun t => t.z = e))
  let newSpecies := newSites.map Site.z
  let newCoords := s.sites.map Site.pos
  if newSites.any (fun t => t.mag.isNone) then .error .attributeError
  else if newSpecies.length ≠ newCoords.length then .error .runtimeError
  else .ok ⟨s.lattice,
    (newSites.zip newCoords).map (fun p => ⟨p.1.z, p.2, p.1.mag⟩)⟩

/-- Python `l * k` for a list and an integer (empty for `k ≤ 0`). -/
def pyRepeat {α : Type} (l : List α) (k : Int) : List α := (List.replicate k.toNat l).flatten

/-- `grid[d].ravel() - (scaling_matrix[d]-1)/2`, one entry: structure.py 429-431. -/
def centred (n : Int) (i : Nat) : K := (i : K) - ((n : K) - 1) / 2

/-- `np.meshgrid(..., indexing="ij")`, ravelled and stacked: structure.py 402-432. -/
def gridCoeffs (sc : Fin 3 → Int) : List (Vec K) :=
  (List.range (sc 0).toNat).flatMap fun i =>
    (List.range (sc 1).toNat).flatMap fun j =>
      (List.range (sc 2).toNat).map fun k =>
        ![centred (sc 0) i, centred (sc 1) j, centred (sc 2) k]

/-- `shift_matrix_coeffs` after removing and re-inserting the zero shift: structure.py 433-442. -/
def shiftCoeffs [DecidableEq K] (sc : Fin 3 → Int) : List (Vec K) :=
  0 :: (gridCoeffs sc).filter (fun c => c ≠ 0)

/-- `tmp_shift_vector_cart`: `np.sum(np.dot(coeff * np.eye(3), lattice), axis=0)`, structure.py
472-474. -/
def shiftVector (lat : Matrix (Fin 3) (Fin 3) K) (c : Vec K) : Vec K :=
  fun j => ∑ i, (Matrix.diagonal c * lat) i j

/-- `make_supercell_`, structure.py 370-503. -/
def Struct.makeSupercell [DecidableEq K] (s : Struct K) (sc : Fin 3 → Int) (reformat : Bool) :
    Except PyErr (Struct K) :=
  let newLattice := Matrix.diagonal (fun i => (sc i : K)) * s.lattice
  let coords := (shiftCoeffs sc).flatMap fun c =>
    s.sites.map fun t => t.pos + shiftVector s.lattice c
  let species := pyRepeat (pyRepeat (pyRepeat (s.sites.map Site.z) (sc 0)) (sc 1)) (sc 2)
  if species.length ≠ coords.length then .error .assertionError
  else
    let supercell : Struct K :=
      ⟨newLattice, (species.zip coords).map (fun p => ⟨p.1, p.2, none⟩)⟩
    .ok (if reformat then supercell.reformat_ else supercell)

/-- `sorted_indexes`, structure.py 341-347: indices sorted by the atomic number at the index. -/
def sortedIndexes (sites : List (Site K)) : List Nat :=
  (sortByKey (fun p : Site K × Nat => p.1.z) sites.zipIdx).map Prod.snd

/-- `_get_bidx2aidx_supercell`, structure.py 312-351, as the list of dictionary items;
`list.index` is the position of the first occurrence. -/
def bidx2aidx [DecidableEq K] (s : Struct K) (sc : Fin 3 → Int) :
    Except PyErr (List (Nat × Nat)) := do
  let supercell ← s.makeSupercell sc false
  let sorted := sortedIndexes supercell.sites
  return sorted.map (fun i => (i, sorted.idxOf i))

/-- `get_key_idxs`, structure.py 281-309. -/
def Struct.getKeyIdxs [DecidableEq K] (s : Struct K) (sc : Fin 3 → Int) :
    Except PyErr (List Nat) := do
  let d ← bidx2aidx s sc
  let keys ← (List.range s.sites.length).mapM (fun i => pyDictGet d i)
  return sortByKey id keys

/-- pymatgen `Structure.remove_sites(indices)`: keep the sites whose index is not listed. -/
def removeSites {α : Type} (sites : List α) (idxs : List Nat) : List α :=
  (sites.zipIdx.filter (fun p => p.2 ∉ idxs)).map Prod.fst

/-- `remove_vacanies`, structure.py 354-367: one `remove_sites` call per vacancy, each with the
whole index list. -/
def Struct.removeVacanies (s : Struct K) : Struct K :=
  let idxs := (s.sites.zipIdx.filter (fun p => p.1.z = 0)).map Prod.snd
  { s with sites := idxs.foldl (fun acc _ => removeSites acc idxs) s.sites }

/-- Keys of `Counter(l)`: the distinct entries in order of first occurrence. -/
def counterKeys {α : Type} [DecidableEq α] (l : List α) : List α :=
  l.foldl (fun acc a => if a ∈ acc then acc else acc ++ [a]) []

/-- `get_natoms`, structure.py 602-636. An empty list is falsy, so it behaves like `False`. -/
def Struct.getNatoms (s : Struct K) (order : List Nat) : List Nat :=
  let zs := s.sites.map Site.z
  let order := if order.isEmpty then counterKeys zs else order
  s.sites.length :: order.map (fun a => zs.count a)

/-- `get_centroid`, structure.py 578-599. -/
def Struct.getCentroid (s : Struct K) : Vec K :=
  fun j => (s.sites.map (fun t => t.pos j)).sum / (s.sites.length : K)

/-- Python `round(x)`: nearest integer, ties to even. -/
def pyRound [LinearOrder K] [FloorRing K] (q : K) : ℤ :=
  let f := ⌊q⌋
  if q - f < 1 / 2 then f
  else if 1 / 2 < q - f then f + 1
  else if f % 2 = 0 then f else f + 1

/-- `is_almost_int`, structure.py 553-562, `epsilon = 1e-10`. -/
def isAlmostInt [LinearOrder K] [FloorRing K] (x : K) : Prop :=
  |x - (pyRound x : K)| ≤ 1 / 10 ^ 10

open Classical in
/-- `get_site_index`, structure.py 538-575. `np.linalg.inv` raises for a singular matrix (here
`valueError`; numpy's `LinAlgError`), but only if there is an atom to compare with. -/
noncomputable def Struct.getSiteIndex [LinearOrder K] [FloorRing K] (s : Struct K) (p : Vec K) :
    Except PyErr Nat :=
  if s.sites.isEmpty then .ok 0
  else if s.lattice.transpose.det = 0 then .error .valueError
  else
    .ok (match s.sites.findIdx? (fun t =>
        let c := (s.lattice.transpose)⁻¹.mulVec (p - t.pos)
        isAlmostInt (c 0) ∧ isAlmostInt (c 1) ∧ isAlmostInt (c 2)) with
      | some i => i + 1
      | none => 0)

end MaterSDK
