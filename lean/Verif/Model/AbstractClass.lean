import Verif.Model.Trajectory
import Verif.Model.Elements

/-! # Classes with abstract methods, and the classes of the package that have them

Python's `abc`: the functions of a class body, each with the mark of `@abstractmethod`. `ABCMeta` collects the
abstract names of a class, and `object.__new__` refuses with a `TypeError`, before `__init__` runs, if there are
any. All classes here have a single base. -/

namespace MaterSDK

/-- The functions defined in a class body, in order; `true` if decorated with `@abstractmethod`. -/
abbrev ClassBody := List (Str × Bool)

/-- What a name means in a class body: the last definition. -/
def ClassBody.find (b : ClassBody) (n : Str) : Option Bool := (b.reverse.find? (fun d => d.1 == n)).map Prod.snd

/-- Attribute lookup on a class, given by its body, that of its base, and so on. -/
def classLookup : List ClassBody → Str → Option Bool
  | [], _ => none
  | b :: rest, n => match b.find n with
    | some m => some m
    | none => classLookup rest n

/-- `cls.__abstractmethods__` (with repetitions), as `ABCMeta.__new__` computes it: the abstract names of the body,
and those of the base that are still abstract in the class. -/
def abstractNames : List ClassBody → List Str
  | [] => []
  | b :: rest =>
    (b.map Prod.fst).filter (fun n => b.find n == some true) ++
      (abstractNames rest).filter (fun n => classLookup (b :: rest) n == some true)

/-- The call of a class: `init` is what its `__init__` gives. -/
def construct {α : Type} (cls : List ClassBody) (init : Except PyErr α) : Except PyErr α :=
  if abstractNames cls = [] then init else .error .typeError

/-- `class Trajectory(ABC)`, /repo/matersdk/io/publicLayer/traj.py 4-55. -/
def trajectoryBody : ClassBody := [
  (chars% "get_chunksize", true), (chars% "get_chunkslice", true), (chars% "_get_frame_str", true),
  (chars% "get_all_frame_structures", true), (chars% "get_all_frame_structures_info", true),
  (chars% "get_frame_structure", true), (chars% "get_frame_energy", true), (chars% "get_frame_virial", true),
  (chars% "get_frame_volume", true), (chars% "get_max_num_nbrs_real", true)]

/-- `class Movement(Trajectory)`, /repo/matersdk/io/pwmat/output/movement.py 16-320. -/
def movementBody : ClassBody := [
  (chars% "__init__", false), (chars% "get_chunksize", false), (chars% "get_chunkslice", false),
  (chars% "_get_frame_str", false), (chars% "get_all_frame_structures", false),
  (chars% "get_all_frame_structures_info", false), (chars% "get_frame_structure", false),
  (chars% "get_frame_energy", false), (chars% "get_frame_virial", false)]

/-- `class ACExtractorBase(ABC)`, /repo/matersdk/io/pwmat/utils/acextractor.py 16-52; `get_magmoms` is defined
twice. -/
def acBaseBody : ClassBody := [
  (chars% "get_num_atoms", true), (chars% "get_basis_vectors", true), (chars% "get_types", true),
  (chars% "get_coords", true), (chars% "get_magmoms", false), (chars% "get_eatoms", false),
  (chars% "get_etot", false), (chars% "get_fatoms", false), (chars% "get_magmoms", true)]

/-- `class ACExtractor(ACExtractorBase)`, acextractor.py 55-225. -/
def acExtractorBody : ClassBody := [
  (chars% "__init__", false), (chars% "get_num_atoms", false), (chars% "get_basis_vectors", false),
  (chars% "get_types", false), (chars% "get_coords", false), (chars% "get_magmoms", false)]

/-- `class ACstrExtractor(ACExtractorBase)`, acextractor.py 228-428. -/
def acStrExtractorBody : ClassBody := [
  (chars% "__init__", false), (chars% "get_num_atoms", false), (chars% "get_basis_vectors", false),
  (chars% "get_types", false), (chars% "get_coords", false), (chars% "get_magmoms", false),
  (chars% "get_etot", false), (chars% "get_eatoms", false), (chars% "get_fatoms", false),
  (chars% "get_virial", false)]

/-- `class StructureNeighborsBase(ABC)`, /repo/matersdk/io/publicLayer/neigh.py 292-302. -/
def neighborsBaseBody : ClassBody := [(chars% "_get_key_neighs_info", true), (chars% "_get_max_num_nbrs", false)]

/-- `class StructureNeighborsV1(StructureNeighborsBase)`, neigh.py 307-439. -/
def neighborsV1Body : ClassBody := [(chars% "__init__", false), (chars% "_get_key_neighs_info", false)]

/-- `C(movement_path)` for a class `C` that is `Movement` or derives from it without an `__init__` of its own;
`ext` are the bodies below `Movement`. -/
def openMovement (ext : List ClassBody) (text : Str) : Except PyErr Movement :=
  construct (ext ++ [movementBody, trajectoryBody]) (Movement.load text)

/-- The frames, the two numbers and the number of sites an `AvgBond` object keeps: `AvgBond(movement_path, e1, e2, rcut)`,
/repo/matersdk/feature/avg/avgbond.py 18-40. -/
def newAvgBond (ext : List ClassBody) (text e1 e2 : Str) : Except PyErr (List QStruct × ℕ × ℕ × ℕ) := do
  let m ← openMovement ext text
  let (frames, _) ← m.allInfo
  let z1 ← numberOf e1
  let z2 ← numberOf e2
  let f ← pyGet frames 0
  return (frames, z1, z2, f.sites.length)

/-- `PairBond(movement_path, i, j)`, avgbond.py 291-312. -/
def newPairBond (ext : List ClassBody) (text : Str) (i j : ℤ) : Except PyErr (List QStruct × ℤ × ℤ) := do
  let m ← openMovement ext text
  let (frames, _) ← m.allInfo
  return (frames, i, j)

end MaterSDK
