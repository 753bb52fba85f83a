import Verif.Model.Report
import Verif.Model.Neigh
import Mathlib.Analysis.Real.Pi.Bounds

/-!
# k-points: IN.KPT files, k-meshes and k-paths

Model of `/repo/matersdk/io/pwmat/input/inkpt.py`, `/repo/matersdk/calculation/kpoints/kmesh.py`,
`/repo/matersdk/calculation/kpath/kpathSampler.py` and `DStructure.judge_vacuum_exist`
(`/repo/matersdk/io/publicLayer/structure.py` 183-211).

Simplifications.
* Coordinates and lengths are exact reals; numbers read from a file are exact rationals.
* The lattice of the atom.config file is an input (reading it is C01-C04). pymatgen's reciprocal
  lattice is the transposed inverse, with or without the factor 2π; `np.linalg.inv` raises for a
  singular matrix (`LinAlgError`, here `valueError`).
* pymatgen's `KPathSetyawanCurtarolo` is not modelled: its dictionary of k-points and list of paths
  are inputs.
* A division by density 0 gives `inf` or `nan` in numpy; both are `none` here.
-/

namespace MaterSDK

/-! ## IN.KPT -/

/-- `Inkpt.__init__`, inkpt.py 21-62: `iflag` and `a0`, the first and last word of row 2. -/
def inkptInit (cached : List Str) : Except PyErr (Int × Int) := do
  let w ← pyGetI (split (getline cached 2)) 0
  let iflag ← parseInt w
  let v ← pyGetI (split (getline cached 2)) (-1)
  let a0 ← parseInt v
  return (iflag, a0)

/-- `Inkpt.get_num_kpts`, inkpt.py 66-79. -/
def inkptNumKpts (cached : List Str) : Except PyErr Int := do
  let w ← pyGet (split (getline cached 1)) 0
  parseInt w

/-- `Inkpt.get_kpt_coords_frac`, inkpt.py 82-106: all rows after the second. -/
def kptCoordsFrac (rows : List Str) : Except PyErr (List (List ℚ)) := do
  let cs ← (rows.drop 2).mapM (fun r => ((split r).take 3).mapM parseFloat)
  npRect cs

/-- pymatgen `Lattice.reciprocal_lattice_crystallographic.matrix` (no factor 2π). -/
noncomputable def recipCryst (lat : Matrix (Fin 3) (Fin 3) ℝ) :
    Except PyErr (Matrix (Fin 3) (Fin 3) ℝ) :=
  open Classical in if lat.det = 0 then .error .valueError else .ok (lat⁻¹).transpose

/-- pymatgen `Lattice.reciprocal_lattice.matrix`. -/
noncomputable def recipLattice (lat : Matrix (Fin 3) (Fin 3) ℝ) :
    Except PyErr (Matrix (Fin 3) (Fin 3) ℝ) := do
  let b ← recipCryst lat
  return (2 * Real.pi) • b

/-- A row of the coordinate array as a vector; other widths do not fit `np.dot`. -/
def toVec3 (r : List ℚ) : Except PyErr (Vec ℝ) :=
  match r with
  | [x, y, z] => .ok ![(x : ℝ), (y : ℝ), (z : ℝ)]
  | _ => .error .valueError

/-- `Inkpt.get_kpt_coords_A`, inkpt.py 109-129. An array without rows does not fit `np.dot`. -/
noncomputable def kptCoordsA (rows : List Str) (lat : Matrix (Fin 3) (Fin 3) ℝ) :
    Except PyErr (List (Vec ℝ)) := do
  let b ← recipLattice lat
  let cs ← kptCoordsFrac rows
  if cs.isEmpty then .error .valueError
  else do
    let vs ← cs.mapM toVec3
    return vs.map (fun v => Matrix.vecMul v b)

/-- `Inkpt._get_idx2hsp`, inkpt.py 202-224: the rows of five words and their label. -/
def idx2hsp (rows : List Str) : List (ℕ × Str) :=
  ((rows.drop 2).zipIdx.filter (fun p => (split p.1).length = 5)).map
    (fun p => (p.2, ((split p.1).getLast?).getD []))

/-- `Inkpt._get_distance_from_nbr`, inkpt.py 227-252. -/
noncomputable def nbrDistances (cs : List (Vec ℝ)) : Except PyErr (List ℝ) :=
  let ds : List ℝ := 0 :: (cs.zip cs.tail).map (fun p => norm3 (p.2 - p.1))
  if cs.length = ds.length then .ok ds else .error .assertionError

/-- `np.cumsum`, started from a partial sum. -/
noncomputable def rcumsum (s : ℝ) : List ℝ → List ℝ
  | [] => []
  | x :: xs => (s + x) :: rcumsum (s + x) xs

/-- `kpt_idx_starts_lst`, inkpt.py 280-285. -/
def kptStarts (keys : List ℕ) (n : ℕ) : List ℕ :=
  0 :: (((keys.zip keys.tail).filter (fun p => p.2 = p.1 + 1)).map Prod.snd ++ [n])

/-- `Inkpt._split_distances_from_gamma_lst`, inkpt.py 255-298. -/
noncomputable def splitDistances (rows : List Str) (lat : Matrix (Fin 3) (Fin 3) ℝ) :
    Except PyErr (List (List ℝ)) := do
  let cs ← kptCoordsA rows lat
  let ds ← nbrDistances cs
  let cum := rcumsum 0 ds
  let starts := kptStarts ((idx2hsp rows).map Prod.fst) ds.length
  return (starts.zip starts.tail).map (fun p => pySlice cum p.1 p.2)

/-- One round of the loop of inkpt.py 324-338. -/
noncomputable def joinStep (acc : List ℝ) (p : List ℝ × ℕ) : Except PyErr (List ℝ) :=
  if p.2 ≠ 0 then do
    let c ← pyGetI acc (-1)
    let m ← pyGet p.1 0
    return acc ++ p.1.map (fun d => d + c - m)
  else .ok (acc ++ p.1)

/-- `Inkpt.get_distance_from_gamma_A`, inkpt.py 302-340. -/
noncomputable def distanceA (rows : List Str) (lat : Matrix (Fin 3) (Fin 3) ℝ) :
    Except PyErr (List ℝ) := do
  let parts ← splitDistances rows lat
  parts.zipIdx.foldlM joinStep []

/-- `Inkpt.get_distance_from_gamma_bohr`, inkpt.py 343-368. -/
noncomputable def distanceBohr (rows : List Str) (lat : Matrix (Fin 3) (Fin 3) ℝ) :
    Except PyErr (List ℝ) := do
  let l ← distanceA rows lat
  return l.map (fun v => v * (529177249 / 1000000000))

/-! ## k-meshes -/

/-- `np.max` of a one-dimensional array. -/
noncomputable def npMax : List ℝ → Except PyErr ℝ
  | [] => .error .valueError
  | a :: as => .ok (as.foldl max a)

/-- `np.min` of a one-dimensional array. -/
noncomputable def npMin : List ℝ → Except PyErr ℝ
  | [] => .error .valueError
  | a :: as => .ok (as.foldl min a)

open Classical in
/-- One entry of `judge_vacuum_exist`, structure.py 195-209. -/
noncomputable def Struct.vacuumAlong (s : Struct ℝ) (i : Fin 3) : Except PyErr Bool := do
  let len := norm3 (s.lattice i)
  let coords := s.sites.map (fun t => t.pos i)
  let hi ← npMax coords
  let lo ← npMin coords
  return decide (len - (hi - lo) > 10)

/-- `judge_vacuum_exist`, structure.py 183-211. -/
noncomputable def Struct.judgeVacuum (s : Struct ℝ) : Except PyErr (List Bool) :=
  [0, 1, 2].mapM s.vacuumAlong

open Classical in
/-- `KMesh.get_kmesh`, kmesh.py 42-77. The entries are floats with integer values. -/
noncomputable def getKmesh (s : Struct ℝ) (density : ℝ) : Except PyErr (List ℤ) :=
  if density = 0 then .ok [1, 1, 1]
  else do
    let b ← recipLattice s.lattice
    let mesh : List ℤ := [0, 1, 2].map (fun i : Fin 3 => pyRound (norm3 (b i) / (density * 2 * Real.pi)))
    let vac ← s.judgeVacuum
    let mesh := (mesh.zip vac).map (fun p => if p.2 then 1 else p.1)
    return mesh.map (fun k => if k = 0 then 1 else k)

/-! ## k-paths -/

/-- A Python dict with string keys: distinct keys, insertion order. -/
abbrev KDict := List (Str × Vec ℚ)

/-- `d.update({k: v})`. -/
def dictUpdate (d : KDict) (k : Str) (v : Vec ℚ) : KDict :=
  if k ∈ d.map Prod.fst then d.map (fun p => if p.1 = k then (k, v) else p) else d ++ [(k, v)]

/-- The text `\\Gamma` of the source, that is `\Gamma`. -/
def gammaName : Str := '\\' :: chars% "Gamma"

/-- The label `G`. -/
def gName : Str := chars% "G"

/-- kpathSampler.py 185-189: `pop` of `\Gamma`, then `update` of `G`; a missing key is ignored. -/
def renameGamma (d : KDict) : KDict :=
  match d.find? (fun p => p.1 = gammaName) with
  | some p => dictUpdate (d.filter (fun q => q.1 ≠ gammaName)) gName p.2
  | none => d

/-- `KpathSampler._get_kpoints`, kpathSampler.py 168-203. -/
def getKpoints (dim : Int) (d : KDict) : Except PyErr KDict :=
  if dim = 2 then .ok ((renameGamma d).filter (fun p => p.2 2 = 0))
  else if dim = 3 then .ok (renameGamma d)
  else .error .runtimeError

/-- kpathSampler.py 221-229. -/
def renamePath (path : List Str) : List Str := path.map (fun p => if p = gammaName then gName else p)

/-- `KpathSampler._get_kpaths`, kpathSampler.py 206-250. Without any path line 240 reads the unbound
loop variable (`UnboundLocalError`, here `runtimeError`). -/
def getKpaths (dim : Int) (kpts : KDict) (paths : List (List Str)) : Except PyErr (List (List Str)) :=
  let new := paths.map renamePath
  if dim = 2 then
    if new.isEmpty then .error .runtimeError
    else .ok ((new.map (fun p => p.filter (fun k => k ∈ kpts.map Prod.fst))).filter
      (fun p => p.length > 1))
  else if dim = 3 then .ok new
  else .error .runtimeError

/-- `KpathSampler.__init__`, kpathSampler.py 13-45. -/
def kpathSampler (dim : Int) (d : KDict) (paths : List (List Str)) :
    Except PyErr (KDict × List (List Str)) := do
  let kpts ← getKpoints dim d
  let ps ← getKpaths dim kpts paths
  return (kpts, ps)

/-- One segment written to gen.kpt: number of points (`none`: `inf` or `nan`) and the two ends. -/
structure KSegment where
  num : Option ℤ
  start : Str × Vec ℚ
  dest : Str × Vec ℚ

/-- `path_length`, kpathSampler.py 143-146: the Frobenius norm of the elementwise product of a
`1 × 3` with a `3 × 3` array. -/
noncomputable def pathLength (b : Matrix (Fin 3) (Fin 3) ℝ) (p q : Vec ℚ) : ℝ :=
  Real.sqrt (∑ i, ∑ j, (((q j : ℝ) - (p j : ℝ)) * b i j) ^ 2)

open Classical in
/-- `num_bandpoint`, kpathSampler.py 147. -/
noncomputable def numBandpoint (b : Matrix (Fin 3) (Fin 3) ℝ) (density : ℝ) (p q : Vec ℚ) : Option ℤ :=
  if density = 0 then none else some ⌈pathLength b p q / density⌉

/-- The inner loop of `output_gen_kpt`, kpathSampler.py 127-165, with `point_dest` and
`position_dest` of the previous round. -/
noncomputable def genPath (kpts : KDict) (b : Matrix (Fin 3) (Fin 3) ℝ) (density : ℝ) :
    Option (Str × Vec ℚ) → List Str → Except PyErr (List KSegment)
  | _, [] => .ok []
  | none, p :: ps => do
    let pos ← pyDictGet kpts p
    genPath kpts b density (some (p, pos)) ps
  | some prev, p :: ps => do
    let pos ← pyDictGet kpts p
    let rest ← genPath kpts b density (some (p, pos)) ps
    return ⟨numBandpoint b density prev.2 pos, prev, (p, pos)⟩ :: rest

/-- `KpathSampler.output_gen_kpt`, kpathSampler.py 104-165: the segments written, in order. -/
noncomputable def genKpt (kpts : KDict) (paths : List (List Str)) (lat : Matrix (Fin 3) (Fin 3) ℝ)
    (density : ℝ) : Except PyErr (List KSegment) := do
  let b ← recipCryst lat
  let segs ← paths.mapM (genPath kpts b density none)
  return segs.flatten

end MaterSDK
