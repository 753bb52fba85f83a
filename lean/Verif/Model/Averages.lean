import Verif.Model.DeepMD
import Mathlib.Analysis.SpecialFunctions.Trigonometric.Inverse

/-!
# Averages over neighbours and frames

Model of `/repo/matersdk/feature/avg/avgbond.py` 44-337, `avgangle.py` 21-116, `msd.py` 10-138
and `/repo/matersdk/feature/graph/edge.py` 7-143.

Simplifications.
* Scalars are real numbers; a NaN is `none`. In doubles the cosine of a vector with itself may exceed
  1 by rounding; its angle is then NaN and dropped by the test `>= 0` of avgangle.py 96.
* `multiprocessing.Pool(n)` runs the same function on every task and keeps the order; what is modelled of
  it is that fewer than one process is a `ValueError`. `cpus` stands for `os.cpu_count()`.
* In `AdjacentMatrix` the matrix is a list of rows.
-/

namespace MaterSDK

open Classical Matrix

/-- The distances kept by the mask of one table row, with 0 elsewhere: avgbond.py 101-124. -/
noncomputable def effectiveRow (z1 z2 : ℕ) (row : List NbrEntry) : List ℝ :=
  match row with
  | [] => []
  | c :: rest => 0 :: rest.map (fun e => if c.1 = z1 ∧ e.1 = z2 then e.2.1 else 0)

/-- `AvgBond.get_avg_bond_length`, avgbond.py 82-130. -/
noncomputable def avgBondLength (table : List (List NbrEntry)) (z1 z2 : ℕ) :
    Except PyErr (Option ℝ) :=
  if table.isEmpty ∨ table.any List.isEmpty then .error .indexError
  else
    let bonds := table.flatMap (effectiveRow z1 z2)
    let n := bonds.countP (fun d => d ≠ 0)
    if n = 0 then .ok none else .ok (some (bonds.sum / n))

/-- `mp.Pool(os.cpu_count() - 2)` followed by `starmap`: avgbond.py 72-76, msd.py 73-77, 98-102. -/
def poolMap {α β : Type} (cpus : ℕ) (f : α → Except PyErr β) (tasks : List α) :
    Except PyErr (List β) :=
  if (cpus : ℤ) - 2 < 1 then .error .valueError else tasks.mapM f

/-- `AvgBond.get_frames_avg_bond`, avgbond.py 44-78, with `ParallelFunction.get_avg_bond_length`,
avgbond.py 269-286. -/
noncomputable def framesAvgBond (A : ArgSort) (cpus : ℕ) (frames : List (Struct ℝ)) (rcut : ℝ)
    (sc : Fin 3 → ℤ) (z1 z2 : ℕ) : Except PyErr (List (Option ℝ)) :=
  poolMap cpus (fun (s : Struct ℝ) => do
    let table ← neighborTable A s rcut sc
    avgBondLength table z1 z2) frames

/-- `PairBond.get_frames_pair_bond`, avgbond.py 291-337; indices may be negative. -/
noncomputable def framesPairBond (frames : List (Struct ℝ)) (i j : ℤ) :
    Except PyErr (List ℝ) :=
  frames.mapM (fun (s : Struct ℝ) => do
    let p ← pyGetI (s.sites.map Site.pos) i
    let q ← pyGetI (s.sites.map Site.pos) j
    return norm3 (q - p))

/-- `get_angle`, avgangle.py 75-82, before `np.degrees`: an angle in radians. -/
noncomputable def angleRad (u v : Vec ℝ) : ℝ := Real.arccos ((u ⬝ᵥ v) / (norm3 u * norm3 v))

/-- `np.degrees`. -/
noncomputable def degrees (x : ℝ) : ℝ := x * (180 / Real.pi)

/-- `np.deg2rad`. -/
noncomputable def deg2rad (x : ℝ) : ℝ := x * (Real.pi / 180)

/-- The angle appended for two relative coordinates, if any: avgangle.py 91-97. -/
noncomputable def angleEntry (u v : Vec ℝ) : List ℝ :=
  if u ≠ 0 ∧ v ≠ 0 then
    if degrees (angleRad u v) ≥ 0 then [degrees (angleRad u v)] else []
  else []

/-- The same in the second case, without the sign test: avgangle.py 104-109. -/
noncomputable def angleEntry' (u v : Vec ℝ) : List ℝ :=
  if u ≠ 0 ∧ v ≠ 0 then [degrees (angleRad u v)] else []

/-- Inner loops of case 1 for one centre: `nbr3_idx` from `nbr2_idx` on, avgangle.py 89-97. -/
noncomputable def anglesSame (rc : List (Vec ℝ)) : List ℝ :=
  match rc with
  | [] => []
  | u :: rest => (u :: rest).flatMap (angleEntry u) ++ anglesSame rest

/-- Inner loops of case 2 for one centre, avgangle.py 102-109. -/
noncomputable def anglesOther (rc2 rc3 : List (Vec ℝ)) : List ℝ :=
  rc2.flatMap (fun u => rc3.flatMap (angleEntry' u))

/-- `1 - 3/8 * sum((1/3 + cos(deg2rad(angles)))**2)`, avgangle.py 114. -/
noncomputable def orderParameter (angles : List ℝ) : ℝ :=
  1 - 3 / 8 * (angles.map (fun a => (1 / 3 + Real.cos (deg2rad a)) ^ 2)).sum

/-- `np.mean`. -/
noncomputable def npMean (l : List ℝ) : Option ℝ := if l = [] then none else some (l.sum / l.length)

/-- The list of angles, avgangle.py 46-109. -/
noncomputable def bondAngles (table : List (List NbrEntry)) (z1 z2 z3 : ℕ) :
    Except PyErr (List ℝ) := do
  let (_, rows2) ← extractFeaturePair table z1 z2
  let (_, rows3) ← extractFeaturePair table z1 z3
  let rc2 := rows2.map (List.map (fun (e : NbrEntry) => e.2.2))
  let rc3 := rows3.map (List.map (fun (e : NbrEntry) => e.2.2))
  if z2 = z3 then return rc2.flatMap anglesSame
  else return (List.zipWith anglesOther rc2 rc3).flatten

/-- `AvgAngle.get_avg_bond`, avgangle.py 21-116. -/
noncomputable def avgAngle (table : List (List NbrEntry)) (z1 z2 z3 : ℕ) :
    Except PyErr (Option ℝ × ℝ) := do
  let angles ← bondAngles table z1 z2 z3
  return (npMean angles, orderParameter angles)

/-- The row appended for two relative coordinates whose angle is close to the requested one:
avgbond.py 199-235, 245-254. -/
noncomputable def angleBondEntry (std eps : ℝ) (u v : Vec ℝ) : List (ℝ × ℝ × ℝ) :=
  if u ≠ 0 ∧ v ≠ 0 then
    if |degrees (angleRad u v) - std| < eps then
      [(degrees (angleRad u v), min (norm3 u) (norm3 v), max (norm3 u) (norm3 v))]
    else []
  else []

/-- Inner loops for one centre and equal neighbour elements, avgbond.py 216-235. -/
noncomputable def angleBondsSame (std eps : ℝ) (rc : List (Vec ℝ)) : List (ℝ × ℝ × ℝ) :=
  match rc with
  | [] => []
  | u :: rest => (u :: rest).flatMap (angleBondEntry std eps u) ++ angleBondsSame std eps rest

/-- `AvgBond.get_bond_lengths_lst_according2angle`, avgbond.py 133-263. -/
noncomputable def angleBonds (table : List (List NbrEntry)) (z1 z2 z3 : ℕ) (std eps : ℝ) :
    Except PyErr (List (ℝ × ℝ × ℝ)) := do
  let (_, rows2) ← extractFeaturePair table z1 z2
  let (_, rows3) ← extractFeaturePair table z1 z3
  let rc2 := rows2.map (List.map (fun (e : NbrEntry) => e.2.2))
  let rc3 := rows3.map (List.map (fun (e : NbrEntry) => e.2.2))
  if z2 = z3 then return rc2.flatMap (angleBondsSame std eps)
  else return (List.zipWith (fun (r2 r3 : List (Vec ℝ)) =>
    r2.flatMap (fun u => r3.flatMap (angleBondEntry std eps u))) rc2 rc3).flatten

/-! ## Mean-square displacement -/

/-- `a - b` of two arrays of shape `(n, 3)` and `(m, 3)`: equal lengths, or one row against many. -/
def npSubRows (a b : List (Vec ℝ)) : Except PyErr (List (Vec ℝ)) :=
  if a.length = b.length then .ok (List.zipWith (· - ·) a b)
  else match a, b with
    | [x], b => .ok (b.map (x - ·))
    | a, [y] => .ok (a.map (· - y))
    | _, _ => .error .valueError

/-- `np.sum(np.power(rel, 2)) / rel.shape[0]`. -/
noncomputable def meanSquare (rel : List (Vec ℝ)) : Option ℝ :=
  if rel = [] then none
  else some ((rel.map (fun v => v 0 ^ 2 + v 1 ^ 2 + v 2 ^ 2)).sum / rel.length)

/-- `calc_msd_s`, msd.py 108-121. A structure without atoms has coordinates of shape `(0,)`, which
minus anything but one or no atom of the same kind is refused: with `(1, 3)` or `(n, 3)` the shapes do
not fit (3 against 0). -/
noncomputable def calcMsdS (s1 s2 : Struct ℝ) : Except PyErr (Option ℝ) :=
  if (s1.sites = []) ≠ (s2.sites = []) then .error .valueError
  else do
    let rel ← npSubRows (s2.sites.map Site.pos) (s1.sites.map Site.pos)
    return meanSquare rel

/-- `self.cart_coords - self.get_centroid().reshape(1, 3)`; without atoms the sum is a single number,
which cannot be reshaped. -/
noncomputable def subCentroid (s : Struct ℝ) : Except PyErr (List (Vec ℝ)) :=
  if s.sites = [] then .error .valueError
  else .ok (s.sites.map (fun t => t.pos - s.getCentroid))

/-- `calc_msd_sub_centroid_s`, msd.py 124-138. -/
noncomputable def calcMsdSubCentroidS (s1 s2 : Struct ℝ) : Except PyErr (Option ℝ) := do
  let c2 ← subCentroid s2
  let c1 ← subCentroid s1
  let rel ← npSubRows c2 c1
  return meanSquare rel

/-- `[frames[i-1], frames[i]] for i in range(1, len(frames))`, msd.py 65-70, 90-95. -/
def consecutiveFrames {α : Type} (frames : List α) : List (α × α) := frames.zip frames.tail

/-- `Msd.calc_msd`, msd.py 56-78. -/
noncomputable def calcMsd (cpus : ℕ) (frames : List (Struct ℝ)) : Except PyErr (List (Option ℝ)) :=
  poolMap cpus (fun (p : Struct ℝ × Struct ℝ) => calcMsdS p.1 p.2) (consecutiveFrames frames)

/-- `Msd.calc_msd_sub_centroid`, msd.py 81-104. -/
noncomputable def calcMsdSubCentroid (cpus : ℕ) (frames : List (Struct ℝ)) :
    Except PyErr (List (Option ℝ)) :=
  poolMap cpus (fun (p : Struct ℝ × Struct ℝ) => calcMsdSubCentroidS p.1 p.2)
    (consecutiveFrames frames)

/-- `DiffractionIntensity(trajectory, q).calc_di()`, msd.py 30-41. -/
noncomputable def calcDi (cpus : ℕ) (frames : List (Struct ℝ)) (q : ℝ) :
    Except PyErr (List (Option ℝ)) := do
  let msd ← calcMsd cpus frames
  return msd.map (Option.map (fun m => Real.exp (-q ^ 2 * m / 3)))

/-! ## Adjacency matrix -/

/-- `list(range(-m, m+1))`. -/
def symRange (m : ℕ) : List ℤ := (List.range (2 * m + 1)).map (fun (i : ℕ) => (i : ℤ) - m)

/-- `int((sc - 1) / 2)` of a positive integer. -/
def halfShift (sc : ℤ) : ℕ := ((sc - 1) / 2).toNat

/-- `itertools.product` of the three ranges, edge.py 117-127. -/
def fracShifts (sc : Fin 3 → ℤ) : List (Vec ℝ) :=
  (symRange (halfShift (sc 0))).flatMap fun (a : ℤ) =>
    (symRange (halfShift (sc 1))).flatMap fun (b : ℤ) =>
      (symRange (halfShift (sc 2))).map fun (c : ℤ) => ![(a : ℝ), b, c]

/-- The shifts after broadcasting against the `sc0*sc1*sc2` copies, edge.py 129-141: equally many, or
a single one used for all copies. -/
def broadcastShifts (sc : Fin 3 → ℤ) : Except PyErr (List (Vec ℝ)) :=
  let copies := (sc 0 * sc 1 * sc 2).toNat
  let shifts := fracShifts sc
  if shifts.length = copies then .ok shifts
  else match shifts with
    | [x] => .ok (List.replicate copies x)
    | _ => if copies = 1 then .ok shifts else .error .valueError

/-- Number of shifted copies of the second atom within `rcut` of the first, edge.py 66-71. -/
noncomputable def countWithin (L : Matrix (Fin 3) (Fin 3) ℝ) (shifts : List (Vec ℝ)) (rcut : ℝ)
    (p q : Vec ℝ) : ℕ :=
  let f1 := p ᵥ* L⁻¹
  let f2 := q ᵥ* L⁻¹
  shifts.countP (fun n => norm3 (Lᵀ *ᵥ ((f2 - n) - f1)) ≤ rcut)

/-- `AdjacentMatrix(structure, rcut, scaling_matrix).get_adjacent_matrix()`, edge.py 13-76: for
`i <= j` both entries get the count computed for `(i, j)`; the identity is subtracted. The assertion
tests `x / 2 != 0`, which every positive number passes. -/
noncomputable def adjacentMatrix (s : Struct ℝ) (rcut : ℝ) (sc : Fin 3 → ℤ) :
    Except PyErr (List (List ℤ)) :=
  if ¬ (∀ i, 0 < sc i ∧ ((sc i : ℚ) / 2 ≠ 0)) then .error .assertionError
  else if s.sites = [] then .error .indexError
  else do
    let shifts ← broadcastShifts sc
    let pos := s.sites.map Site.pos
    return pos.zipIdx.map (fun (pi : Vec ℝ × ℕ) => pos.zipIdx.map (fun (pj : Vec ℝ × ℕ) =>
      (if pi.2 ≤ pj.2 then (countWithin s.lattice shifts rcut pi.1 pj.1 : ℤ)
        else countWithin s.lattice shifts rcut pj.1 pi.1)
      - (if pi.2 = pj.2 then 1 else 0)))

end MaterSDK
