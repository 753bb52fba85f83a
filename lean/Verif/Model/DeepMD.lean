import Verif.Model.Neigh

/-!
# DeepPot-SE features

Model of `/repo/matersdk/feature/deepmd/premise.py` 46-186, `se_pair.py` 68-497, `se.py` 34-94 and
`preprocess.py` 11-381 (without `to`/`from_file`, which are in `Verif.Model.NormFile`, and
`calc_stats`/`from_dp_labeled_system`, which are in `Verif.Model.NormBuild`), 384-606.

Simplifications.
* Scalars are real numbers. `np.reciprocal(0.)` is infinite, but both places that use it replace it
  by 0 (`np.where`).
* The parallel arrays (numbers, distances, coordinates) are one array of triples.
* An array of shape `(n, w, ...)` is the pair of `w` and the list of its `n` rows.
* `rcut` and `rcut_smooth` are Python floats, so `1 / (rcut - rcut_smooth)` raises
  `ZeroDivisionError` when they are equal.
* A NaN is `none`.
-/

namespace MaterSDK

open Classical

/-- The masked part of one row, relative to the row's centre: premise.py 80-107, 127-149. -/
def pairEntries (row : List NbrEntry) (nz : ℕ) : List NbrEntry :=
  match row with
  | [] => []
  | c :: rest => (rest.filter (fun e => e.1 = nz)).map (fun e => (e.1, e.2.1, e.2.2 - c.2.2))

/-- The row's centre has the requested element: premise.py 80. -/
def centreIs (cz : ℕ) (row : List NbrEntry) : Bool := row.head?.map Prod.fst = some cz

/-- `extract_feature_pair`, premise.py 59-152: width and rows. -/
def extractFeaturePair (table : List (List NbrEntry)) (cz nz : ℕ) :
    Except PyErr (ℕ × List (List NbrEntry)) :=
  if table.isEmpty ∨ table.any List.isEmpty then .error .indexError
  else
    let counts := table.map (fun r => if centreIs cz r then (pairEntries r nz).length else 0)
    let w := runningMax counts
    let rows := table.filter (centreIs cz)
    .ok (w, rows.map (fun r =>
      pairEntries r nz ++ List.replicate (w - (pairEntries r nz).length) zeroEntry))

/-- `expand_rc`, premise.py 155-186. -/
def expandRc (table : List (List NbrEntry)) (cz nz : ℕ) (width : ℤ) :
    Except PyErr (List (List (Vec ℝ))) := do
  let (w, rows) ← extractFeaturePair table cz nz
  if width < (w : ℤ) then .error .assertionError
  else return rows.map (fun r =>
    r.map (fun e => e.2.2) ++ List.replicate (width.toNat - w) (0 : Vec ℝ))

/-- `d == 0 ? 0 : 1/d`, se_pair.py 164-165, 218-219, 364-368. -/
noncomputable def recip (d : ℝ) : ℝ := if d = 0 then 0 else 1 / d

/-- `x**3 * (-6 x**2 + 15 x - 10) + 1`, se_pair.py 172-173, 330. -/
def switchPoly (x : ℝ) : ℝ := x ^ 3 * (-6 * x ^ 2 + 15 * x - 10) + 1

/-- `_get_s`, se_pair.py 141-185, one entry. -/
noncomputable def getS (rcut rs d : ℝ) : ℝ :=
  let x := (d - rs) / (rcut - rs)
  let scaled := recip d * switchPoly x
  if d > rs ∧ d < rcut then scaled else recip d

/-- One row of `_get_tildeR`, se_pair.py 188-241. -/
noncomputable def envRow (rcut rs : ℝ) (e : NbrEntry) : Fin 4 → ℝ :=
  let s := getS rcut rs e.2.1
  let q := recip e.2.1
  ![s, s * q * e.2.2 0, s * q * e.2.2 1, s * q * e.2.2 2]

/-- `DpseTildeRPairV1(...).dp_feature_pair_tildeR`, se_pair.py 68-138. -/
noncomputable def pairTildeR (rcut rs : ℝ) (table : List (List NbrEntry)) (cz nz : ℕ) :
    Except PyErr (ℕ × List (List (Fin 4 → ℝ))) := do
  let (w, rows) ← extractFeaturePair table cz nz
  return (w, rows.map (List.map (envRow rcut rs)))

/-- `out = np.zeros((n, width, ...)); out[:, :w] = arr`, se_pair.py 254-262, 488-497 and se.py
81-84. A negative width is refused by `np.zeros`; a too small width by the assignment, except that
one column broadcasts to none. -/
def padWidth {α : Type} (zero : α) (arr : ℕ × List (List α)) (width : ℤ) :
    Except PyErr (List (List α)) :=
  if width < 0 then .error .valueError
  else if (arr.1 : ℤ) ≤ width then
    .ok (arr.2.map (fun r => r ++ List.replicate (width.toNat - arr.1) zero))
  else if arr.1 = 1 then .ok (arr.2.map (fun _ => []))
  else .error .valueError

/-- `get_tildeR`, se_pair.py 244-262. -/
noncomputable def getTildeR (rcut rs : ℝ) (table : List (List NbrEntry)) (cz nz : ℕ) (width : ℤ) :
    Except PyErr (List (List (Fin 4 → ℝ))) := do
  let arr ← pairTildeR rcut rs table cz nz
  padWidth 0 arr width

/-- One block of `_calc_derivative`, se_pair.py 308-475; the twelve assignments as in the code. -/
noncomputable def derivBlock (rcut rs : ℝ) (e : NbrEntry) : Matrix (Fin 4) (Fin 3) ℝ :=
  let d := e.2.1
  let uu := (d - rs) / (rcut - rs)
  let duu := 1 / (rcut - rs)
  let vv := if d < rs then 1 else uu ^ 3 * (-6 * uu ^ 2 + 15 * uu - 10) + 1
  let dvv := if d < rs then 0
    else (3 * uu ^ 2 * (-6 * uu ^ 2 + 15 * uu - 10) + uu ^ 3 * (-12 * uu + 15)) * duu
  let q := recip d
  let x := e.2.2 0
  let y := e.2.2 1
  let z := e.2.2 2
  !![vv * x * q ^ 3 - q * dvv * x * q,
     vv * y * q ^ 3 - q * dvv * y * q,
     vv * z * q ^ 3 - q * dvv * z * q;
     vv * (2 * x ^ 2 * q ^ 4 - q ^ 2) - x * q ^ 2 * dvv * x * q,
     vv * (2 * x * y * q ^ 4) - x * q ^ 2 * dvv * y * q,
     vv * (2 * x * z * q ^ 4) - x * q ^ 2 * dvv * z * q;
     vv * (2 * x * y * q ^ 4) - y * q ^ 2 * dvv * x * q,
     vv * (2 * y ^ 2 * q ^ 4 - q ^ 2) - y * q ^ 2 * dvv * y * q,
     vv * (2 * y * z * q ^ 4) - y * q ^ 2 * dvv * z * q;
     vv * (2 * x * z * q ^ 4) - z * q ^ 2 * dvv * x * q,
     vv * (2 * y * z * q ^ 4) - z * q ^ 2 * dvv * y * q,
     vv * (2 * z ^ 2 * q ^ 4 - q ^ 2) - z * q ^ 2 * dvv * z * q]

/-- `calc_derivative`, se_pair.py 478-497 (`np.zeros` refuses a negative width first). -/
noncomputable def calcDerivative (rcut rs : ℝ) (table : List (List NbrEntry)) (cz nz : ℕ)
    (width : ℤ) : Except PyErr (List (List (Matrix (Fin 4) (Fin 3) ℝ))) := do
  let (w, rows) ← extractFeaturePair table cz nz
  if width < 0 then .error .valueError
  else if rcut - rs = 0 then .error .zeroDivision
  else padWidth 0 (w, rows.map (List.map (derivBlock rcut rs))) width

/-- `ndarray.flatten()` of an array of shape `(n, w, 4)`. -/
def flattenBlock (rows : List (List (Fin 4 → ℝ))) : List ℝ :=
  rows.flatMap (fun r => r.flatMap (fun v => [v 0, v 1, v 2, v 3]))

/-- `DpseTildeRPairV1.get_tildeR`, se.py 62-94: the flattened pair blocks one after the other;
`np.concatenate` refuses an empty list. -/
noncomputable def seTildeR (rcut rs : ℝ) (table : List (List NbrEntry)) (centres nbrs : List ℕ)
    (sel : List ℤ) : Except PyErr (List ℝ) := do
  let blocks ← centres.mapM (fun cz => nbrs.zipIdx.mapM (fun (nz, i) => do
    let width ← pyGet sel i
    let arr ← pairTildeR rcut rs table cz nz
    let block ← padWidth 0 arr width
    return flattenBlock block))
  if blocks.flatten.isEmpty then .error .valueError
  else return blocks.flatten.flatten

/-! ## Normaliser -/

/-- `_calc_std`, preprocess.py 514-534; `np.sqrt` of a negative number is NaN (and NaN passes the
comparison unchanged). -/
noncomputable def calcStd (sum2 sum : ℝ) (n : ℕ) : Option ℝ :=
  if n = 0 then some (1 / 100)
  else
    let v := sum2 / n - (sum / n) * (sum / n)
    if v < 0 then none
    else if |Real.sqrt v| < 1 / 100 then some (1 / 100) else some (Real.sqrt v)

/-- The statistics of one centre element: `davg` and `dstd`. -/
structure PairStats where
  davg : Fin 4 → ℝ
  dstd : Fin 4 → Option ℝ

/-- `TildeRPairNormalizer.calc_stats`, preprocess.py 457-511. -/
noncomputable def calcPairStats (rows : List (Fin 4 → ℝ)) : PairStats :=
  let radius := rows.map (fun v => v 0)
  let angles := rows.flatMap (fun v => [v 1, v 2, v 3])
  let sumR := radius.sum
  let sumA := angles.sum / 3
  let sum2R := (radius.map (fun x => x * x)).sum
  let sum2A := (angles.map (fun x => x * x)).sum / 3
  let n := radius.length
  let stdA := calcStd sum2A sumA n
  ⟨![sumR / (n + 1 / 10 ^ 15), 0, 0, 0], ![calcStd sum2R sumR n, stdA, stdA, stdA]⟩

/-- `normalize`, preprocess.py 537-571, one row. -/
noncomputable def normalizeRow (davg dstd : Fin 4 → ℝ) (row : Fin 4 → ℝ) : Fin 4 → ℝ :=
  fun i => (row i - davg i) / dstd i

/-- `normalize_derivative`, preprocess.py 574-600, one block. -/
noncomputable def normalizeDeriv (dstd : Fin 4 → ℝ) (b : Matrix (Fin 4) (Fin 3) ℝ) :
    Matrix (Fin 4) (Fin 3) ℝ :=
  fun i j => b i j / dstd i

/-- `np.concatenate(blocks, axis=1)`: refuses an empty list and different numbers of rows. -/
def concatAxis1 {α : Type} (blocks : List (List (List α))) : Except PyErr (List (List α)) :=
  match blocks with
  | [] => .error .valueError
  | b :: bs =>
    if bs.any (fun c => c.length ≠ b.length) then .error .valueError
    else .ok (bs.foldl (List.zipWith (· ++ ·)) b)

/-- A `TildeRNormalizer`, preprocess.py 27-77: one average and one deviation per centre element. -/
structure Normalizer where
  rcut : ℝ
  rs : ℝ
  centres : List ℕ
  nbrs : List ℕ
  widths : List ℤ
  davgs : List (Fin 4 → ℝ)
  dstds : List (Fin 4 → ℝ)

/-- The assertions of the constructor, preprocess.py 74-77. -/
def mkNormalizer (rcut rs : ℝ) (centres nbrs : List ℕ) (widths : List ℤ)
    (davgs dstds : List (Fin 4 → ℝ)) : Except PyErr Normalizer :=
  if davgs.length ≠ centres.length ∨ dstds.length ≠ centres.length then .error .assertionError
  else .ok ⟨rcut, rs, centres, nbrs, widths, davgs, dstds⟩

/-- A normalised block and its scaled derivatives. -/
abbrev NormBlock := List (List (Fin 4 → ℝ)) × List (List (Matrix (Fin 4) (Fin 3) ℝ))

/-- One pass of the double loop of `_normalize`, preprocess.py 303-333. -/
noncomputable def Normalizer.block (N : Normalizer) (table : List (List NbrEntry)) (cz ci nz ni : ℕ) :
    Except PyErr NormBlock := do
  let arr ← pairTildeR N.rcut N.rs table cz nz
  let width ← pyGet N.widths ni
  let r ← padWidth 0 arr width
  let d ← calcDerivative N.rcut N.rs table cz nz width
  let davg ← pyGet N.davgs ci
  let dstd ← pyGet N.dstds ci
  return (r.map (List.map (normalizeRow davg dstd)), d.map (List.map (normalizeDeriv dstd)))

/-- `_normalize`, preprocess.py 265-335, on the neighbour table of the structure: the two
dictionaries as one list of items. The key `"{c}_{n}"` is the pair of numbers. -/
noncomputable def Normalizer.normalizeDict (N : Normalizer) (table : List (List NbrEntry)) :
    Except PyErr (List ((ℕ × ℕ) × NormBlock)) := do
  let items ← N.centres.zipIdx.mapM (fun (cz, ci) => N.nbrs.zipIdx.mapM (fun (nz, ni) => do
    let b ← N.block table cz ci nz ni
    return ((cz, nz), b)))
  return items.flatten

/-- `normalize`, preprocess.py 338-379. Both loops run over the centre elements. The blocks of
different centre elements always have the same width, so the second `np.concatenate` only refuses
an empty list. -/
noncomputable def Normalizer.normalize (N : Normalizer) (table : List (List NbrEntry)) :
    Except PyErr NormBlock := do
  let dict ← N.normalizeDict table
  let parts ← N.centres.mapM (fun cz => do
    let blocks ← N.centres.mapM (fun nz => pyDictGet dict (cz, nz))
    let r ← concatAxis1 (blocks.map Prod.fst)
    let d ← concatAxis1 (blocks.map Prod.snd)
    return (r, d))
  if parts.isEmpty then .error .valueError
  else return ((parts.map Prod.fst).flatten, (parts.map Prod.snd).flatten)

end MaterSDK
