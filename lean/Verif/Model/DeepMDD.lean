import Verif.Model.DeepMD
import Verif.Model.NeighD
import Verif.Model.EnvMatrixD

/-!
# DeepPot-SE features in doubles

The functions of `Verif/Model/DeepMD.lean` that belong to one pair of elements once more, with every floating point
operation of `/repo/matersdk/feature/deepmd/premise.py` 80-149 and `se_pair.py` 141-497 followed by a rounding `R`;
`R := flR` is IEEE 754 double arithmetic, `R := id` gives back the definitions of `DeepMD.lean`
(`Lemmas/DeepMDD.lean`). The order of the operations is that of the source.

Simplifications: as in `Verif/Model/DeepMD.lean` and `Verif/Model/CellListD.lean` (no overflow and no underflow);
`np.power(x, n)` is the correctly rounded power.
-/

namespace MaterSDK

open Classical

variable (R : ℝ → ℝ)

/-- The masked part of one row, relative to the row's centre: premise.py 80-107, 127-149. -/
def pairEntriesD (row : List NbrEntry) (nz : ℕ) : List NbrEntry :=
  match row with
  | [] => []
  | c :: rest => (rest.filter (fun e => e.1 = nz)).map (fun e => (e.1, e.2.1, fun q => R (e.2.2 q - c.2.2 q)))

/-- `extract_feature_pair`, premise.py 59-152: width and rows. -/
def extractFeaturePairD (table : List (List NbrEntry)) (cz nz : ℕ) :
    Except PyErr (ℕ × List (List NbrEntry)) :=
  if table.isEmpty ∨ table.any List.isEmpty then .error .indexError
  else
    let counts := table.map (fun r => if centreIs cz r then (pairEntriesD R r nz).length else 0)
    let w := runningMax counts
    let rows := table.filter (centreIs cz)
    .ok (w, rows.map (fun r =>
      pairEntriesD R r nz ++ List.replicate (w - (pairEntriesD R r nz).length) zeroEntry))

/-- `_get_s`, se_pair.py 141-185, one entry. -/
noncomputable def getSD (rcut rs d : ℝ) : ℝ :=
  let x := scaledD R rcut rs d
  let scaled := R (recipD R d * polyD R x)
  if d > rs ∧ d < rcut then scaled else recipD R d

/-- One row of `_get_tildeR`, se_pair.py 188-241. -/
noncomputable def envRowPyD (rcut rs : ℝ) (e : NbrEntry) : Fin 4 → ℝ :=
  let s := getSD R rcut rs e.2.1
  let q := recipD R e.2.1
  ![s, R (R (s * q) * e.2.2 0), R (R (s * q) * e.2.2 1), R (R (s * q) * e.2.2 2)]

/-- `get_tildeR`, se_pair.py 68-138 and 244-262. -/
noncomputable def getTildeRD (rcut rs : ℝ) (table : List (List NbrEntry)) (cz nz : ℕ) (width : ℤ) :
    Except PyErr (List (List (Fin 4 → ℝ))) := do
  let (w, rows) ← extractFeaturePairD R table cz nz
  padWidth 0 (w, rows.map (List.map (envRowPyD R rcut rs))) width

/-- The polynomial of `dvv_mask_2`, se_pair.py 326-329, before the factor `duu`. -/
def dpolyPyD (uu : ℝ) : ℝ :=
  R (R (R (3 * R (uu ^ 2)) * R (R (R (-6 * R (uu ^ 2)) + R (15 * uu)) - 10)) +
    R (R (uu ^ 3) * R (R (-12 * uu) + 15)))

/-- `dvv`, se_pair.py 321-346. -/
noncomputable def dvvD (rcut rs d : ℝ) : ℝ :=
  if d < rs then 0 else R (dpolyPyD R (scaledD R rcut rs d) * R (1 / R (rcut - rs)))

/-- `vv`, se_pair.py 320-338. -/
noncomputable def vvD (rcut rs d : ℝ) : ℝ :=
  if d < rs then 1 else polyD R (scaledD R rcut rs d)

/-- Entry of the first row of a derivative block, se_pair.py 386-402. -/
def pyDerivD0 (q vv dvv x : ℝ) : ℝ :=
  R (R (R (vv * x) * R (q ^ 3)) - R (R (R (q * dvv) * x) * q))

/-- Entry of the other rows for two equal coordinates, se_pair.py 424-427, 447-450 and 470-473. -/
def pyDerivDD (q vv dvv x : ℝ) : ℝ :=
  R (R (vv * R (R (R (2 * R (x ^ 2)) * R (q ^ 4)) - R (q ^ 2))) -
    R (R (R (R (x * R (q ^ 2)) * dvv) * x) * q))

/-- Entry of the other rows for two different coordinates: `x` and `y` in the order of the first product, `a` the
coordinate of the row, `b` that of the column, se_pair.py 429-437, 442-445, 452-455 and 460-468. -/
def pyDerivDO (q vv dvv x y a b : ℝ) : ℝ :=
  R (R (vv * R (R (R (2 * x) * y) * R (q ^ 4))) -
    R (R (R (R (a * R (q ^ 2)) * dvv) * b) * q))

/-- One block of `_calc_derivative`, se_pair.py 308-475. -/
noncomputable def derivBlockD (rcut rs : ℝ) (e : NbrEntry) : Matrix (Fin 4) (Fin 3) ℝ :=
  let d := e.2.1
  let vv := vvD R rcut rs d
  let dvv := dvvD R rcut rs d
  let q := recipD R d
  let x := e.2.2 0
  let y := e.2.2 1
  let z := e.2.2 2
  !![pyDerivD0 R q vv dvv x, pyDerivD0 R q vv dvv y, pyDerivD0 R q vv dvv z;
     pyDerivDD R q vv dvv x, pyDerivDO R q vv dvv x y x y, pyDerivDO R q vv dvv x z x z;
     pyDerivDO R q vv dvv x y y x, pyDerivDD R q vv dvv y, pyDerivDO R q vv dvv y z y z;
     pyDerivDO R q vv dvv x z z x, pyDerivDO R q vv dvv y z z y, pyDerivDD R q vv dvv z]

/-- `calc_derivative`, se_pair.py 478-497. -/
noncomputable def calcDerivativeD (rcut rs : ℝ) (table : List (List NbrEntry)) (cz nz : ℕ)
    (width : ℤ) : Except PyErr (List (List (Matrix (Fin 4) (Fin 3) ℝ))) := do
  let (w, rows) ← extractFeaturePairD R table cz nz
  if width < 0 then .error .valueError
  else if R (rcut - rs) = 0 then .error .zeroDivision
  else padWidth 0 (w, rows.map (List.map (derivBlockD R rcut rs))) width

end MaterSDK
