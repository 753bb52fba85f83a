import Verif.Model.DeepMDD

/-!
# The normaliser in doubles

`TildeRPairNormalizer.normalize`, `normalize_derivative` and `TildeRNormalizer.normalize` of
`/repo/matersdk/feature/deepmd/preprocess.py` once more, with every floating point operation followed by a rounding `R`.
The averages and deviations are given (those of `calc_stats`, or of a file). `R := id` gives back the definitions of
`DeepMD.lean` (`Lemmas/DeepMDNormD.lean`).

Simplifications: as in `Verif/Model/DeepMDD.lean`.
-/

namespace MaterSDK

variable (R : ℝ → ℝ)

/-- `normalize`, preprocess.py 537-571, one row. -/
noncomputable def normalizeRowD (davg dstd : Fin 4 → ℝ) (row : Fin 4 → ℝ) : Fin 4 → ℝ :=
  fun i => R (R (row i - davg i) / dstd i)

/-- `normalize_derivative`, preprocess.py 574-600, one block. -/
noncomputable def normalizeDerivD (dstd : Fin 4 → ℝ) (b : Matrix (Fin 4) (Fin 3) ℝ) :
    Matrix (Fin 4) (Fin 3) ℝ :=
  fun i j => R (b i j / dstd i)

/-- One pass of the double loop of `_normalize`, preprocess.py 303-333. -/
noncomputable def Normalizer.blockD (N : Normalizer) (table : List (List NbrEntry)) (cz ci nz ni : ℕ) :
    Except PyErr NormBlock := do
  let (w, rows) ← extractFeaturePairD R table cz nz
  let width ← pyGet N.widths ni
  let r ← padWidth 0 (w, rows.map (List.map (envRowPyD R N.rcut N.rs))) width
  let d ← calcDerivativeD R N.rcut N.rs table cz nz width
  let davg ← pyGet N.davgs ci
  let dstd ← pyGet N.dstds ci
  return (r.map (List.map (normalizeRowD R davg dstd)), d.map (List.map (normalizeDerivD R dstd)))

/-- The loops of `_normalize`, preprocess.py 302-335, for any way of computing a block. -/
def normalizeDictWith (centres nbrs : List ℕ) (block : ℕ → ℕ → ℕ → ℕ → Except PyErr NormBlock) :
    Except PyErr (List ((ℕ × ℕ) × NormBlock)) := do
  let items ← centres.zipIdx.mapM (fun (cz, ci) => nbrs.zipIdx.mapM (fun (nz, ni) => do
    let b ← block cz ci nz ni
    return ((cz, nz), b)))
  return items.flatten

/-- `normalize`, preprocess.py 338-379, for any way of computing a block. -/
def normalizeWith (centres nbrs : List ℕ) (block : ℕ → ℕ → ℕ → ℕ → Except PyErr NormBlock) :
    Except PyErr NormBlock := do
  let dict ← normalizeDictWith centres nbrs block
  let parts ← centres.mapM (fun cz => do
    let blocks ← centres.mapM (fun nz => pyDictGet dict (cz, nz))
    let r ← concatAxis1 (blocks.map Prod.fst)
    let d ← concatAxis1 (blocks.map Prod.snd)
    return (r, d))
  if parts.isEmpty then .error .valueError
  else return ((parts.map Prod.fst).flatten, (parts.map Prod.snd).flatten)

/-- `normalize`, preprocess.py 338-379, in doubles, on the neighbour table of the structure. -/
noncomputable def Normalizer.normalizeD (N : Normalizer) (table : List (List NbrEntry)) :
    Except PyErr NormBlock :=
  normalizeWith N.centres N.nbrs (N.blockD R table)

end MaterSDK
