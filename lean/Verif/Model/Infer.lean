import Verif.Model.DeepMD

/-!
# Input of the DeepPot-SE inference

Model of `/repo/matersdk/infer/pwmatmlff/deepmd/preprocess.py` 11-116, of `DpInfer._preprocess`
(`inference.py` 82-113) and of `get_nbrs_indices` (`/repo/matersdk/io/publicLayer/neigh.py` 214-255).

Simplifications.
* The simplifications of `Model/Neigh.lean` and `Model/DeepMD.lean`; in particular
  `reformat_mark=True` and `coords_are_cartesian=True` (the defaults).
* `np.expand_dims(.., axis=0)` and `np.repeat(.., 1, axis=0)` add an axis of length 1 in front; it is
  left out. The conversion to torch tensors is left out.
* The neighbour table is computed twice from the same arguments (once inside `normalize`); here once.
-/

namespace MaterSDK

open Classical

/-- `np.concatenate(parts, axis=0)` for arrays of two axes: refuses an empty list and rows of
different lengths. -/
def concatAxis0 {α : Type} (parts : List (List (List α))) : Except PyErr (List (List α)) :=
  if parts.isEmpty then .error .valueError
  else
    match parts.flatten with
    | [] => .ok []
    | r :: rs =>
      if rs.any (fun q => q.length ≠ r.length) then .error .valueError else .ok (r :: rs)

/-- The double loop of `expand_rc` and `get_nbrs_indices`: one block per pair of elements, the blocks
of one centre element side by side, the centre elements one below the other. -/
def assemble {α : Type} (block : ℕ → ℕ → ℤ → Except PyErr (List (List α))) (centres nbrs : List ℕ)
    (widths : List ℤ) : Except PyErr (List (List α)) := do
  let parts ← centres.mapM (fun cz => do
    let blocks ← nbrs.zipIdx.mapM (fun (nz, i) => do
      let width ← pyGet widths i
      block cz nz width)
    concatAxis1 blocks)
  concatAxis0 parts

/-- `_get_nbrs_indices` with the width of one neighbour element. `np.zeros` refuses a negative width.
For an element without atoms the list is an array of one axis unless it is padded, and
`np.concatenate(.., axis=1)` refuses it (`AxisError`, a `ValueError`). -/
noncomputable def indexBlock (s : Struct ℝ) (table : List (List NbrEntry)) (cz nz : ℕ) (width : ℤ) :
    Except PyErr (List (List ℕ)) := do
  let rows ← nbrsIndices s table cz nz (if width < 0 then 0 else width.toNat)
  if width < 0 then .error .valueError
  else if width = 0 ∧ rows = [] then .error .valueError
  else return rows

/-- `get_nbrs_indices`, neigh.py 214-255. -/
noncomputable def nbrsIndicesAll (s : Struct ℝ) (table : List (List NbrEntry)) (centres nbrs : List ℕ)
    (widths : List ℤ) : Except PyErr (List (List ℕ)) :=
  assemble (indexBlock s table) centres nbrs widths

/-- `InferPreprocessor.expand_rc`, preprocess.py 75-90. -/
noncomputable def expandRcAll (table : List (List NbrEntry)) (centres nbrs : List ℕ)
    (widths : List ℤ) : Except PyErr (List (List (Vec ℝ))) :=
  assemble (expandRc table) centres nbrs widths

/-- The five arrays handed to the network, inference.py 97-113. -/
structure InferInput where
  rc : List (List (Vec ℝ))
  tildeR : List (List (Fin 4 → ℝ))
  tildeRDeriv : List (List (Matrix (Fin 4) (Fin 3) ℝ))
  listNeigh : List (List ℕ)
  natoms : List ℕ

/-- `DpInfer._preprocess`, inference.py 82-113, with the constructor of `InferPreprocessor`
(preprocess.py 46-72) and its methods (75-116). -/
noncomputable def inferPreprocess (A : ArgSort) (s : Struct ℝ) (rcut rs : ℝ) (sc : Fin 3 → ℤ)
    (davgs dstds : List (Fin 4 → ℝ)) (centres nbrs : List ℕ) (widths : List ℤ) :
    Except PyErr InferInput := do
  let table ← neighborTable A s rcut sc
  let N ← mkNormalizer rcut rs centres nbrs widths davgs dstds
  let rc ← expandRcAll table centres nbrs widths
  let r ← N.normalize table
  let l ← nbrsIndicesAll s table centres nbrs widths
  return ⟨rc, r.1, r.2, l, s.getNatoms []⟩

end MaterSDK
