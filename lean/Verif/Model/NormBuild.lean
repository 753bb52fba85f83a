import Verif.Model.DeepMD

/-!
# Making a normaliser from a labelled system

Model of `/repo/matersdk/feature/deepmd/preprocess.py` 103-164 (`TildeRNormalizer.calc_stats`), 217-256
(`from_dp_labeled_system`) and 620-699 (`concat_tildeRs4calc_stats`) on the structures of the system, with
the list of indices.

Simplifications. The system is its list of structures. The constructor keeps the statistics as they are.
-/

namespace MaterSDK

/-- The body of the loop over the structures, preprocess.py 668-693, on the neighbour table. -/
noncomputable def frameTildeR (rcut rs : ℝ) (table : List (List NbrEntry)) (cz : ℕ) (nbrs : List ℕ)
    (widths : List ℤ) : Except PyErr (List (List (Fin 4 → ℝ))) := do
  let blocks ← nbrs.zipIdx.mapM (fun (nz, i) => do
    let arr ← pairTildeR rcut rs table cz nz
    let width ← pyGet widths i
    padWidth 0 arr width)
  concatAxis1 blocks

/-- `concat_tildeRs4calc_stats`, preprocess.py 658-699. -/
noncomputable def systemTildeR (A : ArgSort) (structures : List (Struct ℝ)) (indices : List ℤ)
    (rcut rs : ℝ) (sc : Fin 3 → ℤ) (cz : ℕ) (nbrs : List ℕ) (widths : List ℤ) :
    Except PyErr (List (List (Fin 4 → ℝ))) := do
  let chosen ← indices.mapM (pyGetI structures)
  let frames ← chosen.mapM (fun s => do
    let table ← neighborTable A s rcut sc
    frameTildeR rcut rs table cz nbrs widths)
  concatAxis1 frames

/-- `calc_stats`, preprocess.py 103-164, as called by `from_dp_labeled_system`, 236-245: the averages and
deviations of the new normaliser, one per centre element. -/
noncomputable def systemStats (A : ArgSort) (structures : List (Struct ℝ)) (indices : List ℤ)
    (rcut rs : ℝ) (sc : Fin 3 → ℤ) (centres nbrs : List ℕ) (widths : List ℤ) :
    Except PyErr (List PairStats) := do
  let stats ← centres.mapM (fun cz => do
    let rows ← systemTildeR A structures indices rcut rs sc cz nbrs widths
    return calcPairStats rows.flatten)
  if stats.isEmpty then .error .valueError else return stats

end MaterSDK
