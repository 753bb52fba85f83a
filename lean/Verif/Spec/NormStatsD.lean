import Mathlib.Data.Real.Basic

/-! # Mean and mean square of samples -/

namespace MaterSDK

/-- The samples of one component of the rows: the weights, or all angular entries together. -/
def compSamples (rows : List (Fin 4 → ℝ)) (q : Fin 4) : List ℝ :=
  if q = 0 then rows.map (fun v => v 0) else rows.flatMap (fun v => [v 1, v 2, v 3])

noncomputable def mean (xs : List ℝ) : ℝ := xs.sum / xs.length

noncomputable def meanSq (xs : List ℝ) : ℝ := (xs.map (fun x => x ^ 2)).sum / xs.length

end MaterSDK
