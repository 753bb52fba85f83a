import Verif.Model.MtpRadial

/-! # Specification vocabulary for the moment tensor potentials -/

namespace MaterSDK

/-- The number backpropagation differentiates: the sum of all outputs, each weighted with its
coefficient. -/
def weightedSum (coeff out : List (List ℝ)) : ℝ :=
  (List.zipWith (fun g o => (List.zipWith (fun a b => a * b) g o).sum) coeff out).sum

end MaterSDK
