import Verif.Spec.BasisHeap

/-! # Values of radial basis objects which `x = x` changes -/

namespace MaterSDK

variable {α γ δ : Type}

/-- One statement on values, if `x = x` replaces the value `v` of `x` by `lose v`. All other statements are
as in `basisValStep`. -/
def basisValStepSelf (lose : BasisVal α γ → BasisVal α γ) (z : α) (zero : γ) (B : BasisRule α γ δ)
    (pool : List (Option (BasisVal α γ))) (op : BasisOp α δ) :
    Except CErr (List (Option (BasisVal α γ))) :=
  match op with
  | .assign x y =>
    if x = y then do
      let v ← basisGet pool x
      return pool.set x (some (lose v))
    else basisValStep z zero B pool (.assign x y)
  | op => basisValStep z zero B pool op

/-- A program on such values. -/
def basisValRunSelf (lose : BasisVal α γ → BasisVal α γ) (z : α) (zero : γ) (B : BasisRule α γ δ)
    (ops : List (BasisOp α δ)) : Except CErr (List (Option (BasisVal α γ))) :=
  ops.foldlM (basisValStepSelf lose z zero B) []

end MaterSDK
