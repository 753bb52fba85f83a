import Verif.Spec.StructObj

/-! # Statements which lose arrays -/

namespace MaterSDK

/-- The number of statements `x.make_supercell(sc)` in which a factor is 0. -/
def zeroFactors {α β : Type} : List (ObjOp α β) → ℕ
  | [] => 0
  | .supercell _ sc :: ops => (if sc 0 = 0 ∨ sc 1 = 0 ∨ sc 2 = 0 then 1 else 0) + zeroFactors ops
  | _ :: ops => zeroFactors ops

end MaterSDK
