import Verif.Model.Dataset

/-! # Numbered folder names -/

namespace MaterSDK

/-- Name number `k` of the list (from 0) is the prefix followed by `k` in decimal, filled up with zeros to
three digits: at least three digits, which read as `k`, and no leading zero if there are more. -/
def Numbered (pre : Str) (names : List Str) : Prop :=
  ∀ (k : ℕ) nm, names[k]? = some nm → ∃ ds, nm = pre ++ ds ∧ 3 ≤ ds.length ∧
    parseInt ds = .ok (k : ℤ) ∧ (3 < ds.length → ds.head? ≠ some '0')

end MaterSDK
