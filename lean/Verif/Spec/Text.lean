import Verif.Py.Str

/-! # Specification vocabulary for text files -/

namespace MaterSDK

/-- `i` is the index of the first row whose upper-cased text contains `content`. -/
def FirstRow (rows : List Str) (content : Str) (i : Nat) : Prop :=
  (∃ row, rows[i]? = some row ∧ content <:+: row.map Char.toUpper) ∧
  ∀ j < i, ∀ row, rows[j]? = some row → ¬ content <:+: row.map Char.toUpper

/-- `i` is the index of the last such row. -/
def LastRow (rows : List Str) (content : Str) (i : Nat) : Prop :=
  (∃ row, rows[i]? = some row ∧ content <:+: row.map Char.toUpper) ∧
  ∀ j, i < j → ∀ row, rows[j]? = some row → ¬ content <:+: row.map Char.toUpper

/-- No row contains `content`. -/
def NoRow (rows : List Str) (content : Str) : Prop :=
  ∀ row ∈ rows, ¬ content <:+: row.map Char.toUpper

/-- The words `ws` are the texts of the numbers `qs`, one by one. -/
def ReadsAs (ws : List Str) (qs : List ℚ) : Prop :=
  List.Forall₂ (fun w q => parseFloat w = .ok q) ws qs

end MaterSDK
