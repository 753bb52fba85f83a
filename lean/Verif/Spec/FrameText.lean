import Verif.Spec.Text

/-! # Specifications for the text of one frame -/

namespace MaterSDK

/-- The digits `ds`, directly followed by the text `r`, announce a number of atoms: `r` begins with a
blank and the word `atoms` in any case. -/
def AtomsPhrase (ds r : Str) : Prop :=
  ds ≠ [] ∧ (∀ c ∈ ds, c.isDigit = true) ∧ (r.take 6).map Char.toUpper = (chars% " ATOMS")

/-- `ds` is the first such announcement in `text`. -/
def FirstAtomsPhrase (text ds : Str) : Prop :=
  ∃ pre r, text = pre ++ (ds ++ r) ∧ AtomsPhrase ds r ∧
    ∀ pre' ds' r', text = pre' ++ (ds' ++ r') → AtomsPhrase ds' r' → pre.length ≤ pre'.length

/-- The text announces no number of atoms. -/
def NoAtomsPhrase (text : Str) : Prop :=
  ∀ pre ds r, text = pre ++ (ds ++ r) → ¬ AtomsPhrase ds r

/-- The `n` rows after row `l` (fewer if the text ends before). -/
def nextRows (rows : List Str) (l n : Nat) : List Str := (rows.drop (l + 1)).take n

end MaterSDK
