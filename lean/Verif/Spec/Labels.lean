import Verif.Model.CellListD

/-! # Vocabulary for `Props/Labels.lean` -/

namespace MaterSDK

/-- The same atoms under other element numbers. -/
def relabel (f : ℤ → ℤ) (atoms : List (ℤ × Vec ℝ)) : List (ℤ × Vec ℝ) := atoms.map (fun a => (f a.1, a.2))

end MaterSDK
