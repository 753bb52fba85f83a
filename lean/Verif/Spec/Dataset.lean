import Verif.Model.Dataset

/-! # Specification of data sets cut into parts -/

namespace MaterSDK

/-- `parts` is `l` cut into consecutive pieces of `p` rows, the last one possibly shorter, none
empty. -/
structure Chunks {α : Type} (p : Nat) (l : List α) (parts : List (List α)) : Prop where
  whole : parts.flatten = l
  nonempty : ∀ c ∈ parts, c ≠ []
  bounded : ∀ c ∈ parts, c.length ≤ p
  full : ∀ c ∈ parts.dropLast, c.length = p

/-- What a group made of the given sets contains. -/
structure IsGroup (f : Str) (members : List InfoSet) (g : InfoSet) : Prop where
  formula : g.formula = f
  box : g.box = (members.map InfoSet.box).flatten
  types : g.types = (members.map InfoSet.types).flatten
  coord : g.coord = (members.map InfoSet.coord).flatten
  etot : g.etot = (members.map InfoSet.etot).flatten
  fatom : g.fatom = (members.map InfoSet.fatom).flatten
  numFrames : g.numFrames = (members.map InfoSet.numFrames).sum
  virial : (∀ vs : List (List (List ℚ)), members.map InfoSet.virial = vs.map some →
      g.virial = some vs.flatten) ∧ ((∃ s ∈ members, s.virial = none) → g.virial = none)
  eatom : (∀ vs : List (List (List ℚ)), members.map InfoSet.eatom = vs.map some →
      g.eatom = some vs.flatten) ∧ ((∃ s ∈ members, s.eatom = none) → g.eatom = none)

end MaterSDK
