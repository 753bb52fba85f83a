import Verif.Model.Kpoints

/-! # Words used in the statements on k-points -/

namespace MaterSDK

/-- The k-point of a row of IN.KPT: the first three words are numbers. -/
def RowKpt (row : Str) (k : Vec ℝ) : Prop :=
  ∃ a b c rest, ∃ x y z : ℚ, split row = a :: b :: c :: rest ∧ parseFloat a = .ok x ∧
    parseFloat b = .ok y ∧ parseFloat c = .ok z ∧ k = ![(x : ℝ), (y : ℝ), (z : ℝ)]

/-- A row of IN.KPT with a label: a fifth word. -/
def Labelled (row : Str) : Prop := (split row).length = 5

/-- The rows of `b` are the reciprocal vectors of the rows of `lat`. -/
def IsReciprocal (lat b : Matrix (Fin 3) (Fin 3) ℝ) : Prop :=
  lat * b.transpose = (2 * Real.pi) • (1 : Matrix (Fin 3) (Fin 3) ℝ)

/-- The rows of `b` are the reciprocal vectors of the rows of `lat`, without the factor 2π. -/
def IsReciprocalCryst (lat b : Matrix (Fin 3) (Fin 3) ℝ) : Prop := lat * b.transpose = 1

/-- Coordinates of the atoms of `s` along Cartesian axis `i` all lie within a range of length `w`. -/
def WithinRange (s : Struct ℝ) (i : Fin 3) (w : ℝ) : Prop :=
  ∀ t ∈ s.sites, ∀ u ∈ s.sites, t.pos i - u.pos i < w

/-- `xs` and `ys` are neighbours in a list, in this order. -/
def Step {α : Type} (l : List α) (x y : α) : Prop := ∃ i : ℕ, l[i]? = some x ∧ l[i + 1]? = some y

end MaterSDK
