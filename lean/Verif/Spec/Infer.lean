import Verif.Spec.Neigh

/-! # Words of the specification: input of the inference -/

namespace MaterSDK

/-- The atoms of the listed elements, element by element, in the order of the structure. -/
def centresOf (s : Struct ℝ) (els : List ℕ) : List (Site ℝ) :=
  els.flatMap (fun e => s.sites.filter (fun t => t.z = e))

/-- The entry of an array in row `a` and column `j`, if there is one. -/
def cellAt {α : Type} (arr : List (List α)) (a j : ℕ) : Option α := arr[a]?.bind (fun row => row[j]?)

/-- `p` is the position of `t`, moved by a lattice vector of the structure. -/
def IsImage (s : Struct ℝ) (p : Vec ℝ) (t : Site ℝ) : Prop :=
  ∃ n : Fin 3 → ℤ, p = t.pos + ∑ a, (n a : ℝ) • s.lattice a

end MaterSDK
