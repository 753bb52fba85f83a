import Verif.Spec.Neigh

/-! # The crystal a structure stands for -/

namespace MaterSDK

/-- All atoms of the infinite crystal: element and position. -/
def crystal (s : Struct ℝ) : Set (ℕ × Vec ℝ) :=
  {x | ∃ t ∈ s.sites, ∃ n : Fin 3 → ℤ, x = (t.z, t.pos + ∑ i, (n i : ℝ) • s.lattice i)}

/-- The supercell with factors `2 m + 1` reaches at least `r` beyond every atom: `r` plus the distance
of any two atoms, measured between lattice planes, is less than `m + 1` plane distances. For atoms
stored inside the cell it suffices that `r` is at most `m` plane distances. -/
def Reaches (s : Struct ℝ) (m : Fin 3 → ℕ) (r : ℝ) : Prop :=
  ∀ c ∈ s.sites, ∀ t ∈ s.sites, ∃ f : Vec ℝ, t.pos - c.pos = ∑ i, f i • s.lattice i ∧
    ∀ i, r + |f i| * planeDist s.lattice i < ((m i : ℝ) + 1) * planeDist s.lattice i

end MaterSDK
