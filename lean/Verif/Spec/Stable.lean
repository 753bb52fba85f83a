import Verif.Spec.CrossD
import Verif.Model.StructIO

/-! # Specification vocabulary for features of slightly different structures -/

namespace MaterSDK

/-- The atoms of the two structures have the same elements in the same order, and no coordinate of an image with
cell indices up to `m` differs by more than `ε`. -/
def Displaced (s s' : Struct ℝ) (m : Fin 3 → ℕ) (ε : ℝ) : Prop :=
  List.Forall₂ (fun t t' : Site ℝ => t'.z = t.z ∧ ∀ n : Fin 3 → ℤ, (∀ i, |n i| ≤ (m i : ℤ)) →
    ∀ p, |imagePos s'.lattice t'.pos n p - imagePos s.lattice t.pos n p| ≤ ε) s.sites s'.sites

/-- Change of an environment row: coordinates move by at most `ε`, atoms are at least `d` apart. -/
noncomputable def envMoveTol (ε rcut rs d : ℝ) : ℝ := 256 * ε * (1 / (rcut - rs) + 2 / d) / d

/-- Change of a derivative block. -/
noncomputable def derivMoveTol (ε rcut rs d : ℝ) : ℝ := 2048 * ε * (1 / (rcut - rs) + 2 / d) ^ 2 / d

/-- The rows and blocks of one centre: equal up to the order of the slots and the given tolerances. -/
def SlotsWithin (τ τ' : ℝ) (row row' : List (Fin 4 → ℝ) × List (Matrix (Fin 4) (Fin 3) ℝ)) : Prop :=
  ∃ slots, slots.Perm (row'.1.zip row'.2) ∧
    List.Forall₂ (fun (x y : (Fin 4 → ℝ) × Matrix (Fin 4) (Fin 3) ℝ) =>
      (∀ a, |x.1 a - y.1 a| ≤ τ) ∧ ∀ a b, |x.2 a b - y.2 a b| ≤ τ') (row.1.zip row.2) slots

/-- A triple as a vector. -/
noncomputable def Q3.vec (q : Q3) : Vec ℝ := ![(q.x : ℝ), (q.y : ℝ), (q.z : ℝ)]

/-- The structure as the feature code sees it: Cartesian positions, and elements numbered by `z`. -/
noncomputable def QStruct.cart (z : Str → ℕ) (q : QStruct) : Struct ℝ where
  lattice := ![q.a.vec, q.b.vec, q.c.vec]
  sites := q.sites.map (fun t => ⟨z t.specie,
    (t.frac.x : ℝ) • q.a.vec + (t.frac.y : ℝ) • q.b.vec + (t.frac.z : ℝ) • q.c.vec, none⟩)

end MaterSDK
