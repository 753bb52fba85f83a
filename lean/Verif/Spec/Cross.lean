import Verif.Spec.EnvMatrix

/-! # Specification vocabulary for comparing the Python and the C++ environment matrices -/

namespace MaterSDK

/-- The atoms of a structure as the C++ code receives them: the place of the element in the list of
elements, and the position. -/
def typedAtoms (els : List ℕ) (s : Struct ℝ) : List (ℤ × Vec ℝ) :=
  s.sites.map (fun t => (((els.idxOf t.z : ℕ) : ℤ), t.pos))

/-- The slots of type `k` among the slots of one centre. -/
def typeSlots {α : Type} (umax : List ℕ) (k : ℕ) (row : List α) : List α :=
  (row.drop (umax.take k).sum).take (umax[k]?.getD 0)

/-- No atom of the crystal is exactly `r` away from an atom of the cell. -/
def NoneAt (s : Struct ℝ) (r : ℝ) : Prop :=
  ∀ c ∈ s.sites, ∀ t ∈ s.sites, ∀ n : Fin 3 → ℤ, dist3 (imagePos s.lattice t.pos n) c.pos ≠ r

/-- No atom has more neighbours of an element closer than `r` than there are slots for the element. -/
def SlotsSuffice (els : List ℕ) (umax : List ℕ) (s : Struct ℝ) (r : ℝ) : Prop :=
  ∀ (i : ℕ) (c : Site ℝ), s.sites[i]? = some c → ∀ (k nz w : ℕ), els[k]? = some nz → umax[k]? = some w →
    ∀ l : List (ℕ × (Fin 3 → ℤ)), l.Nodup →
      (∀ e ∈ l, e ≠ (i, 0) ∧ ∃ t, s.sites[e.1]? = some t ∧ t.z = nz ∧
        dist3 (imagePos s.lattice t.pos e.2) c.pos < r) → l.length ≤ w

/-- Two different neighbours of an atom that are of the same element and closer than `r` are at different
distances. -/
def NoTies (s : Struct ℝ) (r : ℝ) : Prop :=
  ∀ c ∈ s.sites, ∀ t ∈ s.sites, ∀ u ∈ s.sites, ∀ n k : Fin 3 → ℤ, t.z = u.z →
    dist3 (imagePos s.lattice t.pos n) c.pos < r →
    dist3 (imagePos s.lattice t.pos n) c.pos = dist3 (imagePos s.lattice u.pos k) c.pos →
    imagePos s.lattice t.pos n = imagePos s.lattice u.pos k

end MaterSDK
