import Verif.Spec.EnvMatrix

/-! # Vocabulary for `Props/Se4pwEnv.lean` -/

namespace MaterSDK

/-- `rel` holds the relative positions that belong to the positions `x`: for every centre and every
neighbour listed for it (rows of `w` entries), the position of the neighbour minus that of the centre. -/
def RelOf (n : ℕ) (ilist numneigh firstneigh : List ℤ) (w : ℕ) (x rel : List ℝ) : Prop :=
  ∀ ii < n, ∃ (i : ℕ) (c : Vec ℝ), ilist[ii]? = some (i : ℤ) ∧ StoredAt x i c ∧
    ∀ m : ℤ, numneigh[ii]? = some m → ∀ jj : ℕ, (jj : ℤ) < m → ∀ nb : ℕ,
      firstneigh[ii * w + jj]? = some (nb : ℤ) →
        ∃ q : Vec ℝ, StoredAt x nb q ∧ StoredAt rel (ii * w + jj) (q - c)

end MaterSDK
