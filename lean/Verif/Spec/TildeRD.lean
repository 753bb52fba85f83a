import Verif.Spec.Se4pwD
import Verif.Model.TildeR

/-! # Vocabulary for `Props/TildeRD.lean` -/

namespace MaterSDK

/-- `P` holds for the position of every centre in the arrays and that of each of its listed neighbours. -/
def LmpPairs (p : LmpIn) (P : Vec ℝ → Vec ℝ → Prop) : Prop :=
  ∀ ii : ℕ, (ii : ℤ) < p.inum → ∀ (i : ℕ) (c : Vec ℝ), p.ilist[ii]? = some (i : ℤ) → p.x[i]? = some c →
    ∀ m : ℤ, p.numneigh[ii]? = some m → ∀ fl, p.firstneigh[ii]? = some fl → ∀ jj : ℕ, (jj : ℤ) < m →
      ∀ (nb : ℕ) (q : Vec ℝ), fl[jj]? = some (nb : ℤ) → p.x[nb]? = some q → P c q

end MaterSDK
