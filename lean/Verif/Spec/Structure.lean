import Verif.Model.Structure

/-! # Specification vocabulary for structures -/

namespace MaterSDK

/-- `p` is a periodic image of `q` up to `1e-10` in each lattice coefficient. -/
def NearImage {K : Type} [Field K] [LinearOrder K] (L : Matrix (Fin 3) (Fin 3) K) (p q : Vec K) :
    Prop :=
  ∃ (n : Fin 3 → ℤ) (e : Fin 3 → K), (∀ i, |e i| ≤ 1 / 10 ^ 10) ∧
    p = q + ∑ i, ((n i : K) + e i) • L i

/-- What a user can see of a site: element and position. -/
def Site.seen {K : Type} (t : Site K) : Nat × Vec K := (t.z, t.pos)

end MaterSDK
