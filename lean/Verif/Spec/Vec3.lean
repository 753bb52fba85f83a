import Verif.Model.Vec3

/-!
# What a program with vectors should do

Vectors are values. Every operation gives in each component the double nearest to the exact result,
and `x op= y` is `x = x op y`.
-/

namespace MaterSDK

/-- The vector a statement gives to its variable, from exact arithmetic. -/
def v3Exact (s : V3State) : V3Op → Option (ℕ × Vec ℚ)
  | .zero x => some (x, 0)
  | .make x a b c => some (x, ![a, b, c])
  | .pos x y => some (x, s y)
  | .neg x y => some (x, -s y)
  | .add x y z => some (x, fl ∘ (s y + s z))
  | .sub x y z => some (x, fl ∘ (s y - s z))
  | .addEq x y => some (x, fl ∘ (s x + s y))
  | .subEq x y => some (x, fl ∘ (s x - s y))
  | .scale x y a => some (x, fl ∘ (a • s y))
  | .scaleL x a y => some (x, fl ∘ (a • s y))
  | .scaleEq x a => some (x, fl ∘ (a • s x))
  | .scaleBy x i => some (x, fl ∘ ((if h : i.toNat < 3 then s x ⟨i.toNat, h⟩ else 0) • s x))
  | .div x y a => some (x, fl ∘ (a⁻¹ • s y))
  | .divEq x a => some (x, fl ∘ (a⁻¹ • s x))
  | .put x i a => some (x, fun k => if (k : ℕ) = i.toNat then a else s x k)
  | _ => none

/-- What a statement shows. -/
def v3Shown (s : V3State) : V3Op → List V3Out
  | .get x i => [.num (if h : i.toNat < 3 then s x ⟨i.toNat, h⟩ else 0)]
  | .eq x y => [.bool (decide (s x = s y))]
  | .ne x y => [.bool (decide (s x ≠ s y))]
  | _ => []

/-- The variables and the output after a program. -/
def v3Ref (s : V3State) : List V3Op → V3State × List V3Out
  | [] => (s, [])
  | op :: ops =>
    let s1 := match v3Exact s op with
      | some (x, v) => Function.update s x v
      | none => s
    let t := v3Ref s1 ops
    (t.1, v3Shown s op ++ t.2)

/-- The statement has an index only from 0 to 2. -/
def V3Op.indexOk : V3Op → Prop
  | .put _ i _ => 0 ≤ i ∧ i < 3
  | .get _ i => 0 ≤ i ∧ i < 3
  | .scaleBy _ i => 0 ≤ i ∧ i < 3
  | _ => True

/-- The statement divides only by powers of two, positive or negative. -/
def V3Op.divTwo : V3Op → Prop
  | .div _ _ a => ∃ k : ℤ, a = 2 ^ k ∨ a = -2 ^ k
  | .divEq _ a => ∃ k : ℤ, a = 2 ^ k ∨ a = -2 ^ k
  | _ => True

end MaterSDK
