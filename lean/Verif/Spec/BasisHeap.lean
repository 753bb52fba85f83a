import Verif.Model.BasisHeap

/-!
# Radial basis objects as values

What a program should see if the objects of `Model/BasisHeap` were plain values: no heap, no
addresses.
-/

namespace MaterSDK

variable {α γ δ : Type}

/-- How a class computes its rows: the distances `build` accepts and the rows it stores. -/
structure BasisRule (α γ δ : Type) where
  dom : α → δ → Bool
  row : α → δ → ℕ → γ

/-- The value numbered `x`, if it was constructed and not destroyed. -/
def basisGet (pool : List (Option (BasisVal α γ))) (x : ℕ) : Except CErr (BasisVal α γ) :=
  match pool[x]? with
  | some (some v) => .ok v
  | _ => .error .undefined

/-- One statement on values.  `z` are the cutoffs of an empty object and `zero` is a row of zeros. -/
def basisValStep (z : α) (zero : γ) (B : BasisRule α γ δ) (pool : List (Option (BasisVal α γ))) :
    BasisOp α δ → Except CErr (List (Option (BasisVal α γ)))
  | .dflt => .ok (pool ++ [some ⟨z, []⟩])
  | .make a n => .ok (pool ++ [some ⟨a, List.replicate n zero⟩])
  | .copy y => do
    let v ← basisGet pool y
    return pool ++ [some v]
  | .move y => do
    let v ← basisGet pool y
    return pool.set y (some ⟨z, []⟩) ++ [some v]
  | .assign x y => do
    let _ ← basisGet pool x
    let v ← basisGet pool y
    return pool.set x (some v)
  | .moveAssign x y => do
    let _ ← basisGet pool x
    let v ← basisGet pool y
    if x = y then return pool else return (pool.set x (some v)).set y (some ⟨z, []⟩)
  | .build x d => do
    let v ← basisGet pool x
    if B.dom v.par d then
      return pool.set x (some ⟨v.par, (List.range v.rows.length).map (B.row v.par d)⟩)
    else .error .assertFail
  | .destroy x => do
    let _ ← basisGet pool x
    return pool.set x none

/-- A program on values. -/
def basisValRun (z : α) (zero : γ) (B : BasisRule α γ δ) (ops : List (BasisOp α δ)) :
    Except CErr (List (Option (BasisVal α γ))) :=
  ops.foldlM (basisValStep z zero B) []

/-- What a program is allowed to do with objects without rows (default constructed, moved from, or
made with size 0): default construction, construction with size 0, copying one, assigning one to an
object with rows, assigning one to another, moving from one, calling `build` for one. -/
structure BasisGuard where
  dflt : Bool
  make0 : Bool
  copy0 : Bool
  assign0 : Bool
  assign00 : Bool
  move0 : Bool
  build0 : Bool

/-- The object numbered `x` exists and has no rows. -/
def noRows (pool : List (Option (BasisVal α γ))) (x : ℕ) : Bool :=
  match pool[x]? with
  | some (some v) => v.rows.isEmpty
  | _ => false

/-- The statement is not `x = x` and respects the guard. -/
def basisAllowed (g : BasisGuard) (pool : List (Option (BasisVal α γ))) : BasisOp α δ → Bool
  | .dflt => g.dflt
  | .make _ n => g.make0 || n != 0
  | .copy y => g.copy0 || !noRows pool y
  | .move y => g.move0 || !noRows pool y
  | .assign x y => x != y && ((if noRows pool x then g.assign00 else g.assign0) || !noRows pool y)
  | .moveAssign _ y => g.move0 || !noRows pool y
  | .build x _ => g.build0 || !noRows pool x
  | .destroy _ => true

/-- Every statement of the program is allowed at the time it is reached. -/
def basisAvoids (z : α) (zero : γ) (B : BasisRule α γ δ) (g : BasisGuard) :
    List (Option (BasisVal α γ)) → List (BasisOp α δ) → Prop
  | _, [] => True
  | pool, op :: ops => basisAllowed g pool op = true ∧
      ∀ pool', basisValStep z zero B pool op = .ok pool' → basisAvoids z zero B g pool' ops

/-- The number of living objects with rows. -/
def withRows (pool : List (Option (BasisVal α γ))) : ℕ :=
  pool.countP fun o => o.any fun v => !v.rows.isEmpty

/-- The rows of `RB_Chebyshev` and `ChebyshevPoly`. -/
def BasisFill.poly (F : BasisFill α γ δ) : BasisRule α γ δ := ⟨F.dom, fun a d ii => F.row a a d ii⟩

/-- The rows of `RQ_Chebyshev` and `MtpQ`. -/
def BasisFill.full (F : BasisFill α γ δ) : BasisRule α γ δ :=
  ⟨F.dom, fun a d ii => F.out a d (F.row a a d ii)⟩

end MaterSDK
