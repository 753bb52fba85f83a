import Verif.Model.TildeRHeap

/-!
# `TildeR` objects as values

What a program should see if `TildeR` objects were plain values: no heap, no addresses.
-/

namespace MaterSDK

variable {α : Type}

/-- The value numbered `x`, if it was constructed and not destroyed. -/
def poolGet (pool : List (Option (TildeVal α))) (x : ℕ) : Except CErr (TildeVal α) :=
  match pool[x]? with
  | some (some v) => .ok v
  | _ => .error .undefined

/-- One statement on values.  `self` is what `x = x` does to the value of `x` and `copyFits` says
which values the copy constructor can copy: the identity and all of them, for plain values. -/
def tildeValStep (d : α) (self : TildeVal α → TildeVal α) (copyFits : TildeVal α → Bool)
    (pool : List (Option (TildeVal α))) : TildeOp α → Except CErr (List (Option (TildeVal α)))
  | .dflt => .ok (pool ++ [some ⟨d, [], [], [], []⟩])
  | .make a c ca n na =>
    if ca.length = c.length ∧ na.length = n.length then .ok (pool ++ [some ⟨a, c, ca, n, na⟩])
    else .error .exception
  | .copy y => do
    let v ← poolGet pool y
    if copyFits v then return pool ++ [some v] else .error .outOfBounds
  | .assign x y => do
    let _ ← poolGet pool x
    let v ← poolGet pool y
    return pool.set x (some (if x = y then self v else v))
  | .destroy x => do
    let _ ← poolGet pool x
    return pool.set x none

/-- A program on values. -/
def tildeValRun (d : α) (self : TildeVal α → TildeVal α) (copyFits : TildeVal α → Bool)
    (ops : List (TildeOp α)) : Except CErr (List (Option (TildeVal α))) :=
  ops.foldlM (tildeValStep d self copyFits) []

/-- What `x = x` leaves: no types, and a neighbour list assigned to itself. -/
def tildeWrecked (wreck : α → α) (v : TildeVal α) : TildeVal α := ⟨wreck v.nbr, [], [], [], []⟩

/-- At most one centre type and at most one neighbour type. -/
def oneType (v : TildeVal α) : Bool := decide (v.c.length ≤ 1 ∧ v.n.length ≤ 1)

/-- The statement is not `x = x`. -/
def TildeOp.notSelf : TildeOp α → Prop
  | .assign x y => x ≠ y
  | _ => True

/-- The statement does not call the copy constructor. -/
def TildeOp.notCopy : TildeOp α → Prop
  | .copy _ => False
  | _ => True

/-- A constructor gets centre types if and only if it gets neighbour types. -/
def TildeOp.balanced : TildeOp α → Prop
  | .make _ c _ n _ => c = [] ↔ n = []
  | _ => True

/-- A constructor gets types. -/
def TildeOp.typed : TildeOp α → Prop
  | .make _ c _ n _ => c ≠ [] ∧ n ≠ []
  | _ => True

/-- The number of arrays which the living objects need: four for each with types. -/
def shownInts (pool : List (Option (TildeVal α))) : ℕ :=
  4 * pool.countP fun o => o.any fun v => !v.c.isEmpty

/-- The arrays which a statement allocates and nobody will free: the four of an object without types
made by a constructor with arguments or by the copy constructor. -/
def tildeWaste (pool : List (Option (TildeVal α))) : TildeOp α → ℕ
  | .make _ c _ _ _ => if c = [] then 4 else 0
  | .copy y =>
    match pool[y]? with
    | some (some v) => if v.c = [] then 4 else 0
    | _ => 0
  | _ => 0

/-- A program on values together with the arrays it loses. -/
def tildeWasteRun (d : α) (self : TildeVal α → TildeVal α) (copyFits : TildeVal α → Bool)
    (ops : List (TildeOp α)) : Except CErr (List (Option (TildeVal α)) × ℕ) :=
  ops.foldlM (fun pw op => do
    let p ← tildeValStep d self copyFits pw.1 op
    return (p, pw.2 + tildeWaste pw.1 op)) ([], 0)

end MaterSDK
