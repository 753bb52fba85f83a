import Verif.Model.StructObj

/-!
# Objects as values

What a program which copies, assigns and destroys objects should see if the objects were plain
values: no heap, no addresses.
-/

namespace MaterSDK

/-- The value of an object: for each level its scalar members and its arrays, if there are any. -/
abbrev ObjVal (α β : Type) := List (α × Option (Block β))

/-- The value numbered `x`, if it was constructed and not destroyed. -/
def valGet {τ : Type} (pool : List (Option τ)) (x : ℕ) : Except CErr τ :=
  match pool[x]? with
  | some (some v) => .ok v
  | _ => .error .undefined

/-- One statement on values.  `self` is what `x = x` does to the value of `x`; for plain values it
is the identity. -/
def valStep {α β : Type} (cls : ObjClass α β) (self : ObjVal α β → ObjVal α β)
    (pool : List (Option (ObjVal α β))) : ObjOp α β → Except CErr (List (Option (ObjVal α β)))
  | .dflt => .ok (pool ++ [some (List.replicate cls.depth (cls.d, none))])
  | .make vs =>
    if vs.length = cls.depth then .ok (pool ++ [some (vs.map fun v => (v.1, some (.val v.2)))])
    else .error .exception
  | .raw a =>
    if cls.depth = 1 then .ok (pool ++ [some [(a, some .uninit)]]) else .error .exception
  | .copy y => do
    let v ← valGet pool y
    return pool ++ [some v]
  | .assign x y => do
    let _ ← valGet pool x
    let v ← valGet pool y
    return pool.set x (some (if x = y then self v else v))
  | .destroy x => do
    let _ ← valGet pool x
    return pool.set x none
  | .supercell x sc => do
    let v ← valGet pool x
    match v with
    | [(_, none)] => .error .undefined
    | [(a, some c)] =>
      if sc 0 * sc 1 * sc 2 = 0 then .ok (pool.set x (some [(cls.d, none)]))
      else .ok (pool.set x (some [(a, some (c.map (cls.grow sc)))]))
    | _ => .error .exception

/-- A program on values. -/
def valRun {α β : Type} (cls : ObjClass α β) (self : ObjVal α β → ObjVal α β)
    (ops : List (ObjOp α β)) : Except CErr (List (Option (ObjVal α β))) :=
  ops.foldlM (valStep cls self) []

/-- What an assignment of an object to itself leaves behind: the structure is empty, the arrays of
the levels around it hold no defined values, and all lists of a `NeighborList` are empty. -/
def wrecked {α β : Type} (d : α) : Bool → ObjVal α β → ObjVal α β
  | _, [] => []
  | _, [_] => [(d, none)]
  | top, (a, some _) :: v :: vs =>
    (a, some (if top then .emptied else .uninit)) :: wrecked d false (v :: vs)
  | _, (a, none) :: v :: vs => (a, none) :: v :: vs

/-- The statement is not `x = x`. -/
def ObjOp.notSelf {α β : Type} : ObjOp α β → Prop
  | .assign x y => x ≠ y
  | _ => True

/-- The statement is not a supercell with a factor 0. -/
def ObjOp.noZero {α β : Type} : ObjOp α β → Prop
  | .supercell _ sc => sc 0 * sc 1 * sc 2 ≠ 0
  | _ => True

/-- The arrays which the living objects of a program show. -/
def shownArrays {α β : Type} (pool : List (Option (ObjVal α β))) : ℕ :=
  (pool.map fun o => (o.getD []).countP fun v => v.2.isSome).sum

/-- Which objects are alive after a statement; `none` if it uses one which is not. -/
def lifeStep {α β : Type} (life : List Bool) : ObjOp α β → Option (List Bool)
  | .dflt | .make _ | .raw _ => some (life ++ [true])
  | .copy y => if life[y]? = some true then some (life ++ [true]) else none
  | .assign x y => if life[x]? = some true ∧ life[y]? = some true then some life else none
  | .destroy x => if life[x]? = some true then some (life.set x false) else none
  | .supercell x _ => if life[x]? = some true then some life else none

/-- The program uses objects only while they are alive. -/
def UsesAlive {α β : Type} (ops : List (ObjOp α β)) : Prop :=
  (ops.foldlM lifeStep []).isSome

/-- The statement exists for the class: data for each level, no `make_supercell`, and
`Structure(int)` only for `Structure`. -/
def ObjOp.fits {α β : Type} (cls : ObjClass α β) : ObjOp α β → Prop
  | .make vs => vs.length = cls.depth
  | .raw _ => cls.depth = 1
  | .supercell _ _ => False
  | _ => True

end MaterSDK
