import Verif.Model.CellList

/-!
# Objects of the neighbour list classes in memory

`Structure` (`source/nblist/include/structure.h`), `Supercell`, `BinLinkedList`
(`source/nblist/include/binLinkedList.h`) and `NeighborList`
(`source/nblist/include/neighborList.h`) manage their arrays by hand.  Each class has a member which
says whether its arrays are allocated (`num_atoms != 0`, `rcut != 0`), and each of the last three
holds an object of the previous class as a member.  An object is therefore a chain of levels, the
outermost first: `NeighborList` has four, `BinLinkedList` three, `Supercell` two, `Structure` one.

* A level keeps its scalar members (`data`) and, if its arrays are allocated, their address.  The
  arrays which one level allocates and frees together count as one block.
* An address is an index in the heap; a freed block stays as `none`, so that a second `free` and a
  read after `free` are seen.
* A block which was allocated and not written holds `uninit`.  Copying such values is modelled as
  copying; whether the processor does anything else with them is not modelled.
* The scalar members of an empty object are those of the default constructor, `d`.  The constructor
  with data allocates each level once; the temporary objects it makes on the way are left out.
* `BasicStructureInfo::operator=` (binLinkedList.h 241-260) has no `return`; the call is taken to
  come back all the same.  DESIGN.md records this.
-/

namespace MaterSDK

/-- Contents of an allocated block: not written, as many empty vectors as there are atoms (only for
the lists of a `NeighborList`), or a value. -/
inductive Block (β : Type) where
  | uninit
  | emptied
  | val (b : β)
  deriving DecidableEq, Repr

/-- Work on the value of a block; what is not written stays so. -/
def Block.map {β : Type} (f : β → β) : Block β → Block β
  | .val b => .val (f b)
  | .uninit => .uninit
  | .emptied => .emptied

/-- The heap: `none` is a block which has been freed. -/
abbrev ObjHeap (β : Type) := List (Option (Block β))

/-- `malloc` and the writes which follow it. -/
def objAlloc {β : Type} (h : ObjHeap β) (c : Block β) : ObjHeap β × ℕ := (h ++ [some c], h.length)

/-- `free`, `delete []`. -/
def objFree {β : Type} (h : ObjHeap β) (p : ℕ) : Except CErr (ObjHeap β) :=
  match h[p]? with
  | some (some _) => .ok (h.set p none)
  | _ => .error .undefined

/-- Read a block. -/
def objRead {β : Type} (h : ObjHeap β) (p : ℕ) : Except CErr (Block β) :=
  match h[p]? with
  | some (some c) => .ok c
  | _ => .error .undefined

/-- Write a block. -/
def objWrite {β : Type} (h : ObjHeap β) (p : ℕ) (c : Block β) : Except CErr (ObjHeap β) :=
  match h[p]? with
  | some (some _) => .ok (h.set p (some c))
  | _ => .error .undefined

/-- One level of an object: scalar members, and the address of its arrays if they are allocated. -/
structure Lvl (α : Type) where
  data : α
  own : Option ℕ
  deriving DecidableEq, Repr

/-- What differs between the classes: the number of levels, whether the outermost level is a
`NeighborList`, the scalar members of an empty level, and `make_supercell` on the contents. -/
structure ObjClass (α β : Type) where
  depth : ℕ
  isList : Bool
  d : α
  grow : (Fin 3 → ℕ) → β → β

/-- The guarded `free` at the start of the assignment operators and in the destructors:
structure.h 321-342, 394-415, binLinkedList.h 397-399, 439-441, 745-748, 790-795,
neighborList.h 211-215, 244-249. -/
def freeOwn {α β : Type} (h : ObjHeap β) (l : Lvl α) : Except CErr (ObjHeap β) :=
  match l.own with
  | none => .ok h
  | some p => objFree h p

/-- Copy assignment of different objects: structure.h 318-383, binLinkedList.h 395-429, 743-780,
neighborList.h 209-235.  The arrays of the level are freed, the member object is assigned, the
arrays are allocated again and copied.  An empty `BinLinkedList` or `Supercell` on the right makes
the member object empty; `NeighborList` assigns its member in any case. -/
def assignObj {α β : Type} (d : α) : Bool → List (Lvl α) → List (Lvl α) → ObjHeap β →
    Except CErr (ObjHeap β × List (Lvl α))
  | top, x :: xs, y :: ys, h => do
    let h1 ← freeOwn h x
    let src := if top || y.own.isSome then ys else ys.map (fun _ => (⟨d, none⟩ : Lvl α))
    let (h2, xs') ← assignObj d false xs src h1
    match y.own with
    | none => return (h2, ⟨if top then y.data else d, none⟩ :: xs')
    | some p => do
      let c ← objRead h2 p
      let (h3, q) := objAlloc h2 c
      return (h3, ⟨y.data, some q⟩ :: xs')
  | _, _, _, h => return (h, [])

/-- The same operators when both sides are the same object.  `Structure` has set its `num_atoms` to
zero when it looks at the right-hand side (structure.h 341-347), so it stays empty.  The other
classes keep the count, assign their member object to itself, allocate new arrays and copy these
onto themselves; the new vectors of a `NeighborList` are empty. -/
def selfAssignObj {α β : Type} (d : α) : Bool → List (Lvl α) → ObjHeap β →
    Except CErr (ObjHeap β × List (Lvl α))
  | _, [], h => return (h, [])
  | _, [x], h => do
    let h1 ← freeOwn h x
    return (h1, [⟨d, none⟩])
  | top, x :: x' :: xs, h => do
    let h1 ← freeOwn h x
    match x.own with
    | some _ => do
      let (h2, xs') ← selfAssignObj d false (x' :: xs) h1
      let (h3, q) := objAlloc h2 (if top then .emptied else .uninit)
      return (h3, ⟨x.data, some q⟩ :: xs')
    | none =>
      if top then do
        let (h2, xs') ← selfAssignObj d false (x' :: xs) h1
        return (h2, ⟨x.data, none⟩ :: xs')
      else do
        let (h2, xs') ← assignObj d false (x' :: xs)
          ((x' :: xs).map (fun _ => (⟨d, none⟩ : Lvl α))) h1
        return (h2, ⟨d, none⟩ :: xs')

/-- The destructors, structure.h 392-417, binLinkedList.h 437-442, 788-796, neighborList.h 242-251:
the arrays of a level, then the member object. -/
def destroyObj {α β : Type} : List (Lvl α) → ObjHeap β → Except CErr (ObjHeap β)
  | [], h => return h
  | x :: xs, h => do
    let h1 ← freeOwn h x
    destroyObj xs h1

/-- The constructors with data: each level allocates its arrays, the inner ones first. -/
def makeObj {α β : Type} : List (α × Block β) → ObjHeap β → ObjHeap β × List (Lvl α)
  | [], h => (h, [])
  | v :: vs, h =>
    let r := makeObj vs h
    let q := objAlloc r.1 v.2
    (q.1, ⟨v.1, some q.2⟩ :: r.2)

/-- The levels of a default constructed object, structure.h 98-101, binLinkedList.h 304-321, 567-574, and the
default constructor of `NeighborList`, neighborList.h 120-126. -/
def emptyObj {α β : Type} (cls : ObjClass α β) : List (Lvl α) := List.replicate cls.depth ⟨cls.d, none⟩

/-- What a program can do with objects of one class.  Objects are numbered in the order of their
construction. -/
inductive ObjOp (α β : Type) where
  /-- `C x;` -/
  | dflt
  /-- `C x(…data…);` for at least one atom and, for the last two classes, a cutoff other than 0. -/
  | make (vs : List (α × β))
  /-- `Structure x(num_atoms);` with `num_atoms ≠ 0`, structure.h 110-133. -/
  | raw (a : α)
  /-- `C x(y);` -/
  | copy (y : ℕ)
  /-- `x = y;` -/
  | assign (x y : ℕ)
  /-- The end of the life of `x`. -/
  | destroy (x : ℕ)
  /-- `x.make_supercell(sc)` for a `Structure`, structure.h 482-601. -/
  | supercell (x : ℕ) (sc : Fin 3 → ℕ)

/-- The objects of a running program: `none` after the end of its life. -/
structure ObjState (α β : Type) where
  heap : ObjHeap β
  objs : List (Option (List (Lvl α)))

/-- The object numbered `x`; using one which does not exist is undefined. -/
def objGet {τ : Type} (objs : List (Option τ)) (x : ℕ) : Except CErr τ :=
  match objs[x]? with
  | some (some l) => .ok l
  | _ => .error .undefined

/-- One statement of a program. -/
def objStep {α β : Type} (cls : ObjClass α β) (s : ObjState α β) :
    ObjOp α β → Except CErr (ObjState α β)
  | .dflt => return ⟨s.heap, s.objs ++ [some (emptyObj cls)]⟩
  | .make vs =>
    if vs.length = cls.depth then
      let r := makeObj (vs.map fun v => (v.1, .val v.2)) s.heap
      return ⟨r.1, s.objs ++ [some r.2]⟩
    else .error .exception
  | .raw a =>
    if cls.depth = 1 then
      let r := makeObj [(a, .uninit)] s.heap
      return ⟨r.1, s.objs ++ [some r.2]⟩
    else .error .exception
  | .copy y => do
    let ly ← objGet s.objs y
    let r ← assignObj cls.d cls.isList (emptyObj cls) ly s.heap
    return ⟨r.1, s.objs ++ [some r.2]⟩
  | .assign x y => do
    let lx ← objGet s.objs x
    let ly ← objGet s.objs y
    let r ← if x = y then selfAssignObj cls.d cls.isList lx s.heap
      else assignObj cls.d cls.isList lx ly s.heap
    return ⟨r.1, s.objs.set x (some r.2)⟩
  | .destroy x => do
    let lx ← objGet s.objs x
    let h ← destroyObj lx s.heap
    return ⟨h, s.objs.set x none⟩
  | .supercell x sc => do
    let lx ← objGet s.objs x
    match lx with
    | [l] =>
      match l.own with
      -- `free` and a write through pointers which were never set, structure.h 524, 531, 580
      | none => .error .undefined
      | some p => do
        let c ← objRead s.heap p
        -- `num_atoms` becomes 0 (structure.h 521), so that nothing frees the arrays any more
        if sc 0 * sc 1 * sc 2 = 0 then
          return ⟨s.heap, s.objs.set x (some [⟨cls.d, none⟩])⟩
        else do
          let h ← objWrite s.heap p (c.map (cls.grow sc))
          return ⟨h, s.objs⟩
    | _ => .error .exception

/-- A program, from an empty memory. -/
def objRun {α β : Type} (cls : ObjClass α β) (ops : List (ObjOp α β)) :
    Except CErr (ObjState α β) :=
  ops.foldlM (objStep cls) ⟨[], []⟩

/-! ## What a program sees -/

/-- Contents of a block. -/
def objContent {β : Type} (h : ObjHeap β) (p : ℕ) : Block β :=
  match h[p]? with
  | some (some c) => c
  | _ => .uninit

/-- The members and arrays of an object as its accessors show them, level by level; `none` where the
arrays are not allocated (the accessors return a null pointer). -/
def objView {α β : Type} (h : ObjHeap β) (l : List (Lvl α)) : List (α × Option (Block β)) :=
  l.map fun x => (x.data, x.own.map (objContent h))

/-- All objects of a state, as seen. -/
def ObjState.view {α β : Type} (s : ObjState α β) : List (Option (List (α × Option (Block β)))) :=
  s.objs.map (Option.map (objView s.heap))

/-- The number of blocks which are allocated and not freed. -/
def liveBlocks {β : Type} (h : ObjHeap β) : ℕ := h.countP Option.isSome

/-- `Structure` of `structure.h`. -/
noncomputable def structureClass : ObjClass Unit CStruct :=
  ⟨1, false, (), fun sc s => s.makeSupercell fun i => (sc i : ℤ)⟩

/-- `Supercell` of `binLinkedList.h`. -/
def supercellClass {α β : Type} (d : α) : ObjClass α β := ⟨2, false, d, fun _ b => b⟩

/-- `BinLinkedList` of `binLinkedList.h`. -/
def binListClass {α β : Type} (d : α) : ObjClass α β := ⟨3, false, d, fun _ b => b⟩

/-- `NeighborList` of `neighborList.h`. -/
def neighborListClass {α β : Type} (d : α) : ObjClass α β := ⟨4, true, d, fun _ b => b⟩

end MaterSDK
