import Verif.Model.StructObj

/-!
# Objects of `TildeR` in memory

`TildeR` (`source/descriptor/deepmd/include/se.h`) holds a `NeighborList` and four arrays of `int`
which it allocates, copies and frees by hand: the centre types and the number of centre atoms of
each, the neighbour types and the number of neighbours of each.

* The heap is that of `Model/StructObj`: a freed block stays as `none`.
* A pointer is an address or null; `free(NULL)` does nothing.  A pointer keeps its address after
  `free`, as in the code.
* A loop which copies `n` ints is one step.  It writes out of bounds exactly when the block behind
  it was allocated for fewer than `n` ints.
* The neighbour list inside is a value (C130) together with `rcut` and `rcut_smooth`; `wreck` is what
  its assignment to itself leaves (`wrecked`, C130).
* The counts are natural numbers; a negative count is not modelled.
-/

namespace MaterSDK

/-- Members of a `TildeR`: se.h 407-416. -/
structure TildeObj (α : Type) where
  nbr : α
  /-- `num_center_atomic_numbers` -/
  nC : ℕ
  /-- `num_neigh_atomic_numbers` -/
  nN : ℕ
  /-- `center_atomic_numbers_lst` -/
  pC : Option ℕ
  /-- `num_center_atoms_lst` -/
  pCA : Option ℕ
  /-- `neigh_atomic_numbers_lst` -/
  pN : Option ℕ
  /-- `num_neigh_atoms_lst` -/
  pNA : Option ℕ
  deriving DecidableEq, Repr

abbrev IntHeap := ObjHeap (List ℤ)

/-- `free(p)`. -/
def freePtr (h : IntHeap) : Option ℕ → Except CErr IntHeap
  | none => .ok h
  | some p => objFree h p

/-- `malloc` of `cap` ints, then `for (ii < n) new[ii] = src[ii]`. -/
def copyInts (h : IntHeap) (cap n : ℕ) (src : Option ℕ) : Except CErr (IntHeap × Option ℕ) :=
  if n = 0 then
    let r := objAlloc h .uninit
    .ok (r.1, some r.2)
  else
    match src with
    | none => .error .undefined
    | some p => do
      let c ← objRead h p
      match c with
      | .val l =>
        if l.length < n ∨ cap < n then .error .outOfBounds
        else
          let r := objAlloc h (.val (l.take n))
          return (r.1, some r.2)
      | _ => .error .undefined

/-- The default constructor, se.h 1281-1291. -/
def tildeDflt {α : Type} (d : α) : TildeObj α := ⟨d, 0, 0, none, none, none, none⟩

/-- The constructors with data, se.h 1306-1474: four arrays are allocated, even for no types. -/
def tildeMake {α : Type} (h : IntHeap) (a : α) (c ca n na : List ℤ) : IntHeap × TildeObj α :=
  let r1 := objAlloc h (.val c)
  let r2 := objAlloc r1.1 (.val n)
  let r3 := objAlloc r2.1 (.val ca)
  let r4 := objAlloc r3.1 (.val na)
  (r4.1, ⟨a, c.length, n.length, some r1.2, some r3.2, some r2.2, some r4.2⟩)

/-- The copy constructor, se.h 1483-1507.  Its first two arrays have the size
`sizeof(this->num_center_atomic_numbers)`, `sizeof(this->num_neigh_atomic_numbers)`: one `int`. -/
def tildeCopy {α : Type} (h : IntHeap) (y : TildeObj α) : Except CErr (IntHeap × TildeObj α) := do
  let (h1, qC) ← copyInts h 1 y.nC y.pC
  let (h2, qN) ← copyInts h1 1 y.nN y.pN
  let (h3, qCA) ← copyInts h2 y.nC y.nC y.pCA
  let (h4, qNA) ← copyInts h3 y.nN y.nN y.pNA
  return (h4, ⟨y.nbr, y.nC, y.nN, qC, qCA, qN, qNA⟩)

/-- The frees at the start of the assignment, se.h 1519-1527: all four arrays, if there are centre
types. -/
def tildeRelease {α : Type} (h : IntHeap) (x : TildeObj α) : Except CErr IntHeap :=
  if x.nC ≠ 0 then do
    let h1 ← freePtr h x.pC
    let h2 ← freePtr h1 x.pCA
    let h3 ← freePtr h2 x.pN
    freePtr h3 x.pNA
  else return h

/-- `x = y` for different objects, se.h 1517-1555. -/
def tildeAssign {α : Type} (h : IntHeap) (x y : TildeObj α) :
    Except CErr (IntHeap × TildeObj α) := do
  let h1 ← tildeRelease h x
  let (h2, qC, qCA) ←
    (if y.nC ≠ 0 then do
      let (g1, q1) ← copyInts h1 y.nC y.nC y.pC
      let (g2, q2) ← copyInts g1 y.nC y.nC y.pCA
      pure (g2, q1, q2)
    else pure (h1, x.pC, x.pCA) : Except CErr (IntHeap × Option ℕ × Option ℕ))
  let (h3, qN, qNA) ←
    (if y.nN ≠ 0 then do
      let (g1, q1) ← copyInts h2 y.nN y.nN y.pN
      let (g2, q2) ← copyInts g1 y.nN y.nN y.pNA
      pure (g2, q1, q2)
    else pure (h2, x.pN, x.pNA) : Except CErr (IntHeap × Option ℕ × Option ℕ))
  return (h3, ⟨y.nbr, y.nC, y.nN, qC, qCA, qN, qNA⟩)

/-- `x = x`, se.h 1517-1555.  The counts are zero after the frees; if there were no centre types the
neighbour arrays are allocated again and copied onto themselves. -/
def tildeSelf {α : Type} (wreck : α → α) (h : IntHeap) (x : TildeObj α) :
    Except CErr (IntHeap × TildeObj α) := do
  let h1 ← tildeRelease h x
  if x.nC ≠ 0 then return (h1, ⟨wreck x.nbr, 0, 0, x.pC, x.pCA, x.pN, x.pNA⟩)
  else if x.nN ≠ 0 then
    let r1 := objAlloc h1 .uninit
    let r2 := objAlloc r1.1 .uninit
    return (r2.1, ⟨wreck x.nbr, 0, x.nN, x.pC, x.pCA, some r1.2, some r2.2⟩)
  else return (h1, ⟨wreck x.nbr, 0, 0, x.pC, x.pCA, x.pN, x.pNA⟩)

/-- The destructor, se.h 1558-1571. -/
def tildeDestroy {α : Type} (h : IntHeap) (x : TildeObj α) : Except CErr IntHeap := do
  let h2 ← (if x.nC ≠ 0 then do
      let h1 ← freePtr h x.pC
      freePtr h1 x.pCA
    else return h : Except CErr IntHeap)
  if x.nN ≠ 0 then do
    let h3 ← freePtr h2 x.pN
    freePtr h3 x.pNA
  else return h2

/-- What a program can do with `TildeR` objects, which are numbered in the order of their
construction. -/
inductive TildeOp (α : Type) where
  /-- `TildeR x;` -/
  | dflt
  /-- `TildeR x(…);` with the centre types `c`, their numbers of atoms `ca`, the neighbour types `n`
  and their numbers of neighbours `na`. -/
  | make (a : α) (c ca n na : List ℤ)
  /-- `TildeR x(y);` -/
  | copy (y : ℕ)
  /-- `x = y;` -/
  | assign (x y : ℕ)
  /-- The end of the life of `x`. -/
  | destroy (x : ℕ)

/-- The heap and the objects of a running program. -/
structure TildeState (α : Type) where
  heap : IntHeap
  objs : List (Option (TildeObj α))

/-- One statement.  `d` is an empty neighbour list. -/
def tildeStep {α : Type} (d : α) (wreck : α → α) (s : TildeState α) :
    TildeOp α → Except CErr (TildeState α)
  | .dflt => return ⟨s.heap, s.objs ++ [some (tildeDflt d)]⟩
  | .make a c ca n na =>
    if ca.length = c.length ∧ na.length = n.length then
      let r := tildeMake s.heap a c ca n na
      return ⟨r.1, s.objs ++ [some r.2]⟩
    else .error .exception
  | .copy y => do
    let oy ← objGet s.objs y
    let r ← tildeCopy s.heap oy
    return ⟨r.1, s.objs ++ [some r.2]⟩
  | .assign x y => do
    let ox ← objGet s.objs x
    let oy ← objGet s.objs y
    let r ← if x = y then tildeSelf wreck s.heap ox else tildeAssign s.heap ox oy
    return ⟨r.1, s.objs.set x (some r.2)⟩
  | .destroy x => do
    let ox ← objGet s.objs x
    let h ← tildeDestroy s.heap ox
    return ⟨h, s.objs.set x none⟩

/-- A program, from an empty memory. -/
def tildeRun {α : Type} (d : α) (wreck : α → α) (ops : List (TildeOp α)) :
    Except CErr (TildeState α) :=
  ops.foldlM (tildeStep d wreck) ⟨[], []⟩

/-! ## What a program sees -/

/-- Read the first `n` ints at `p`; `none` if that is undefined. -/
def readInts (h : IntHeap) (n : ℕ) (p : Option ℕ) : Option (List ℤ) :=
  if n = 0 then some []
  else
    match p.bind (h[·]?) with
    | some (some (.val l)) => if n ≤ l.length then some (l.take n) else none
    | _ => none

/-- A `TildeR` as its accessors show it: the neighbour list and the four arrays. -/
structure TildeVal (α : Type) where
  nbr : α
  c : List ℤ
  ca : List ℤ
  n : List ℤ
  na : List ℤ
  deriving DecidableEq, Repr

/-- Read an object; `none` if one of its arrays cannot be read. -/
def tildeSee {α : Type} (h : IntHeap) (o : TildeObj α) : Option (TildeVal α) := do
  let c ← readInts h o.nC o.pC
  let ca ← readInts h o.nC o.pCA
  let n ← readInts h o.nN o.pN
  let na ← readInts h o.nN o.pNA
  return ⟨o.nbr, c, ca, n, na⟩

/-- All objects of a state: `none` for one whose life has ended, `some none` for one with an array
which cannot be read. -/
def TildeState.view {α : Type} (s : TildeState α) : List (Option (Option (TildeVal α))) :=
  s.objs.map (Option.map (tildeSee s.heap))

end MaterSDK
