import Verif.Model.MtpRadial
import Verif.Model.StructObj

/-!
# Objects of the radial basis classes in memory

`RB_Chebyshev`, `RQ_Chebyshev` (`/repo/source/descriptor/mtpr/include/basis.h`), `ChebyshevPoly` and
`MtpQ` (`/repo/source/descriptor/mtp/include/mtpMRadial.h`) allocate, copy, move and free their arrays
by hand.

* The heap is that of `Model/StructObj`: a freed block stays as `none`.
* The arrays which a class allocates and frees together (values and derivatives, all of the same
  length) are one block whose contents are a list of rows, one row for each index.  `malloc(0)` gives
  a block too.
* A pointer is an address, null, or `wild`: never set.  A pointer keeps its address after `free`.
* A loop over `size` rows is one step.  Reading more rows than the block has, or writing more, is
  `outOfBounds`.
* The cutoffs are abstract: `α`.  What `build` computes for a row is a parameter (`BasisFill`); the
  real functions are in `Model/MtpRadial`, and `Props/BasisHeap` connects the two.
* Several `operator=` of these classes lack a `return`; the call is taken to come back all the same.
* `memset(NULL, 0, 0)`, which `ChebyshevPoly::build` does for an empty object outside the cutoff, is
  taken to do nothing.
-/

namespace MaterSDK

/-- A pointer: never set, null, or an address. -/
inductive CPtr where
  | wild
  | null
  | addr (p : ℕ)
  deriving DecidableEq, Repr

section

variable {α γ δ : Type}

/-- Blocks with rows. -/
abbrev RowHeap (γ : Type) := ObjHeap (List γ)

/-- `free(p)`. -/
def rowFree (h : RowHeap γ) : CPtr → Except CErr (RowHeap γ)
  | .wild => .error .undefined
  | .null => .ok h
  | .addr p => objFree h p

/-- `malloc` for `n` rows and the loop which copies them from `src`. -/
def rowCopy (h : RowHeap γ) (n : ℕ) (src : CPtr) : Except CErr (RowHeap γ × CPtr) :=
  if n = 0 then
    let r := objAlloc h (.val [])
    .ok (r.1, .addr r.2)
  else
    match src with
    | .addr p => do
      let c ← objRead h p
      match c with
      | .val l =>
        if l.length < n then .error .outOfBounds
        else
          let r := objAlloc h (.val (l.take n))
          return (r.1, .addr r.2)
      | _ => .error .undefined
    | _ => .error .undefined

/-- Overwrite the first rows of the block at `dst`. -/
def rowWrite (h : RowHeap γ) (dst : CPtr) (rows : List γ) : Except CErr (RowHeap γ) :=
  if rows = [] then .ok h
  else
    match dst with
    | .addr p => do
      let c ← objRead h p
      match c with
      | .val l =>
        if l.length < rows.length then .error .outOfBounds
        else objWrite h p (.val (rows ++ l.drop rows.length))
      | _ => .error .undefined
    | _ => .error .undefined

/-- Read the first `n` rows. -/
def rowRead (h : RowHeap γ) (n : ℕ) (src : CPtr) : Except CErr (List γ) :=
  if n = 0 then .ok []
  else
    match src with
    | .addr p => do
      let c ← objRead h p
      match c with
      | .val l => if l.length < n then .error .outOfBounds else return l.take n
      | _ => .error .undefined
    | _ => .error .undefined

/-- What `build` computes.  `dom`: the distance passes the `assert`.  `row par sw d ii`: row `ii` of
`RB_Chebyshev` or `ChebyshevPoly`, whose own cutoffs are `par` and whose switching function has the
cutoffs `sw`.  `out sw d`: the row of `RQ_Chebyshev` or `MtpQ` from the row of the inner object. -/
structure BasisFill (α γ δ : Type) where
  dom : α → δ → Bool
  row : α → α → δ → ℕ → γ
  out : α → δ → γ → γ

/-! ## `RB_Chebyshev` and `ChebyshevPoly` -/

/-- Members: basis.h 66-72 and mtpMRadial.h 83-90.  `sw` is the switching function of
`ChebyshevPoly`; `RB_Chebyshev` has none and keeps a copy of its cutoffs here. -/
structure PolyObj (α : Type) where
  par : α
  sw : α
  size : ℕ
  ptr : CPtr
  deriving DecidableEq, Repr

/-- The default constructors, basis.h 159-168, mtpMRadial.h 248-249. -/
def polyDflt (z : α) : PolyObj α := ⟨z, z, 0, .null⟩

/-- The constructors with arguments, basis.h 170-185, mtpMRadial.h 251-267. -/
def polyMake (zero : γ) (h : RowHeap γ) (a : α) (n : ℕ) : RowHeap γ × PolyObj α :=
  let r := objAlloc h (.val (List.replicate n zero))
  (r.1, ⟨a, a, n, .addr r.2⟩)

/-- The copy constructor of `RB_Chebyshev`, basis.h 187-204. -/
def rbCopy (h : RowHeap γ) (y : PolyObj α) : Except CErr (RowHeap γ × PolyObj α) :=
  if y.size ≠ 0 then do
    let (h1, q) ← rowCopy h y.size y.ptr
    return (h1, ⟨y.par, y.sw, y.size, q⟩)
  else return (h, ⟨y.par, y.sw, 0, .null⟩)

/-- The copy constructor of `ChebyshevPoly`, mtpMRadial.h 269-284. -/
def chCopy (h : RowHeap γ) (y : PolyObj α) : Except CErr (RowHeap γ × PolyObj α) := do
  let (h1, q) ← rowCopy h y.size y.ptr
  return (h1, ⟨y.par, y.sw, y.size, q⟩)

/-- The `free`s at the start of the assignments, basis.h 229-236, 259-266, mtpMRadial.h 322-329,
350-357. -/
def polyRelease (h : RowHeap γ) (x : PolyObj α) : Except CErr (RowHeap γ) :=
  if x.size ≠ 0 then rowFree h x.ptr else return h

/-- `x = y` for different `RB_Chebyshev`, basis.h 226-253. -/
def rbAssign (h : RowHeap γ) (x y : PolyObj α) : Except CErr (RowHeap γ × PolyObj α) := do
  let h1 ← polyRelease h x
  if y.size ≠ 0 then
    let (h2, q) ← rowCopy h1 y.size y.ptr
    return (h2, ⟨y.par, y.sw, y.size, q⟩)
  else return (h1, ⟨y.par, y.sw, 0, x.ptr⟩)

/-- `x = x` for `RB_Chebyshev`: the size is zero when the right-hand side is looked at. -/
def rbSelf (z : α) (h : RowHeap γ) (x : PolyObj α) : Except CErr (RowHeap γ × PolyObj α) := do
  let h1 ← polyRelease h x
  if x.size ≠ 0 then return (h1, ⟨z, z, 0, x.ptr⟩) else return (h1, x)

/-- `x = y` for different `ChebyshevPoly`, mtpMRadial.h 319-344. -/
def chAssign (h : RowHeap γ) (x y : PolyObj α) : Except CErr (RowHeap γ × PolyObj α) := do
  let h1 ← polyRelease h x
  let (h2, q) ← rowCopy h1 y.size y.ptr
  return (h2, ⟨y.par, y.sw, y.size, q⟩)

/-- `x = x` for `ChebyshevPoly`: the size is zero when the arrays are allocated again. -/
def chSelf (z : α) (h : RowHeap γ) (x : PolyObj α) : Except CErr (RowHeap γ × PolyObj α) := do
  let h1 ← polyRelease h x
  let (h2, q) ← rowCopy h1 0 x.ptr
  return (h2, ⟨if x.size ≠ 0 then z else x.par, x.sw, 0, q⟩)

/-- The move constructors, basis.h 206-224, mtpMRadial.h 286-306: the new object and what is left. -/
def polyMove (z : α) (y : PolyObj α) : PolyObj α × PolyObj α := (y, polyDflt z)

/-- `x = std::move(y)` for different objects, basis.h 255-282, mtpMRadial.h 346-373.
`ChebyshevPoly` leaves the switching function of `y` as it is (`keep`). -/
def polyMoveAssign (keep : Bool) (z : α) (h : RowHeap γ) (x y : PolyObj α) :
    Except CErr (RowHeap γ × PolyObj α × PolyObj α) := do
  let h1 ← polyRelease h x
  return (h1, y, ⟨z, if keep then y.sw else z, 0, .null⟩)

/-- The destructors, basis.h 308-314, mtpMRadial.h 308-317. -/
def polyDestroy (h : RowHeap γ) (x : PolyObj α) : Except CErr (RowHeap γ) := rowFree h x.ptr

/-- `build`, basis.h 284-306, mtpMRadial.h 375-404. -/
def polyBuild (F : BasisFill α γ δ) (h : RowHeap γ) (x : PolyObj α) (d : δ) :
    Except CErr (RowHeap γ) :=
  if F.dom x.par d then rowWrite h x.ptr ((List.range x.size).map (F.row x.par x.sw d))
  else .error .assertFail

/-! ## `RQ_Chebyshev` -/

/-- Members: basis.h 110-117.  `rb` is the address of the inner `RB_Chebyshev` together with its
members; only this object knows the address. -/
structure RqObj (α : Type) where
  par : α
  sw : α
  size : ℕ
  rb : Option (ℕ × PolyObj α)
  ptr : CPtr
  deriving DecidableEq, Repr

/-- `delete this->_rb_ptr`. -/
def rbDelete (h : RowHeap γ) : Option (ℕ × PolyObj α) → Except CErr (RowHeap γ)
  | none => return h
  | some (p, o) => do
    let h1 ← polyDestroy h o
    objFree h1 p

/-- The default constructor, basis.h 371-380. -/
def rqDflt (z : α) : RqObj α := ⟨z, z, 0, none, .null⟩

/-- The constructor with arguments, basis.h 382-397. -/
def rqMake (zero : γ) (h : RowHeap γ) (a : α) (n : ℕ) : RowHeap γ × RqObj α :=
  let r1 := objAlloc h .emptied
  let r2 := polyMake zero r1.1 a n
  let r3 := objAlloc r2.1 (.val (List.replicate n zero))
  (r3.1, ⟨a, a, n, some (r1.2, r2.2), .addr r3.2⟩)

/-- The common end of the copy constructor and the assignment, basis.h 402-418 and 454-470: a new
`RB_Chebyshev`, the assignment to it, new arrays.  `*(rhs._rb_ptr)` of a null pointer is undefined. -/
def rqFrom (z : α) (h : RowHeap γ) (y : RqObj α) : Except CErr (RowHeap γ × RqObj α) := do
  let r := objAlloc h .emptied
  match y.rb with
  | none => .error .undefined
  | some (_, o) => do
    let (h2, o') ← rbAssign r.1 (polyDflt z) o
    if y.size ≠ 0 then
      let (h3, q) ← rowCopy h2 y.size y.ptr
      return (h3, ⟨y.par, y.sw, y.size, some (r.2, o'), q⟩)
    else return (h2, ⟨y.par, y.sw, 0, some (r.2, o'), .null⟩)

/-- The frees at the start of the assignments, basis.h 445-452, 477-484. -/
def rqRelease (h : RowHeap γ) (x : RqObj α) : Except CErr (RowHeap γ) :=
  if x.size ≠ 0 then do
    let h1 ← rbDelete h x.rb
    rowFree h1 x.ptr
  else return h

/-- `x = y` for different objects, basis.h 442-471. -/
def rqAssign (z : α) (h : RowHeap γ) (x y : RqObj α) : Except CErr (RowHeap γ × RqObj α) := do
  let h1 ← rqRelease h x
  rqFrom z h1 y

/-- `x = x`: the size is zero and the inner object is a new empty one when the right-hand side is
looked at. -/
def rqSelf (z : α) (h : RowHeap γ) (x : RqObj α) : Except CErr (RowHeap γ × RqObj α) := do
  let h1 ← rqRelease h x
  let r := objAlloc h1 .emptied
  let (h2, o) ← rbSelf z r.1 (polyDflt z)
  return (h2, ⟨if x.size ≠ 0 then z else x.par, x.sw, 0, some (r.2, o), .null⟩)

/-- The move constructor, basis.h 421-440: the switching function of `y` stays. -/
def rqMove (z : α) (y : RqObj α) : RqObj α × RqObj α := (y, ⟨z, y.sw, 0, none, .null⟩)

/-- `x = std::move(y)` for different objects, basis.h 473-501. -/
def rqMoveAssign (z : α) (h : RowHeap γ) (x y : RqObj α) :
    Except CErr (RowHeap γ × RqObj α × RqObj α) := do
  let h1 ← rqRelease h x
  return (h1, y, ⟨z, y.sw, 0, none, .null⟩)

/-- The destructor, basis.h 517-523. -/
def rqDestroy (h : RowHeap γ) (x : RqObj α) : Except CErr (RowHeap γ) := do
  let h1 ← rbDelete h x.rb
  rowFree h1 x.ptr

/-- `build`, basis.h 503-515. -/
def rqBuildObj (F : BasisFill α γ δ) (h : RowHeap γ) (x : RqObj α) (d : δ) :
    Except CErr (RowHeap γ) :=
  if F.dom x.par d then
    match x.rb with
    | none => .error .undefined
    | some (_, o) => do
      let h1 ← polyBuild F h o d
      let inner ← rowRead h1 x.size o.ptr
      rowWrite h1 x.ptr (inner.map (F.out x.sw d))
  else .error .assertFail

/-! ## `MtpQ` -/

/-- Members: mtpMRadial.h 121-126.  The pointers have no initial value. -/
structure MtpqObj (α : Type) where
  sw : α
  size : ℕ
  cheb : PolyObj α
  ptr : CPtr
  deriving DecidableEq, Repr

/-- The default constructor, mtpMRadial.h 453-454. -/
def mtpqDflt (z : α) : MtpqObj α := ⟨z, 0, polyDflt z, .wild⟩

/-- The constructor with arguments, mtpMRadial.h 456-466: a temporary `ChebyshevPoly` is moved into
the member and destroyed. -/
def mtpqMake (z : α) (zero : γ) (h : RowHeap γ) (a : α) (n : ℕ) :
    Except CErr (RowHeap γ × MtpqObj α) := do
  let r1 := polyMake zero h a n
  let (h2, c, t) ← polyMoveAssign true z r1.1 (polyDflt z) r1.2
  let h3 ← polyDestroy h2 t
  let r4 := objAlloc h3 (.val (List.replicate n zero))
  return (r4.1, ⟨a, n, c, .addr r4.2⟩)

/-- The copy constructor, mtpMRadial.h 468-480. -/
def mtpqCopy (z : α) (h : RowHeap γ) (y : MtpqObj α) : Except CErr (RowHeap γ × MtpqObj α) := do
  let (h1, c) ← chAssign h (polyDflt z) y.cheb
  let (h2, q) ← rowCopy h1 y.size y.ptr
  return (h2, ⟨y.sw, y.size, c, q⟩)

/-- `rhs.chebyshev = ChebyshevPoly<CoordType>();` and the null pointers, mtpMRadial.h 492-496,
542-546. -/
def mtpqEmptied (z : α) (h : RowHeap γ) (y : MtpqObj α) : Except CErr (RowHeap γ × MtpqObj α) := do
  let (h1, c, t) ← polyMoveAssign true z h y.cheb (polyDflt z)
  let h2 ← polyDestroy h1 t
  return (h2, ⟨z, 0, c, .null⟩)

/-- The move constructor, mtpMRadial.h 482-498: the member is copied, the arrays are taken. -/
def mtpqMove (z : α) (h : RowHeap γ) (y : MtpqObj α) :
    Except CErr (RowHeap γ × MtpqObj α × MtpqObj α) := do
  let (h1, c) ← chAssign h (polyDflt z) y.cheb
  let (h2, y') ← mtpqEmptied z h1 y
  return (h2, ⟨y.sw, y.size, c, y.ptr⟩, y')

/-- The frees at the start of the assignments, mtpMRadial.h 511-515, 531-535. -/
def mtpqRelease (h : RowHeap γ) (x : MtpqObj α) : Except CErr (RowHeap γ) :=
  if x.size ≠ 0 then rowFree h x.ptr else return h

/-- `x = y` for different objects, mtpMRadial.h 508-525. -/
def mtpqAssign (h : RowHeap γ) (x y : MtpqObj α) : Except CErr (RowHeap γ × MtpqObj α) := do
  let h1 ← mtpqRelease h x
  let (h2, c) ← chAssign h1 x.cheb y.cheb
  let (h3, q) ← rowCopy h2 y.size y.ptr
  return (h3, ⟨y.sw, y.size, c, q⟩)

/-- `x = x`. -/
def mtpqSelf (z : α) (h : RowHeap γ) (x : MtpqObj α) : Except CErr (RowHeap γ × MtpqObj α) := do
  let h1 ← mtpqRelease h x
  let (h2, c) ← chSelf z h1 x.cheb
  let (h3, q) ← rowCopy h2 0 x.ptr
  return (h3, ⟨x.sw, 0, c, q⟩)

/-- `x = std::move(y)` for different objects, mtpMRadial.h 527-548. -/
def mtpqMoveAssign (z : α) (h : RowHeap γ) (x y : MtpqObj α) :
    Except CErr (RowHeap γ × MtpqObj α × MtpqObj α) := do
  let h1 ← mtpqRelease h x
  let (h2, c) ← chAssign h1 x.cheb y.cheb
  let (h3, y') ← mtpqEmptied z h2 y
  return (h3, ⟨y.sw, y.size, c, y.ptr⟩, y')

/-- The destructor, mtpMRadial.h 500-506: the arrays, then the member. -/
def mtpqDestroy (h : RowHeap γ) (x : MtpqObj α) : Except CErr (RowHeap γ) := do
  let h1 ← rowFree h x.ptr
  polyDestroy h1 x.cheb

/-- `build`, mtpMRadial.h 550-562. -/
def mtpqBuildObj (F : BasisFill α γ δ) (h : RowHeap γ) (x : MtpqObj α) (d : δ) :
    Except CErr (RowHeap γ) := do
  let h1 ← polyBuild F h x.cheb d
  let inner ← rowRead h1 x.size x.cheb.ptr
  rowWrite h1 x.ptr (inner.map (F.out x.sw d))

/-! ## Programs -/

/-- What a program can do with objects of one class.  Objects are numbered in the order of their
construction. -/
inductive BasisOp (α δ : Type) where
  /-- `C x;` -/
  | dflt
  /-- `C x(n, a);` -/
  | make (a : α) (n : ℕ)
  /-- `C x(y);` -/
  | copy (y : ℕ)
  /-- `C x(std::move(y));` -/
  | move (y : ℕ)
  /-- `x = y;` -/
  | assign (x y : ℕ)
  /-- `x = std::move(y);` -/
  | moveAssign (x y : ℕ)
  /-- `x.build(d);` -/
  | build (x : ℕ) (d : δ)
  /-- The end of the life of `x`. -/
  | destroy (x : ℕ)

/-- What an object shows: its cutoffs and its rows. -/
structure BasisVal (α γ : Type) where
  par : α
  rows : List γ
  deriving DecidableEq, Repr

/-- The operations of one class. -/
structure BasisClass (O α γ δ : Type) where
  dflt : O
  make : RowHeap γ → α → ℕ → Except CErr (RowHeap γ × O)
  copy : RowHeap γ → O → Except CErr (RowHeap γ × O)
  move : RowHeap γ → O → Except CErr (RowHeap γ × O × O)
  assign : RowHeap γ → O → O → Except CErr (RowHeap γ × O)
  self : RowHeap γ → O → Except CErr (RowHeap γ × O)
  moveAssign : RowHeap γ → O → O → Except CErr (RowHeap γ × O × O)
  build : RowHeap γ → O → δ → Except CErr (RowHeap γ)
  destroy : RowHeap γ → O → Except CErr (RowHeap γ)
  see : RowHeap γ → O → Except CErr (BasisVal α γ)

/-- The heap and the objects of a running program; `none` after the end of the life of an object. -/
structure BasisState (O γ : Type) where
  heap : RowHeap γ
  objs : List (Option O)

/-- One statement.  `x = std::move(x)` does nothing in all four classes: basis.h 258, 476,
mtpMRadial.h 349, 530. -/
def basisStep {O : Type} (C : BasisClass O α γ δ) (s : BasisState O γ) :
    BasisOp α δ → Except CErr (BasisState O γ)
  | .dflt => return ⟨s.heap, s.objs ++ [some C.dflt]⟩
  | .make a n => do
    let r ← C.make s.heap a n
    return ⟨r.1, s.objs ++ [some r.2]⟩
  | .copy y => do
    let oy ← objGet s.objs y
    let r ← C.copy s.heap oy
    return ⟨r.1, s.objs ++ [some r.2]⟩
  | .move y => do
    let oy ← objGet s.objs y
    let r ← C.move s.heap oy
    return ⟨r.1, s.objs.set y (some r.2.2) ++ [some r.2.1]⟩
  | .assign x y => do
    let ox ← objGet s.objs x
    let oy ← objGet s.objs y
    let r ← if x = y then C.self s.heap ox else C.assign s.heap ox oy
    return ⟨r.1, s.objs.set x (some r.2)⟩
  | .moveAssign x y => do
    let ox ← objGet s.objs x
    let oy ← objGet s.objs y
    if x = y then return s
    else do
      let r ← C.moveAssign s.heap ox oy
      return ⟨r.1, (s.objs.set x (some r.2.1)).set y (some r.2.2)⟩
  | .build x d => do
    let ox ← objGet s.objs x
    let h ← C.build s.heap ox d
    return ⟨h, s.objs⟩
  | .destroy x => do
    let ox ← objGet s.objs x
    let h ← C.destroy s.heap ox
    return ⟨h, s.objs.set x none⟩

/-- A program, from an empty memory. -/
def basisRun {O : Type} (C : BasisClass O α γ δ) (ops : List (BasisOp α δ)) :
    Except CErr (BasisState O γ) :=
  ops.foldlM (basisStep C) ⟨[], []⟩

/-- All objects of a state as their accessors show them. -/
def BasisState.view {O : Type} (C : BasisClass O α γ δ) (s : BasisState O γ) :
    List (Option (Except CErr (BasisVal α γ))) :=
  s.objs.map (Option.map (C.see s.heap))

/-- `RB_Chebyshev`; its accessors are in basis.h 316-350. -/
def rbClass (z : α) (zero : γ) (F : BasisFill α γ δ) : BasisClass (PolyObj α) α γ δ where
  dflt := polyDflt z
  make h a n := .ok (polyMake zero h a n)
  copy := rbCopy
  move h y := .ok (h, polyMove z y)
  assign := rbAssign
  self := rbSelf z
  moveAssign := polyMoveAssign false z
  build := polyBuild F
  destroy := polyDestroy
  see h x := do
    let r ← rowRead h x.size x.ptr
    return ⟨x.par, r⟩

/-- `RQ_Chebyshev`; its accessors are in basis.h 525-553. -/
def rqClass (z : α) (zero : γ) (F : BasisFill α γ δ) : BasisClass (RqObj α) α γ δ where
  dflt := rqDflt z
  make h a n := .ok (rqMake zero h a n)
  copy := rqFrom z
  move h y := .ok (h, rqMove z y)
  assign := rqAssign z
  self := rqSelf z
  moveAssign := rqMoveAssign z
  build := rqBuildObj F
  destroy := rqDestroy
  see h x := do
    let r ← rowRead h x.size x.ptr
    return ⟨x.par, r⟩

/-- `ChebyshevPoly`; its accessors are in mtpMRadial.h 406-428.  The cutoffs have no accessor. -/
def chebClass (z : α) (zero : γ) (F : BasisFill α γ δ) : BasisClass (PolyObj α) α γ δ where
  dflt := polyDflt z
  make h a n := .ok (polyMake zero h a n)
  copy := chCopy
  move h y := .ok (h, polyMove z y)
  assign := chAssign
  self := chSelf z
  moveAssign := polyMoveAssign true z
  build := polyBuild F
  destroy := polyDestroy
  see h x := do
    let r ← rowRead h x.size x.ptr
    return ⟨x.par, r⟩

/-- `MtpQ`; its accessors are in mtpMRadial.h 564-580.  The cutoffs have no accessor. -/
def mtpqClass (z : α) (zero : γ) (F : BasisFill α γ δ) : BasisClass (MtpqObj α) α γ δ where
  dflt := mtpqDflt z
  make := mtpqMake z zero
  copy := mtpqCopy z
  move := mtpqMove z
  assign := mtpqAssign
  self := mtpqSelf z
  moveAssign := mtpqMoveAssign z
  build := mtpqBuildObj F
  destroy := mtpqDestroy
  see h x := do
    let r ← rowRead h x.size x.ptr
    return ⟨x.sw, r⟩

end

/-! ## The real functions -/

/-- `RB_Chebyshev` and `RQ_Chebyshev`: cutoffs `(rmax, rmin)`, rows `(value, derivative)`. -/
noncomputable def rbFillReal : BasisFill (ℝ × ℝ) (ℝ × ℝ) ℝ where
  dom a d := by classical exact decide (a.2 ≤ d ∧ d ≤ a.1)
  row a _ d ii :=
    let uu := (2 * d - (a.1 + a.2)) / (a.1 - a.2)
    let e := (chebLoop uu (ii + 1)).getD ii 0
    (e.1, e.2 * (2 / (a.1 - a.2)))
  out a d e :=
    match sfVal a.1 a.2 d, sfDer a.1 a.2 d with
    | .ok v, .ok w => (v * e.1, w * e.1 + v * e.2)
    | _, _ => (0, 0)

/-- `ChebyshevPoly` and `MtpQ`: cutoffs `(rcut, rcut_smooth)`, rows `(value, derivative)`. -/
noncomputable def chebFillReal : BasisFill (ℝ × ℝ) (ℝ × ℝ) ℝ where
  dom _ _ := true
  row a s d ii := by
    classical exact
      if a.2 ≤ d ∧ d < a.1 then
        let e := (chebLoop (mtpXi s.1 s.2 d) (ii + 1)).getD ii 0
        (e.1, e.2 * mtpXiDer s.1 s.2)
      else (0, 0)
  out a d e :=
    (e.1 * mtpSwitch a.1 a.2 d, e.2 * mtpSwitch a.1 a.2 d + e.1 * mtpSwitchDer a.1 a.2 d)

end MaterSDK
