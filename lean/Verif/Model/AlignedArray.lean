import Verif.Model.CellList

/-!
# Aligned arrays

Model of `/repo/source/core/include/AlignedArray.h` 29-109.

* Memory has addresses. `live` holds the blocks given out by `new char[n]` and not yet given back: start and
  length in bytes. `cells a` is the element which starts at address `a`; `none`: nothing stored since the
  block was given out.
* The allocator is any function which only gives out memory that is not in use; it may refuse, which is
  `std::bad_alloc` (`exception`).
* All arrays of a program have the same element type, of `sz` bytes.
* An array may access its own block only. The code checks no index; an access outside is `outOfBounds`, one
  through a null pointer or after `delete` is `undefined`.
* `int` is unbounded, `size_t` and pointers have 64 bits.
* After `bad_alloc` the program ends.
-/

namespace MaterSDK

structure AMem (β : Type) where
  live : List (ℕ × ℕ)
  cells : ℕ → Option β

/-- `new char[n]`: what is known about the allocator. -/
structure CharAlloc (β : Type) where
  pick : AMem β → ℕ → Option ℕ
  fresh : ∀ m n p, pick m n = some p → 0 < p ∧ p + n < 2 ^ 63 ∧
    ∀ b ∈ m.live, p ≠ b.1 ∧ (p + n ≤ b.1 ∨ b.1 + b.2 ≤ p)

/-- Members, AlignedArray.h 84-87. -/
structure AObj where
  size : ℤ
  base : Option ℕ
  data : ℕ
  deriving DecidableEq, Repr

/-- `sizeof(T) * size + 15` as `size_t`, line 101. -/
def alignedBytes (sz : ℕ) (size : ℤ) : ℕ := ((sz * size + 15) % 2 ^ 64).toNat

/-- `(long long)p & (~0x0F)`, line 104. -/
def alignDown (a : ℕ) : ℕ := (BitVec.ofNat 64 a &&& ~~~(0x0F#64)).toNat

section

variable {β : Type}

/-- The default constructor, lines 37-38. -/
def aDflt : AObj := ⟨0, none, 0⟩

/-- `allocate`, lines 99-106, and the constructor with a size, 45-47. -/
def aAlloc (A : CharAlloc β) (sz : ℕ) (m : AMem β) (size : ℤ) : Except CErr (AMem β × AObj) :=
  match A.pick m (alignedBytes sz size) with
  | none => .error .exception
  | some p => .ok
      (⟨(p, alignedBytes sz size) :: m.live,
        fun a => if p ≤ a ∧ a < p + alignedBytes sz size then none else m.cells a⟩,
       ⟨size, some p, alignDown (p + 15)⟩)

/-- `delete []`: of a null pointer it does nothing. -/
def aDelete (m : AMem β) (x : AObj) : Except CErr (AMem β) :=
  match x.base with
  | none => .ok m
  | some p =>
    if p ∈ m.live.map Prod.fst then .ok ⟨m.live.filter (fun b => b.1 ≠ p), m.cells⟩
    else .error .undefined

/-- `resize`, lines 63-69. -/
def aResize (A : CharAlloc β) (sz : ℕ) (m : AMem β) (x : AObj) (size : ℤ) : Except CErr (AMem β × AObj) :=
  if x.size = size then .ok (m, x)
  else do
    let m1 ← aDelete m x
    aAlloc A sz m1 size

/-- The address of `x[i]`, lines 74-83, and whether it may be used. -/
def aAddr (sz : ℕ) (m : AMem β) (x : AObj) (i : ℤ) : Except CErr ℕ :=
  match x.base with
  | none => .error .undefined
  | some p =>
    match m.live.find? (fun b => b.1 = p) with
    | none => .error .undefined
    | some b =>
      if (b.1 : ℤ) ≤ x.data + i * sz ∧ x.data + i * sz + sz ≤ b.1 + b.2 then .ok (x.data + i * sz).toNat
      else .error .outOfBounds

/-- What a program does with its arrays, named by numbers. -/
inductive AOp (β : Type) where
  | dflt (x : ℕ)
  | make (x : ℕ) (n : ℤ)
  | resize (x : ℕ) (n : ℤ)
  | set (x : ℕ) (i : ℤ) (v : β)
  | get (x : ℕ) (i : ℤ)
  | size (x : ℕ)
  | copy (x y : ℕ)
  | assign (x y : ℕ)
  | destroy (x : ℕ)

/-- What a program sees. -/
inductive AOut (β : Type) where
  | elem (v : Option β)
  | size (n : ℤ)

structure ASt (β : Type) where
  mem : AMem β
  vars : ℕ → Option AObj

/-- The object with a name. -/
def aVar (st : ASt β) (x : ℕ) : Except CErr AObj :=
  match st.vars x with
  | none => .error .undefined
  | some o => .ok o

/-- One operation. The class declares no copy constructor and no assignment, so the compiler's copy the
members. -/
def aStep (A : CharAlloc β) (sz : ℕ) (st : ASt β) : AOp β → Except CErr (ASt β × List (AOut β))
  | .dflt x => .ok (⟨st.mem, Function.update st.vars x (some aDflt)⟩, [])
  | .make x n => do
    let (m, o) ← aAlloc A sz st.mem n
    return (⟨m, Function.update st.vars x (some o)⟩, [])
  | .resize x n => do
    let o ← aVar st x
    let (m, o') ← aResize A sz st.mem o n
    return (⟨m, Function.update st.vars x (some o')⟩, [])
  | .set x i v => do
    let o ← aVar st x
    let a ← aAddr sz st.mem o i
    return (⟨⟨st.mem.live, Function.update st.mem.cells a (some v)⟩, st.vars⟩, [])
  | .get x i => do
    let o ← aVar st x
    let a ← aAddr sz st.mem o i
    return (st, [.elem (st.mem.cells a)])
  | .size x => do
    let o ← aVar st x
    return (st, [.size o.size])
  | .copy x y => do
    let o ← aVar st y
    return (⟨st.mem, Function.update st.vars x (some o)⟩, [])
  | .assign x y => do
    let o ← aVar st y
    let _ ← aVar st x
    return (⟨st.mem, Function.update st.vars x (some o)⟩, [])
  | .destroy x => do
    let o ← aVar st x
    let m ← aDelete st.mem o
    return (⟨m, Function.update st.vars x none⟩, [])

/-- A program. -/
def aRun (A : CharAlloc β) (sz : ℕ) : ASt β → List (AOp β) → Except CErr (ASt β × List (AOut β))
  | st, [] => .ok (st, [])
  | st, op :: ops => do
    let (st1, o1) ← aStep A sz st op
    let (st2, o2) ← aRun A sz st1 ops
    return (st2, o1 ++ o2)

/-- Before the first operation. -/
def aStart : ASt β := ⟨⟨[], fun _ => none⟩, fun _ => none⟩

end

end MaterSDK
