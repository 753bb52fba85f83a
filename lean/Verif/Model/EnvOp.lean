import Verif.Model.EnvMatrix

/-!
# The batched operators of the environment matrix

Model of
* `/repo/source/descriptor/deepmd/src/envMatrixOp.cc` 23-161 (`EnvMatrixFunction::forward`, `backward`,
  `EnvMatrixOp`), registered for python in `descriptor/deepmd/bind/envMatrixOp_bind.cc` 7-31,
* `/repo/source/descriptor/deepmd/src/se4pw_op.cc` 30-105 (`Se4pwOp::forward`), 109-149
  (`Se4pwOp::get_prim_indices_from_matersdk`).

A tensor is a piece of memory, the place of its first element, sizes and strides (counted in elements)
and an element type.  `t[ii]` follows the first stride.  `data_ptr<T>()` throws if the element type
is not `T`; else it is the address of the first element, and the code walks on from there through
memory, whatever the strides are.  Reading behind the memory of the tensor is `outOfBounds`.

Simplifications as in `Model/EnvMatrix`; `assert` is active; `float` and `double` are real numbers;
sums do not overflow.  The outputs are new contiguous tensors, cut into slots as in
`Model/EnvMatrix`; a frame may write into the slots behind its own, up to the end of the tensor.
-/

namespace MaterSDK

open Classical

/-- Element types. -/
inductive TKind
  | int32 | int64 | float32 | float64 | other
  deriving DecidableEq, Repr

/-- A tensor. -/
structure Ten (α : Type) where
  kind : TKind
  mem : List α
  off : ℕ
  sizes : List ℕ
  strides : List ℕ

variable {α β : Type}

/-- The places of the elements in the order in which python shows them, from the first one. -/
def tenOffs : List ℕ → List ℕ → List ℕ
  | n :: ns, s :: ss => (List.range n).flatMap fun i => (tenOffs ns ss).map fun o => i * s + o
  | _, _ => [0]

/-- The elements python shows, flattened. -/
def Ten.shows (t : Ten α) : Except CErr (List α) :=
  (tenOffs t.sizes t.strides).mapM fun o => cGet t.mem ((t.off + o : ℕ) : ℤ)

/-- `t[ii]`. -/
def Ten.row (t : Ten α) (ii : ℕ) : Except CErr (Ten α) :=
  match t.sizes, t.strides with
  | n :: ns, s :: ss => if ii < n then .ok ⟨t.kind, t.mem, t.off + ii * s, ns, ss⟩ else .error .exception
  | _, _ => .error .exception

/-- `t.data_ptr<T>()`: everything from the first element on. -/
def Ten.data (t : Ten α) (k : TKind) : Except CErr (List α) :=
  if t.kind = k then .ok (t.mem.drop t.off) else .error .exception

/-- `t[ii].data_ptr<T>()`. -/
def Ten.frame (t : Ten α) (k : TKind) (ii : ℕ) : Except CErr (List α) := do
  let r ← t.row ii
  r.data k

/-- `t.size(i)`. -/
def Ten.size (t : Ten α) (i : ℕ) : Except CErr ℕ :=
  match t.sizes[i]? with
  | some n => .ok n
  | none => .error .exception

/-- The first `n` elements behind a pointer. -/
def cFirst (l : List α) (n : ℕ) : Except CErr (List α) :=
  if n ≤ l.length then .ok (l.take n) else .error .outOfBounds

/-- The loops of `slotFill` on an array which may be longer than the slots, after `memset`
(envMatrix.h 66-67, se4pw.h 82-84, 235). -/
def slotFillOn (p : SlotIn) (zero : α) (centre : ℕ → Except CErr β)
    (val : β → ℤ → ℤ → Except CErr α) (buf : List α) : Except CErr (List α) :=
  if p.inum < 0 ∨ p.umax.any (fun m => decide (m < 0)) then .error .undefined
  else if buf.length < (p.inum * p.width).toNat then .error .outOfBounds
  else (List.range p.inum.toNat).foldlM (fun (out : List α) (ii : ℕ) => do
      let c ← centre ii
      let n ← cGet p.numneigh (ii : ℤ)
      let st ← (List.range n.toNat).foldlM (slotStep p (val c) ii)
        (out, List.replicate p.umax.length 0)
      return st.1)
    (List.replicate (p.inum * p.width).toNat zero ++ buf.drop (p.inum * p.width).toNat)

/-- One frame writes from its first slot on. -/
def frameOn (base : ℕ) (out : List α) (f : List α → Except CErr (List α)) : Except CErr (List α) := do
  let r ← f (out.drop base)
  return out.take base ++ r

/-- A slot of `EnvMatrixOp`. -/
abbrev EnvSlot := (Fin 4 → ℝ) × Matrix (Fin 4) (Fin 3) ℝ

/-- A slot of `Se4pwOp`. -/
abbrev Se4pwSlot := (Fin 4 → ℝ) × Matrix (Fin 4) (Fin 3) ℝ × Vec ℝ

/-- The inputs of `EnvMatrixOp` which are tensors. -/
structure EnvOpIn where
  ilist : Ten ℤ
  numneigh : Ten ℤ
  firstneigh : Ten ℤ
  rel : Ten ℝ
  types : Ten ℤ
  umax : Ten ℤ

/-- The assertions, envMatrixOp.cc 36-43. -/
def EnvOpIn.kindsOk (t : EnvOpIn) : Prop :=
  t.ilist.kind = .int32 ∧ t.numneigh.kind = .int32 ∧ t.firstneigh.kind = .int32 ∧
    t.types.kind = .int32 ∧ t.umax.kind = .int32 ∧ (t.rel.kind = .float32 ∨ t.rel.kind = .float64)

/-- One frame, envMatrixOp.cc 80-120. -/
noncomputable def envOpFrame (t : EnvOpIn) (rcut rs : ℝ) (inum u0 ntypes : ℕ) (out : List EnvSlot)
    (ii : ℕ) : Except CErr (List EnvSlot) := do
  let _ ← t.ilist.frame .int32 ii
  let numneigh ← t.numneigh.frame .int32 ii
  let firstneigh ← t.firstneigh.frame .int32 ii
  let types ← t.types.frame .int32 ii
  let um ← t.umax.frame .int32 ii
  let rel ← t.rel.frame (if t.rel.kind = .float32 then .float32 else .float64) ii
  let umax ← cFirst um ntypes
  frameOn (ii * (inum * u0)) out (slotFillOn ⟨inum, numneigh, firstneigh, types, umax⟩ (0, 0)
    (fun _ => .ok ()) (fun _ k _ => do
      let v ← cVec3 rel k
      return (cEnvRow rcut rs v, cEnvDeriv rcut rs v)))

/-- `EnvMatrixFunction::forward`, envMatrixOp.cc 23-124: the slots of all frames.  The number of slots
of a centre is the sum of the first row of `umax_num_neigh_atoms_lst` (line 52). -/
noncomputable def envOp (t : EnvOpIn) (rcut rs : ℝ) : Except CErr (List EnvSlot) :=
  if t.kindsOk then do
    let batch ← t.ilist.size 0
    let inum ← t.ilist.size 1
    let row0 ← t.umax.row 0
    let u ← row0.shows
    let ntypes ← t.umax.size 1
    let out : List EnvSlot := List.replicate (batch * (inum * u.sum.toNat)) (0, 0)
    if u.sum < 0 then .error .exception
    else (List.range batch).foldlM (envOpFrame t rcut rs inum u.sum.toNat ntypes) out
  else .error .assertFail

/-- `EnvMatrixFunction::backward`, envMatrixOp.cc 127-137: the gradients of the eight arguments;
an undefined tensor is `none`. -/
def envOpBackward (_grads : List EnvSlot) : List (Option (List (Vec ℝ))) := List.replicate 8 none

/-- The inputs of `Se4pwOp::forward` which are tensors, and its numbers. -/
structure Se4pwIn where
  batch : ℕ
  inum : ℕ
  ilist : Ten ℤ
  numneigh : Ten ℤ
  firstneigh : Ten ℤ
  x : Ten ℝ
  types : Ten ℤ
  ntypes : ℕ
  nums : Ten ℤ

/-- One frame, se4pw_op.cc 58-80, 82-101. -/
noncomputable def se4pwOpFrame (t : Se4pwIn) (rcut rs : ℝ) (tot : ℕ) (out : List Se4pwSlot) (ii : ℕ) :
    Except CErr (List Se4pwSlot) := do
  let ilist ← t.ilist.frame .int32 ii
  let numneigh ← t.numneigh.frame .int32 ii
  let firstneigh ← t.firstneigh.frame .int32 ii
  let x ← t.x.frame (if t.x.kind = .float32 then .float32 else .float64) ii
  let types ← t.types.frame .int32 ii
  let um ← t.nums.data .int32
  let umax ← cFirst um t.ntypes
  frameOn (ii * (t.inum * tot)) out (slotFillOn ⟨t.inum, numneigh, firstneigh, types, umax⟩ (0, 0, 0)
    (fun jj => do
      let i ← cGet ilist (jj : ℤ)
      cVec3 x i)
    (fun c _ nb => do
      let q ← cVec3 x nb
      let v : Vec ℝ := ![q 0 - c 0, q 1 - c 1, q 2 - c 2]
      return (cEnvRow rcut rs v, cSe4pwDeriv rcut rs v, v)))

/-- `Se4pwOp::forward`, se4pw_op.cc 30-105.  The results of the conversions in lines 48-52 are dropped.
For coordinates which are not floating-point numbers `data_ptr<double>` of the output throws. -/
noncomputable def se4pwOp (t : Se4pwIn) (rcut rs : ℝ) : Except CErr (List Se4pwSlot) := do
  let u ← t.nums.shows
  let out : List Se4pwSlot := List.replicate (t.batch * (t.inum * u.sum.toNat)) (0, 0, 0)
  if u.sum < 0 then .error .exception
  else (List.range t.batch).foldlM (se4pwOpFrame t rcut rs u.sum.toNat) out

/-- One frame, se4pw_op.cc 133-145. -/
def primOpFrame (t : Se4pwIn) (tot : ℕ) (out : List ℤ) (ii : ℕ) : Except CErr (List ℤ) := do
  let ilist ← t.ilist.frame .int32 ii
  let numneigh ← t.numneigh.frame .int32 ii
  let firstneigh ← t.firstneigh.frame .int32 ii
  let types ← t.types.frame .int32 ii
  let um ← t.nums.data .int32
  let umax ← cFirst um t.ntypes
  frameOn (ii * (t.inum * tot)) out (slotFillOn ⟨t.inum, numneigh, firstneigh, types, umax⟩ (-1)
    (fun jj => cGet ilist (jj : ℤ)) (fun _ _ nb => .ok (nb.tmod t.inum)))

/-- `Se4pwOp::get_prim_indices_from_matersdk`, se4pw_op.cc 109-149. -/
def primOp (t : Se4pwIn) : Except CErr (List ℤ) := do
  let u ← t.nums.shows
  let out : List ℤ := List.replicate (t.batch * (t.inum * u.sum.toNat)) 0
  if u.sum < 0 then .error .exception
  else (List.range t.batch).foldlM (primOpFrame t u.sum.toNat) out

end MaterSDK
