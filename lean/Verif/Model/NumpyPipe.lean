import Verif.Model.Bind
import Verif.Model.EnvOp

/-!
# From numpy arrays to the descriptors of a batch

Model of the pipeline of `/repo/demo/v2/fromcc/nblist_demo.py` 28-93: `nblist.find_info4mlff`, the
conversion of the arrays it returns to tensors with an additional first axis (lines 60-78), and
`envMatrixOp` (lines 83-91).  The demo has one structure; several structures are stacked along the first
axis (`torch.stack`), which for one structure is `unsqueeze_(0)`.

* The demo passes seven arguments to `find_info4mlff`, which needs eight (`is_cart`): the model passes
  all of them.
* `relative_coords` become `float32` (line 69); the rounding is not modelled.
* The arrays `find_info4mlff` returns are contiguous, with shapes `(n)`, `(n)`, `(n, w)`, `(n, w, 3)` and
  `(n)` (nblist_bind.cc 104-170).
-/

namespace MaterSDK

/-- The arrays of one structure. -/
structure NpFrame where
  lattice : NpMat
  numbers : NpInts
  coords : NpMat

/-- The strides of a contiguous tensor. -/
def denseStrides : List ℕ → List ℕ
  | [] => []
  | _ :: ns => ns.prod :: denseStrides ns

/-- Contiguous arrays of the same shape stacked along a new first axis. -/
def stackTen {α : Type} (k : TKind) (sizes : List ℕ) (frames : List (List α)) : Ten α :=
  ⟨k, frames.flatten, 0, frames.length :: sizes, denseStrides (frames.length :: sizes)⟩

/-- The tensors made of the answers for several structures, nblist_demo.py 60-78. -/
def stackInfos (infos : List MlffInfo) (inum w : ℕ) (umax : List ℤ) : EnvOpIn where
  ilist := stackTen .int32 [inum] (infos.map MlffInfo.ilist)
  numneigh := stackTen .int32 [inum] (infos.map fun i => i.numneigh.map fun k : ℕ => (k : ℤ))
  firstneigh := stackTen .int32 [inum, w] (infos.map MlffInfo.firstneigh)
  rel := stackTen .float32 [inum, w, 3] (infos.map MlffInfo.rel)
  types := stackTen .int32 [inum] (infos.map MlffInfo.types)
  umax := stackTen .int32 [umax.length] (infos.map fun _ => umax)

/-- From numpy arrays to the slots of all structures, nblist_demo.py 28-91.  Stacking nothing, or arrays of
different shapes, throws. -/
noncomputable def npToEnv (A : ArgSort) (fs : List NpFrame) (rcut rs : ℝ) (pbc : Fin 3 → Bool) (w : ℕ)
    (umax : List ℤ) (sort isCart : Bool) : Except CErr (List EnvSlot) := do
  let infos ← fs.mapM fun f => bindFindInfo A f.lattice f.numbers f.coords rcut pbc w sort isCart
  match infos with
  | [] => .error .exception
  | i0 :: _ =>
    if infos.all (fun i => i.inum == i0.inum) then envOp (stackInfos infos i0.inum w umax) rcut rs
    else .error .exception

end MaterSDK
