import Verif.Model.EnvOp

/-! # Specification vocabulary for the batched operators -/

namespace MaterSDK

variable {α : Type}

/-- The elements lie in memory one after the other in the order in which python shows them. -/
def Ten.Dense (t : Ten α) : Prop := tenOffs t.sizes t.strides = List.range t.sizes.prod

/-- The first index of `t` numbers the frames, python shows the elements of the frames one frame after the
other, and the elements of a frame lie in memory one after the other.  The frames may lie anywhere, also on
top of each other. -/
structure Ten.Holds (t : Ten α) (k : TKind) (frames : List (List α)) : Prop where
  kind : t.kind = k
  size : t.sizes.head? = some frames.length
  strides : t.strides.length = t.sizes.length
  shows : t.shows = .ok frames.flatten
  lengths : ∀ l ∈ frames, l.length = t.sizes.tail.prod
  dense : tenOffs t.sizes.tail t.strides.tail = List.range t.sizes.tail.prod

/-- The arrays of one frame of `EnvMatrixOp`. -/
structure EnvFrame where
  ilist : List ℤ
  numneigh : List ℤ
  firstneigh : List ℤ
  rel : List ℝ
  types : List ℤ
  umax : List ℤ

/-- `find_value_deriv` for this frame alone. -/
noncomputable def EnvFrame.alone (f : EnvFrame) (inum : ℕ) (rcut rs : ℝ) : Except CErr (List EnvSlot) :=
  envFind ⟨inum, f.numneigh, f.firstneigh, f.types, f.umax⟩ f.rel rcut rs

/-- The tensors hold these frames, with `inum` centres and `ntypes` types. -/
structure EnvOpIn.Holds (t : EnvOpIn) (inum ntypes : ℕ) (fs : List EnvFrame) : Prop where
  ilist : t.ilist.Holds .int32 (fs.map EnvFrame.ilist)
  numneigh : t.numneigh.Holds .int32 (fs.map EnvFrame.numneigh)
  firstneigh : t.firstneigh.Holds .int32 (fs.map EnvFrame.firstneigh)
  rel : t.rel.Holds .float32 (fs.map EnvFrame.rel) ∨ t.rel.Holds .float64 (fs.map EnvFrame.rel)
  types : t.types.Holds .int32 (fs.map EnvFrame.types)
  umax : t.umax.Holds .int32 (fs.map EnvFrame.umax)
  size : t.ilist.sizes = [fs.length, inum]
  ntypes : t.umax.sizes = [fs.length, ntypes]

/-- The arrays of one frame of `Se4pwOp`. -/
structure Se4pwFrame where
  ilist : List ℤ
  numneigh : List ℤ
  firstneigh : List ℤ
  x : List ℝ
  types : List ℤ

/-- `Se4pw::generate` for this frame alone. -/
noncomputable def Se4pwFrame.alone (f : Se4pwFrame) (inum : ℕ) (umax : List ℤ) (rcut rs : ℝ) :
    Except CErr (List Se4pwSlot) :=
  se4pwGenerate ⟨inum, f.numneigh, f.firstneigh, f.types, umax⟩ f.ilist f.x rcut rs

/-- `Se4pw::get_prim_indices_from_matersdk` for this frame alone. -/
def Se4pwFrame.prim (f : Se4pwFrame) (inum : ℕ) (umax : List ℤ) : Except CErr (List ℤ) :=
  primIndices ⟨inum, f.numneigh, f.firstneigh, f.types, umax⟩ f.ilist

/-- The tensors hold these frames, and `umax` slots for the types. -/
structure Se4pwIn.Holds (t : Se4pwIn) (umax : List ℤ) (fs : List Se4pwFrame) : Prop where
  batch : t.batch = fs.length
  ilist : t.ilist.Holds .int32 (fs.map Se4pwFrame.ilist)
  numneigh : t.numneigh.Holds .int32 (fs.map Se4pwFrame.numneigh)
  firstneigh : t.firstneigh.Holds .int32 (fs.map Se4pwFrame.firstneigh)
  x : t.x.Holds .float32 (fs.map Se4pwFrame.x) ∨ t.x.Holds .float64 (fs.map Se4pwFrame.x)
  types : t.types.Holds .int32 (fs.map Se4pwFrame.types)
  kind : t.nums.kind = .int32
  nums : t.nums.shows = .ok umax
  dense : t.nums.Dense
  ntypes : t.ntypes = umax.length

end MaterSDK
