import Verif.Model.CellList

/-!
# The Python entry point of the neighbour list

Model of `/repo/source/nblist/bind/nblist_bind.cc` 29-176, `find_info4mlff`.

* A numpy array is a piece of memory, the place of its first element and the distances between
  neighbouring elements along each axis (strides, counted in elements).  Python shows the elements at
  these places; the C++ code takes `PyArray_DATA`, the place of the first element, and walks on as if
  the array were contiguous (lines 66-77).
* Atomic numbers are read as 32 bit words (line 70).  The memory of an integer array is modelled as
  its 32 bit words, the low word of a 64 bit integer first.
* Memory outside the buffer of an array is not modelled: reading it is `outOfBounds`.
* `pbc_xyz_py` is a list of three booleans, `umax_num_neigh_atoms` is not negative.
-/

namespace MaterSDK

/-- A two-dimensional numpy array of doubles. -/
structure NpMat where
  mem : List ℝ
  off : ℕ
  s0 : ℤ
  s1 : ℤ

/-- What Python shows as `a[i, j]`. -/
def NpMat.at (a : NpMat) (i j : ℕ) : Except CErr ℝ := cGet a.mem (a.off + i * a.s0 + j * a.s1)

/-- `((double*)PyArray_DATA(a))[k]`, nblist_bind.cc 66, 71. -/
def NpMat.raw (a : NpMat) (k : ℕ) : Except CErr ℝ := cGet a.mem (a.off + k)

/-- A one-dimensional numpy array of integers, in 32 bit words. -/
structure NpInts where
  words : List ℤ
  off : ℕ
  n : ℕ
  stride : ℤ
  /-- the elements have 64 bits -/
  long : Bool

/-- What Python shows as `a[i]`. -/
def NpInts.at (a : NpInts) (i : ℕ) : Except CErr ℤ :=
  if a.long then do
    let lo ← cGet a.words (a.off + i * a.stride)
    let hi ← cGet a.words (a.off + i * a.stride + 1)
    return lo % 2 ^ 32 + 2 ^ 32 * hi
  else cGet a.words (a.off + i * a.stride)

/-- `((int*)PyArray_DATA(a))[k]`, nblist_bind.cc 70. -/
def NpInts.raw (a : NpInts) (k : ℕ) : Except CErr ℤ := cGet a.words (a.off + k)

/-- Three consecutive doubles. -/
def NpMat.row (a : NpMat) (k : ℕ) : Except CErr (Vec ℝ) := do
  let x ← a.raw (k * 3 + 0)
  let y ← a.raw (k * 3 + 1)
  let z ← a.raw (k * 3 + 2)
  return ![x, y, z]

/-- The loops of nblist_bind.cc 67-69 and 72-77. -/
def NpMat.rows (a : NpMat) (n : ℕ) : Except CErr (List (Vec ℝ)) := (List.range n).mapM a.row

/-- The first `n` atomic numbers as the code reads them, nblist_bind.cc 72-73. -/
def NpInts.ints (a : NpInts) (n : ℕ) : Except CErr (List ℤ) := (List.range n).mapM a.raw

/-- `find_info4mlff` of the module `nblist`, nblist_bind.cc 29-118. -/
noncomputable def bindFindInfo (A : ArgSort) (lattice : NpMat) (numbers : NpInts) (coords : NpMat) (rcut : ℝ)
    (pbc : Fin 3 → Bool) (umax : ℕ) (sort isCart : Bool) : Except CErr MlffInfo := do
  let L ← lattice.rows 3
  let zs ← numbers.ints numbers.n
  let xs ← coords.rows numbers.n
  let N ← NbrLists.make A (CStruct.make (fun i => L.getD i 0) (zs.zip xs) isCart) rcut pbc sort
  N.findInfo umax

/-! ## The memory of one call

Sizes in bytes.  `none` is a freed block. -/

/-- The heap: the sizes of the blocks. -/
abbrev ByteHeap := List (Option ℕ)

/-- `malloc(size)`. -/
def bytesAlloc (h : ByteHeap) (size : ℕ) : ByteHeap × ℕ := (h ++ [some size], h.length)

/-- `free(p)`. -/
def bytesFree (h : ByteHeap) (p : ℕ) : Except CErr ByteHeap :=
  match h[p]? with
  | some (some _) => .ok (h.set p none)
  | _ => .error .undefined

/-- An array object made by `PyArray_SimpleNewFromData`: its buffer and the flag `NPY_OWNDATA`. -/
structure NpArr where
  ptr : ℕ
  owns : Bool
  deriving DecidableEq, Repr

/-- `PyArray_ENABLEFLAGS(a, NPY_OWNDATA)` on the array numbered `k`. -/
def enableOwn (arrs : List NpArr) (k : ℕ) : List NpArr :=
  arrs.modify k (fun a => ⟨a.ptr, true⟩)

/-- The memory of `find_info4mlff` after the numbers are computed, nblist_bind.cc 104-176, for `inum`
atoms.  The arrays are numbered `ilist`, `numneigh`, `firstneigh`, `relative_coords`, `types`.  The
flag of `numneigh` is set twice (lines 133 and 139). -/
def bindMemory (h : ByteHeap) (inum umax : ℕ) : Except CErr (ByteHeap × List NpArr) := do
  let (h, ilist) := bytesAlloc h (4 * inum)
  let (h, numneigh) := bytesAlloc h (4 * inum)
  let (h, firstneigh) := bytesAlloc h (4 * inum * umax)
  let (h, rel) := bytesAlloc h (8 * inum * umax * 3)
  let (h, types) := bytesAlloc h (4 * inum)
  let (h, d0) := bytesAlloc h 8
  let (h, d1) := bytesAlloc h 8
  let (h, d2) := bytesAlloc h 16
  let (h, d3) := bytesAlloc h 24
  let (h, d4) := bytesAlloc h 8
  let arrs : List NpArr := [⟨ilist, false⟩, ⟨numneigh, false⟩, ⟨firstneigh, false⟩, ⟨rel, false⟩,
    ⟨types, false⟩]
  let arrs := enableOwn arrs 0
  let arrs := enableOwn arrs 1
  let arrs := enableOwn arrs 1
  let arrs := enableOwn arrs 3
  let arrs := enableOwn arrs 4
  let h ← bytesFree h d0
  let h ← bytesFree h d1
  let h ← bytesFree h d2
  let h ← bytesFree h d3
  let h ← bytesFree h d4
  return (h, arrs)

/-- Python drops the result: numpy frees the buffers of the arrays which own theirs. -/
def dropResult (h : ByteHeap) (arrs : List NpArr) : Except CErr ByteHeap :=
  arrs.foldlM (fun h a => if a.owns then bytesFree h a.ptr else .ok h) h

/-- Calls of `find_info4mlff` whose results are dropped again. -/
def bindCalls : List (ℕ × ℕ) → ByteHeap → Except CErr ByteHeap
  | [], h => .ok h
  | c :: cs, h => do
    let r ← bindMemory h c.1 c.2
    let h ← dropResult r.1 r.2
    bindCalls cs h

/-- Bytes which are allocated. -/
def liveBytes (h : ByteHeap) : ℕ := (h.map fun o => o.getD 0).sum

end MaterSDK
