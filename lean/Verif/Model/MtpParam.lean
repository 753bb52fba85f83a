import Verif.Model.CellList
import Verif.Py.Str

/-!
# Parameter files of moment tensor potentials

Model of `/repo/source/descriptor/mtpr/src/mtpParam.cc` 12-266: reading a file (28-129), the constructors,
assignments and the destructor.

Simplifications.
* `int` is an integer with a range check on input. A count is not limited by memory.
* A stream is the list of characters that are left. A failed extraction is the exception that the next
  test of the code throws: after every extraction the code either tests `fail()` or compares the word
  just read, and a failed extraction leaves the previous, different word.
* `malloc(0)` returns a new block of length 0 (a null pointer is allowed too and behaves the same here).
  A negative number of bytes yields a null pointer, which is not read.
* The move assignment lacks `return` (undefined behaviour by itself); its body is modelled.
* Tables are lists of rows of four numbers.
-/

namespace MaterSDK

/-- One row of `alpha_index_basic` or `alpha_index_times`. -/
abbrev MtpQuad := ℤ × ℤ × ℤ × ℤ

/-- What `MtpParam` holds. -/
structure MtpTables where
  momentsCount : ℤ
  basicCount : ℤ
  basic : List MtpQuad
  timesCount : ℤ
  times : List MtpQuad
  scalarCount : ℤ
  mapping : List ℤ
  deriving DecidableEq

/-- `ifs.ignore(n, delim)`. -/
def ignoreTo (delim : Char) : ℕ → Str → Str
  | 0, s => s
  | _ + 1, [] => []
  | n + 1, c :: cs => if c = delim then cs else ignoreTo delim n cs

/-- `for (ii < k) ifs.ignore(5000, '\n')`, mtpParam.cc 38-39. -/
def skipHeader : ℕ → Str → Str
  | 0, s => s
  | k + 1, s => skipHeader k (ignoreTo '\n' 5000 s)

/-- `ifs >> tmpstr; if (tmpstr != word) MtpError(...)`, mtpParam.cc 42-44 and later. -/
def readKeyword (word s : Str) : Except CErr Str :=
  let (w, r) := (s.dropWhile isSpace).span (fun c => !isSpace c)
  if w = word then .ok r else .error .exception

/-- `ifs >> n` for an `int`. -/
def readInt (s : Str) : Except CErr (ℤ × Str) :=
  let (neg, r) := takeSign (s.dropWhile isSpace)
  let (ds, r') := r.span Char.isDigit
  let v : ℤ := if neg then -(natOfDigits ds : ℤ) else natOfDigits ds
  if ds ≠ [] ∧ -2147483648 ≤ v ∧ v ≤ 2147483647 then .ok (v, r') else .error .exception

/-- `ifs >> tmpch`. -/
def readChar (s : Str) : Except CErr Str :=
  match s.dropWhile isSpace with
  | [] => .error .exception
  | _ :: r => .ok r

/-- A count with its keyword, mtpParam.cc 42-48. -/
def readCount (word s : Str) : Except CErr (ℤ × Str) := do
  let r ← readKeyword word s
  readInt (r.drop 2)

/-- One row, mtpParam.cc 67-73. -/
def readQuad (s : Str) : Except CErr (MtpQuad × Str) := do
  let (a, s) ← readInt (ignoreTo '{' 1000 s)
  let s ← readChar s
  let (b, s) ← readInt s
  let s ← readChar s
  let (c, s) ← readInt s
  let s ← readChar s
  let (d, s) ← readInt s
  return ((a, b, c, d), s)

/-- The loop over the rows, mtpParam.cc 65-74 and 94-103. -/
def readQuads : ℕ → Str → Except CErr (List MtpQuad × Str)
  | 0, s => .ok ([], s)
  | n + 1, s => do
    let (q, s) ← readQuad s
    let (qs, s) ← readQuads n s
    return (q :: qs, s)

/-- A table with its keyword, mtpParam.cc 61-75 and 89-104. -/
def readTable (word : Str) (n : ℤ) (s : Str) : Except CErr (List MtpQuad × Str) := do
  let r ← readKeyword word s
  let (qs, r) ← readQuads n.toNat (r.drop 4)
  return (qs, ignoreTo '\n' 1000 r)

/-- The loop over the mapping, mtpParam.cc 121-126. -/
def readMapping : ℕ → Str → Except CErr (List ℤ × Str)
  | 0, s => .ok ([], s)
  | n + 1, s => do
    let (v, s) ← readInt s
    let s ← readChar s
    let (vs, s) ← readMapping n s
    return (v :: vs, s)

/-- `MtpParam(filename)`, mtpParam.cc 23-129; `none`: the file cannot be opened. -/
def mtpLoad (file : Option Str) : Except CErr MtpTables :=
  match file with
  | none => .error .exception
  | some text => do
    let s := skipHeader 10 text
    let (m, s) ← readCount (chars% "alpha_moments_count") s
    let (nb, s) ← readCount (chars% "alpha_index_basic_count") s
    let (basic, s) ← readTable (chars% "alpha_index_basic") nb s
    let (nt, s) ← readCount (chars% "alpha_index_times_count") s
    let (times, s) ← readTable (chars% "alpha_index_times") nt s
    let (ns, s) ← readCount (chars% "alpha_scalar_moments") s
    let s ← readKeyword (chars% "alpha_moment_mapping") s
    let (mapping, _) ← readMapping ns.toNat (s.drop 4)
    return ⟨m, nb, basic, nt, times, ns, mapping⟩

/-! ## Objects in memory -/

/-- The heap: blocks handed out so far, `none` for a block that was freed. A row of four numbers is one
entry; a mapping entry is a row `(v, 0, 0, 0)`. -/
abbrev MtpHeap := List (Option (List MtpQuad))

/-- `malloc` followed by filling the block. -/
def heapNew (h : MtpHeap) (b : List MtpQuad) : MtpHeap × Option ℕ := (h ++ [some b], some h.length)

/-- `free`: nothing for a null pointer; freeing a block twice is undefined. -/
def heapFree (h : MtpHeap) : Option ℕ → Except CErr MtpHeap
  | none => .ok h
  | some p =>
    match h[p]? with
    | some (some _) => .ok (h.set p none)
    | _ => .error .undefined

/-- Read the first `n` entries of a block. -/
def heapRead (h : MtpHeap) (p : Option ℕ) (n : ℕ) : Except CErr (List MtpQuad) :=
  if n = 0 then .ok []
  else match p with
    | none => .error .undefined
    | some p =>
      match h[p]? with
      | some (some b) => if n ≤ b.length then .ok (b.take n) else .error .outOfBounds
      | _ => .error .undefined

/-- The members of an `MtpParam`; `none` is a null pointer. -/
structure MtpObj where
  moments : ℤ
  basicCount : ℤ
  basic : Option ℕ
  timesCount : ℤ
  times : Option ℕ
  scalarCount : ℤ
  mapping : Option ℕ
  deriving DecidableEq

/-- `MtpParam()`, mtpParam.cc 12-21. -/
def mtpEmpty : MtpObj := ⟨0, 0, none, 0, none, 0, none⟩

/-- What the accessors of an object show: counts and tables. -/
def mtpView (h : MtpHeap) (o : MtpObj) : Except CErr MtpTables := do
  let b ← heapRead h o.basic o.basicCount.toNat
  let t ← heapRead h o.times o.timesCount.toNat
  let m ← heapRead h o.mapping o.scalarCount.toNat
  return ⟨o.moments, o.basicCount, b, o.timesCount, t, o.scalarCount, m.map Prod.fst⟩

/-- The object a successful load leaves behind, mtpParam.cc 60, 87-88 and 116: no block for an empty
`alpha_index_times`. -/
def mtpStore (h : MtpHeap) (t : MtpTables) : MtpHeap × MtpObj :=
  let (h, b) := heapNew h t.basic
  let (h, ti) := if t.timesCount ≠ 0 then heapNew h t.times else (h, none)
  let (h, m) := heapNew h (t.mapping.map (fun v => (v, 0, 0, 0)))
  (h, ⟨t.momentsCount, t.basicCount, b, t.timesCount, ti, t.scalarCount, m⟩)

/-- Copy one table: read the entries and store them in a new block. -/
def copyBlock (h : MtpHeap) (p : Option ℕ) (n : ℤ) : Except CErr (MtpHeap × Option ℕ) := do
  let b ← heapRead h p n.toNat
  return heapNew h b

/-- `MtpParam(const MtpParam& rhs)`, mtpParam.cc 131-156. -/
def mtpCopy (h : MtpHeap) (r : MtpObj) : Except CErr (MtpHeap × MtpObj) := do
  let (h, b) ← copyBlock h r.basic r.basicCount
  let (h, t) ← copyBlock h r.times r.timesCount
  let (h, m) ← copyBlock h r.mapping r.scalarCount
  return (h, ⟨r.moments, r.basicCount, b, r.timesCount, t, r.scalarCount, m⟩)

/-- `MtpParam(MtpParam&& rhs)`, mtpParam.cc 158-176: the new object and the emptied source. -/
def mtpMove (r : MtpObj) : MtpObj × MtpObj := (r, mtpEmpty)

/-- `if (count != 0) { free(p); count = 0; }`. -/
def freeIf (h : MtpHeap) (n : ℤ) (p : Option ℕ) : Except CErr MtpHeap :=
  if n ≠ 0 then heapFree h p else .ok h

/-- The part of both assignments that releases the old tables, mtpParam.cc 180-192 and 228-240: the
pointers keep their values. -/
def mtpRelease (h : MtpHeap) (o : MtpObj) : Except CErr (MtpHeap × MtpObj) := do
  let h ← freeIf h o.basicCount o.basic
  let h ← freeIf h o.timesCount o.times
  let h ← freeIf h o.scalarCount o.mapping
  return (h, { o with moments := 0, basicCount := 0, timesCount := 0, scalarCount := 0 })

/-- `if (count != 0) { malloc; copy }`: otherwise the old pointer stays. -/
def copyIf (h : MtpHeap) (old : Option ℕ) (p : Option ℕ) (n : ℤ) :
    Except CErr (MtpHeap × Option ℕ) :=
  if n ≠ 0 then copyBlock h p n else .ok (h, old)

/-- The copying part of the copy assignment, mtpParam.cc 194-220, `o` being the released object. -/
def mtpFill (h : MtpHeap) (o r : MtpObj) : Except CErr (MtpHeap × MtpObj) := do
  let (h, b) ← copyIf h o.basic r.basic r.basicCount
  let (h, t) ← copyIf h o.times r.times r.timesCount
  let (h, m) ← copyIf h o.mapping r.mapping r.scalarCount
  return (h, ⟨r.moments, r.basicCount, b, r.timesCount, t, r.scalarCount, m⟩)

/-- `o = r` for two different objects, mtpParam.cc 178-223. -/
def mtpAssign (h : MtpHeap) (o r : MtpObj) : Except CErr (MtpHeap × MtpObj) := do
  let (h, o) ← mtpRelease h o
  mtpFill h o r

/-- `o = o`, mtpParam.cc 178-223: there is no test for self-assignment. -/
def mtpAssignSelf (h : MtpHeap) (o : MtpObj) : Except CErr (MtpHeap × MtpObj) := do
  let (h, o) ← mtpRelease h o
  mtpFill h o o

/-- `o = std::move(r)` for two different objects, mtpParam.cc 225-259: the assigned object and the
source. Line 246 copies the wrong pointer. -/
def mtpMoveAssign (h : MtpHeap) (o r : MtpObj) : Except CErr (MtpHeap × MtpObj × MtpObj) := do
  let (h, _) ← mtpRelease h o
  return (h, ⟨r.moments, r.basicCount, r.basic, r.timesCount, r.basic, r.scalarCount, r.mapping⟩, mtpEmpty)

/-- `~MtpParam()`, mtpParam.cc 261-266. -/
def mtpDestroy (h : MtpHeap) (o : MtpObj) : Except CErr MtpHeap := do
  let h ← heapFree h o.basic
  let h ← heapFree h o.times
  heapFree h o.mapping

/-! ## Programs that use several objects -/

/-- What a program does with its objects; objects are numbered in the order of construction. -/
inductive MtpOp where
  /-- `MtpParam x;` -/
  | dflt
  /-- `MtpParam x(file);` the file holding these tables -/
  | load (t : MtpTables)
  /-- `MtpParam x(y);` -/
  | copy (y : ℕ)
  /-- `MtpParam x(std::move(y));` -/
  | move (y : ℕ)
  /-- `x = y;` -/
  | assign (x y : ℕ)
  /-- `x = std::move(y);` -/
  | moveAssign (x y : ℕ)
  /-- the end of the scope of `x` -/
  | destroy (x : ℕ)

/-- The heap, and the objects constructed so far (`none`: destroyed). -/
structure MtpState where
  heap : MtpHeap
  pool : List (Option MtpObj)

/-- An object that is alive; using any other is undefined. -/
def MtpState.obj (s : MtpState) (i : ℕ) : Except CErr MtpObj :=
  match s.pool[i]? with
  | some (some o) => .ok o
  | _ => .error .undefined

/-- One operation. -/
def mtpStep (s : MtpState) : MtpOp → Except CErr MtpState
  | .dflt => .ok ⟨s.heap, s.pool ++ [some mtpEmpty]⟩
  | .load t => let (h, o) := mtpStore s.heap t; .ok ⟨h, s.pool ++ [some o]⟩
  | .copy y => do
    let r ← s.obj y
    let (h, o) ← mtpCopy s.heap r
    return ⟨h, s.pool ++ [some o]⟩
  | .move y => do
    let r ← s.obj y
    let (o, r') := mtpMove r
    return ⟨s.heap, s.pool.set y (some r') ++ [some o]⟩
  | .assign x y => do
    let o ← s.obj x
    let r ← s.obj y
    let (h, o') ← if x = y then mtpAssignSelf s.heap o else mtpAssign s.heap o r
    return ⟨h, s.pool.set x (some o')⟩
  | .moveAssign x y => do
    let o ← s.obj x
    let r ← s.obj y
    if x = y then return s
    else
      let (h, o', r') ← mtpMoveAssign s.heap o r
      return ⟨h, (s.pool.set x (some o')).set y (some r')⟩
  | .destroy x => do
    let o ← s.obj x
    let h ← mtpDestroy s.heap o
    return ⟨h, s.pool.set x none⟩

/-- A program, from a state. -/
def mtpRun (s : MtpState) (ops : List MtpOp) : Except CErr MtpState := ops.foldlM mtpStep s

end MaterSDK
