import Verif.Model.StructObj

/-!
# Nested arrays

`allocate3dArray`, `free3dArray` and their versions for four and five dimensions of
`source/core/include/arrayUtils.h`.  An array of `n` by … is a block of `n` pointers, each to an
array of the remaining dimensions; the last dimension is a block of numbers.

* The functions are the same for each number of dimensions, so that one definition by recursion on
  the list of sizes stands for all of them.  `ds` are the sizes without the last one, `m` is the
  last one: three dimensions are `ds = [n0, n1]`, five are `ds = [n0, n1, n2, n3]`.
* The heap is that of `Model/StructObj`.  A block of pointers holds addresses or nothing yet; a block
  of numbers holds numbers or nothing yet.
* The code stores the address of a block before it allocates the arrays behind it; here it is stored
  afterwards.
* Sizes are natural numbers; `malloc` does not fail.
-/

namespace MaterSDK

/-- Contents of a block: pointers or numbers; `none` is a cell which was not written. -/
inductive NBlock (K : Type) where
  | ptrs (l : List (Option ℕ))
  | vals (l : List (Option K))

abbrev NHeap (K : Type) := ObjHeap (NBlock K)

variable {K : Type}

/-- `p[i]` of a block of pointers. -/
def loadPtr (h : NHeap K) (p i : ℕ) : Except CErr ℕ := do
  let b ← objRead h p
  match b with
  | .val (.ptrs l) => do
    let q ← cGet l (i : ℤ)
    match q with
    | some q => return q
    | none => .error .undefined
  | _ => .error .undefined

/-- `p[i] = q` of a block of pointers. -/
def storePtr (h : NHeap K) (p i q : ℕ) : Except CErr (NHeap K) := do
  let b ← objRead h p
  match b with
  | .val (.ptrs l) =>
    if i < l.length then objWrite h p (.val (.ptrs (l.set i (some q)))) else .error .outOfBounds
  | _ => .error .undefined

/-- `p[i]` of a block of numbers. -/
def loadVal (h : NHeap K) (p i : ℕ) : Except CErr K := do
  let b ← objRead h p
  match b with
  | .val (.vals l) => do
    let v ← cGet l (i : ℤ)
    match v with
    | some v => return v
    | none => .error .undefined
  | _ => .error .undefined

/-- `p[i] = v` of a block of numbers. -/
def storeVal (h : NHeap K) (p i : ℕ) (v : K) : Except CErr (NHeap K) := do
  let b ← objRead h p
  match b with
  | .val (.vals l) =>
    if i < l.length then objWrite h p (.val (.vals (l.set i (some v)))) else .error .outOfBounds
  | _ => .error .undefined

/-- The loops which allocate: arrayUtils.h 30-36, 86-95, 150-162. -/
def mallocNested (m : ℕ) : List ℕ → NHeap K → Except CErr (NHeap K × ℕ)
  | [], h => return objAlloc h (.val (.vals (List.replicate m none)))
  | n :: ds, h => do
    let r := objAlloc h (.val (.ptrs (List.replicate n none)))
    let h' ← (List.range n).foldlM (fun g i => do
      let s ← mallocNested m ds g
      storePtr s.1 r.2 i s.2) r.1
    return (h', r.2)

/-- The loops which write zeros: arrayUtils.h 38-45, 97-106, 164-175. -/
def zeroNested [Zero K] (m : ℕ) : List ℕ → NHeap K → ℕ → Except CErr (NHeap K)
  | [], h, p => (List.range m).foldlM (fun g k => storeVal g p k 0) h
  | n :: ds, h, p => (List.range n).foldlM (fun g i => do
      let q ← loadPtr g p i
      zeroNested m ds g q) h

/-- `allocate3dArray`, `allocate4dArray`, `allocate5dArray`: arrayUtils.h 28-48, 84-110, 141-178. -/
def allocNested [Zero K] (m : ℕ) (ds : List ℕ) (init : Bool) (h : NHeap K) :
    Except CErr (NHeap K × ℕ) := do
  let r ← mallocNested m ds h
  if init then do
    let h' ← zeroNested m ds r.1 r.2
    return (h', r.2)
  else return r

/-- `free3dArray`, `free4dArray`, `free5dArray`: arrayUtils.h 59-67, 113-124, 181-201. -/
def freeNested : List ℕ → NHeap K → ℕ → Except CErr (NHeap K)
  | [], h, p => objFree h p
  | n :: ds, h, p => do
    let h' ← (List.range n).foldlM (fun g i => do
      let q ← loadPtr g p i
      freeNested ds g q) h
    objFree h' p

/-- `p[i][j]…[k]`. -/
def readNested (h : NHeap K) : ℕ → List ℕ → Except CErr K
  | _, [] => .error .undefined
  | p, [k] => loadVal h p k
  | p, i :: j :: idx => do
    let q ← loadPtr h p i
    readNested h q (j :: idx)

/-- `p[i][j]…[k] = v`. -/
def writeNested (v : K) (h : NHeap K) : ℕ → List ℕ → Except CErr (NHeap K)
  | _, [] => .error .undefined
  | p, [k] => storeVal h p k v
  | p, i :: j :: idx => do
    let q ← loadPtr h p i
    writeNested v h q (j :: idx)

end MaterSDK
