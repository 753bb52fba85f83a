import Verif.Model.ArrayUtils

/-!
# Memory used by the functions of `TildeR`

The static functions of `/repo/source/descriptor/deepmd/include/se.h`: `TildeR::generate` 1860-1981
and 1984-2096, `TildeR::deriv` 2208-2341 and 2344-2459, with the functions of `PairTildeR` they call,
853-968 and 1116-1271.  Here only what they allocate, write and free counts; the values are in
`Model/TildeR`.

* The sizes behind the centre and the neighbour are `tail` and `m`: for `generate` there is no `tail`
  and `m = 4`; for `deriv` they are `[4]` and `m = 3`.
* `ws` are the assignments to the array of one pair of elements.
* The counts and the starts are read from the blocks of integers in the code; here they are arguments
  and sums, and the blocks of integers are not written.
-/

namespace MaterSDK

variable {K : Type}

/-- All indices below the sizes, in the order of the loops. -/
def nestedIdx (m : ℕ) : List ℕ → List (List ℕ)
  | [] => (List.range m).map fun k => [k]
  | n :: ds => (List.range n).flatMap fun i => (nestedIdx m ds).map (i :: ·)

/-- The cell `[cs + k][ns + l]…` for the cell `[k][l]…`. -/
def shiftIdx (cs ns : ℕ) : List ℕ → List ℕ
  | k :: l :: t => (cs + k) :: (ns + l) :: t
  | t => t

/-- The static `PairTildeR::generate` and `PairTildeR::deriv`: se.h 879-890, 965-967, 1136-1147,
1268-1270. -/
def pairMem [Zero K] (m : ℕ) (tail : List ℕ) (n w : ℕ) (ws : List (List ℕ × K)) (h : NHeap K) :
    Except CErr (NHeap K × ℕ) := do
  let d := objAlloc h (.val (.vals (List.replicate 3 none)))
  let r ← allocNested m (n :: w :: tail) true d.1
  let g ← ws.foldlM (fun g a => writeNested a.2 g r.2 a.1) r.1
  let g ← objFree g d.2
  return (g, r.2)

/-- Copy the array of a pair into the large one: se.h 1954-1965, 2070-2081, 2307-2328, 2426-2447. -/
def copyMem (m : ℕ) (tail : List ℕ) (n w cs ns src dst : ℕ) (h : NHeap K) : Except CErr (NHeap K) :=
  (nestedIdx m (n :: w :: tail)).foldlM (fun g idx => do
    let v ← readNested g src idx
    writeNested v g dst (shiftIdx cs ns idx)) h

/-- The functions which fill an array of the caller, `dst`: `TildeR::generate` se.h 2001-2095 with
`freeStarts`, `TildeR::deriv` se.h 2361-2456 without. -/
def tildeMemInto [Zero K] (freeStarts : Bool) (m : ℕ) (tail nc nn : List ℕ)
    (ws : ℕ → ℕ → List (List ℕ × K)) (dst : ℕ) (h : NHeap K) : Except CErr (NHeap K) := do
  let num := objAlloc h .uninit
  let cst := objAlloc num.1 .uninit
  let nst := objAlloc cst.1 .uninit
  let g ← nc.zipIdx.foldlM (fun g ci => nn.zipIdx.foldlM (fun g nj => do
    let r ← pairMem m tail ci.1 nj.1 (ws ci.2 nj.2) g
    let g ← copyMem m tail ci.1 nj.1 (nc.take ci.2).sum (nn.take nj.2).sum r.2 dst r.1
    freeNested (ci.1 :: nj.1 :: tail) g r.2) g) nst.1
  let g ← objFree g num.2
  if freeStarts then do
    let g ← objFree g cst.2
    objFree g nst.2
  else return g

/-- The functions which return a new array: `TildeR::generate` se.h 1876-1980 without `init`,
`TildeR::deriv` se.h 2223-2340 with it.  Both free what they need on the way. -/
def tildeMemNew [Zero K] (init : Bool) (m : ℕ) (tail nc nn : List ℕ)
    (ws : ℕ → ℕ → List (List ℕ × K)) (h : NHeap K) : Except CErr (NHeap K × ℕ) := do
  let r ← allocNested m (nc.sum :: nn.sum :: tail) init h
  let g ← tildeMemInto true m tail nc nn ws r.2 r.1
  return (g, r.2)

end MaterSDK
