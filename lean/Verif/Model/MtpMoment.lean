import Verif.Model.MtpRadial
import Verif.Model.MtpLevel

/-!
# Moments and their contractions

Model of
* `/repo/source/descriptor/mtp/src/mtpMAngularOp.cc` 57-92 (`MtpMAngularOp`) with 11-33
  (`OuterNu0Function::forward`),
* `/repo/source/descriptor/mtp/src/mtpMModule.cc` 11-25 (constructor), 38-71 (`forward`),
* `/repo/source/descriptor/mtp/src/mtpBModule.cc` 11-31 (constructor), 33-92 (`forward`),
* `/repo/source/core/include/vec3Operation.h` 36-69 (`RecursionOuterProduct`).

Simplifications.
* Scalars are real numbers.
* A tensor with all sides 3 is its number of indices and a function of the list of indices; only lists of
  that length matter.
* The random start values of the coefficients are a parameter.
* Failed checks of torch (index out of range, shapes that do not fit) are `CErr.exception`.
* `assert` is active (no `NDEBUG`).
* The gradients that autograd derives from these operations are not modelled.
-/

namespace MaterSDK

/-- `tensor[i]` of torch for a one-dimensional tensor: negative indices count from the end. -/
def torchGet {α : Type} (l : List α) (i : ℤ) : Except CErr α :=
  let k := if i < 0 then i + l.length else i
  if 0 ≤ k then
    match l[k.toNat]? with
    | some x => .ok x
    | none => .error .exception
  else .error .exception

/-- `parameter_list[i]`: the index is converted to an unsigned number, so negative ones are too large. -/
def paramGet {α : Type} (l : List α) (i : ℤ) : Except CErr α :=
  if 0 ≤ i then
    match l[i.toNat]? with
    | some x => .ok x
    | none => .error .exception
  else .error .exception

/-- A tensor whose sides are all 3. -/
structure Tens where
  dim : ℕ
  val : List (Fin 3) → ℝ

/-- Sum over all lists of `n` indices. -/
def sumIdx : ℕ → (List (Fin 3) → ℝ) → ℝ
  | 0, f => f []
  | n + 1, f => sumIdx n (fun K => f (0 :: K)) + sumIdx n (fun K => f (1 :: K)) + sumIdx n (fun K => f (2 :: K))

/-- One neighbour of `MtpMAngularOp`, mtpMAngularOp.cc 70-89: ones for `nu = 0`, the relative position for
`nu = 1`, otherwise one more outer product with the relative position on the right. -/
def angularPow (r : Vec ℝ) : ℕ → List (Fin 3) → ℝ
  | 0 => fun _ => 1
  | 1 => fun idx => r (idx.getD 0 0)
  | n + 2 => fun idx => angularPow r (n + 1) (idx.take (n + 1)) * r (idx.getD (n + 1) 0)

/-- The parameters of `MtpMModule`, mtpMModule.cc 11-25. `coeffs` is `cheby_coeff_list`. -/
structure MtpParams where
  size : ℕ
  ntypes : ℕ
  rcut : ℝ
  rs : ℝ
  coeffs : List (List ℝ)

/-- `at::dot` of two vectors of the same length. -/
def torchDot (a b : List ℝ) : ℝ := (List.zipWith (fun x y => x * y) a b).sum

/-- The factor and the relative position of one neighbour, mtpMModule.cc 64-68. -/
noncomputable def momentRow (P : MtpParams) (mu : ℕ) (types : List ℤ) (zi : ℤ) (e : ℤ × Vec ℝ) :
    Except CErr (ℝ × Vec ℝ) := do
  let zj ← torchGet types e.1
  let cf ← paramGet P.coeffs (mu * P.ntypes * P.ntypes + zi * P.ntypes + zj)
  return (torchDot cf ((mtpQ P.size P.rcut P.rs (mtpDist e.2)).map Prod.fst), e.2)

/-- `MtpMModuleImpl::forward`, mtpMModule.cc 38-71. -/
noncomputable def mtpMoment (P : MtpParams) (mu nu : ℕ) (iidx : ℤ) (ifirst : List ℤ) (types : List ℤ)
    (rcs : List (Vec ℝ)) : Except CErr Tens := do
  let zi ← torchGet types iidx
  if rcs.length < ifirst.length then .error .exception
  else do
    let rows ← (List.zip ifirst rcs).mapM (momentRow P mu types zi)
    return { dim := nu, val := fun idx => (rows.map (fun w => w.1 * angularPow w.2 nu idx)).sum }

/-- One step of the contraction, mtpBModule.cc 68-86. -/
def mtpContract (p m : Tens) : Except CErr Tens :=
  if m.dim ≤ p.dim then
    .ok { dim := p.dim - m.dim, val := fun idx => sumIdx m.dim (fun K => p.val (idx ++ K) * m.val K) }
  else if p.dim = 0 then .ok { dim := m.dim, val := fun idx => p.val [] * m.val idx }
  else .error .assertFail

/-- The loop over the moments of one combination, mtpBModule.cc 58-87, from the tensor `p`. -/
noncomputable def mtpBLoop (P : MtpParams) (iidx : ℤ) (ifirst : List ℤ) (types : List ℤ) (rcs : List (Vec ℝ)) :
    Tens → List (ℕ × ℕ) → Except CErr Tens
  | p, [] => .ok p
  | p, c :: cs => do
    let m ← mtpMoment P c.1 c.2 iidx ifirst types rcs
    let q ← mtpContract p m
    mtpBLoop P iidx ifirst types rcs q cs

/-- One basis function, mtpBModule.cc 56-88: the result is stored in an entry of the output, so it must be
a scalar. -/
noncomputable def mtpBasis (P : MtpParams) (iidx : ℤ) (ifirst : List ℤ) (types : List ℤ) (rcs : List (Vec ℝ))
    (comb : List (ℕ × ℕ)) : Except CErr ℝ := do
  let t ← mtpBLoop P iidx ifirst types rcs { dim := 0, val := fun _ => 1 } comb
  if t.dim = 0 then return t.val [] else .error .exception

/-- `MtpBModuleImpl::forward`, mtpBModule.cc 33-92, for the combinations `combs`. -/
noncomputable def mtpForward (P : MtpParams) (combs : List (List (ℕ × ℕ))) (ilist : List (List ℤ))
    (firstneigh : List (List (List ℤ))) (rcs : List (List (List (Vec ℝ)))) (types : List ℤ) :
    Except CErr (List (List (List ℝ))) :=
  ilist.zipIdx.mapM (fun b => b.1.zipIdx.mapM (fun c => combs.mapM (fun comb => do
    let fs ← torchGet firstneigh b.2
    let f ← torchGet fs c.2
    let xs ← torchGet rcs b.2
    let x ← torchGet xs c.2
    mtpBasis P c.1 f types x comb)))

/-- `RecursionOuterProduct`, vec3Operation.h 36-69: rows of three numbers. For `nju <= 0` the rows are
written outside the empty array. -/
def recOuter (v : Vec ℝ) : ℕ → Except CErr (List (List ℝ))
  | 0 => .error .outOfBounds
  | 1 => .ok [[v 0, v 1, v 2]]
  | n + 2 => do
    let lower ← recOuter v (n + 1)
    return lower.flatMap (fun row => row.map (fun x => [x * v 0, x * v 1, x * v 2]))

end MaterSDK
