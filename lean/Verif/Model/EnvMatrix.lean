import Verif.Model.CellList
import Verif.Model.DeepMD

/-!
# C++ environment matrix

Model of
* `/repo/source/descriptor/deepmd/include/se.h` 36-88 (`SwitchFunc`), 100-131 (`smooth_func`), 134-149
  (`recip`),
* `/repo/source/descriptor/deepmd/include/envMatrix.h` 47-165 (`EnvMatrix::find_value_deriv`),
* `/repo/source/descriptor/deepmd/include/se4pw.h` 43-206 (`Se4pw::generate`), 211-254
  (`Se4pw::get_prim_indices_from_matersdk`).

Simplifications.
* Scalars are real numbers, `int` is unbounded.
* The output arrays are cut into the groups of entries that are always written together: 4 numbers
  (`tilde_r`), 12 numbers (`tilde_r_deriv`), 3 numbers (`relative_coords`), 1 number (`prim_indices`)
  per slot.
* Writing outside an array is the error `outOfBounds`; the code does not check.
* A negative count in `umax_num_neigh_atoms_lst` or a negative `inum` is the error `undefined` (the code
  would clear a negative number of bytes).
-/

namespace MaterSDK

open Classical

/-- `SwitchFunc::get_result`, se.h 59-72. -/
noncomputable def cSwitch (rcut rs d : ℝ) : ℝ :=
  let uu := (d - rs) / (rcut - rs)
  if d < rs then 1
  else if rs ≤ d ∧ d < rcut then uu ^ 3 * (-6 * uu ^ 2 + 15 * uu - 10) + 1
  else 0

/-- `SwitchFunc::get_deriv2r`, se.h 75-88. -/
noncomputable def cSwitchDeriv (rcut rs d : ℝ) : ℝ :=
  let uu := (d - rs) / (rcut - rs)
  if d < rs then 0
  else if rs ≤ d ∧ d < rcut then 1 / (rcut - rs) * (-30 * uu ^ 4 + 60 * uu ^ 3 - 30 * uu ^ 2)
  else 0

/-- `recip`, se.h 141-149. -/
noncomputable def cRecip (d : ℝ) : ℝ := if d = 0 then 0 else 1 / d

/-- `smooth_func`, se.h 109-131. -/
noncomputable def cSmooth (rcut rs d : ℝ) : ℝ :=
  let rr := if d = 0 then 0 else 1 / d
  let uu := (d - rs) / (rcut - rs)
  if d < rs then rr
  else if rs ≤ d ∧ d < rcut then rr * (uu ^ 3 * (-6 * uu ^ 2 + 15 * uu - 10) + 1)
  else 0

/-- The four values of one slot, envMatrix.h 97-111, se4pw.h 107-126. -/
noncomputable def cEnvRow (rcut rs : ℝ) (v : Vec ℝ) : Fin 4 → ℝ :=
  let d := Real.sqrt (v 0 ^ 2 + v 1 ^ 2 + v 2 ^ 2)
  let q := cRecip d
  let s := cSmooth rcut rs d
  ![s, s * q * v 0, s * q * v 1, s * q * v 2]

/-- The twelve derivatives of one slot, envMatrix.h 113-155. -/
noncomputable def cEnvDeriv (rcut rs : ℝ) (v : Vec ℝ) : Matrix (Fin 4) (Fin 3) ℝ :=
  let d := Real.sqrt (v 0 ^ 2 + v 1 ^ 2 + v 2 ^ 2)
  let q := cRecip d
  let S := cSwitch rcut rs d
  let D := cSwitchDeriv rcut rs d
  !![q ^ 2 * D * v 0 - q ^ 3 * S * v 0,
     q ^ 2 * D * v 1 - q ^ 3 * S * v 1,
     q ^ 2 * D * v 2 - q ^ 3 * S * v 2;
     q ^ 3 * D * v 0 ^ 2 + q ^ 2 * S - 2 * q ^ 4 * S * v 0 ^ 2,
     q ^ 3 * D * v 0 * v 1 - 2 * q ^ 4 * S * v 0 * v 1,
     q ^ 3 * D * v 0 * v 2 - 2 * q ^ 4 * S * v 0 * v 2;
     q ^ 3 * D * v 1 * v 0 - 2 * q ^ 4 * S * v 1 * v 0,
     q ^ 3 * D * v 1 ^ 2 + q ^ 2 * S - 2 * q ^ 4 * S * v 1 ^ 2,
     q ^ 3 * D * v 1 * v 2 - 2 * q ^ 4 * S * v 1 * v 2;
     q ^ 3 * D * v 2 * v 0 - 2 * q ^ 4 * S * v 2 * v 0,
     q ^ 3 * D * v 2 * v 1 - 2 * q ^ 4 * S * v 2 * v 1,
     q ^ 3 * D * v 2 ^ 2 + q ^ 2 * S - 2 * q ^ 4 * S * v 2 ^ 2]

/-- The twelve derivatives of one slot, se4pw.h 132-195. -/
noncomputable def cSe4pwDeriv (rcut rs : ℝ) (v : Vec ℝ) : Matrix (Fin 4) (Fin 3) ℝ :=
  let d := Real.sqrt (v 0 ^ 2 + v 1 ^ 2 + v 2 ^ 2)
  let q := cRecip d
  let S := cSwitch rcut rs d
  let D := cSwitchDeriv rcut rs d
  !![S * v 0 * q ^ 3 - D * v 0 * q ^ 2,
     S * v 1 * q ^ 3 - D * v 1 * q ^ 2,
     S * v 2 * q ^ 3 - D * v 2 * q ^ 2;
     2 * v 0 ^ 2 * S * q ^ 4 - S * q ^ 2 - v 0 ^ 2 * q ^ 3 * D,
     2 * v 0 * v 1 * S * q ^ 4 - v 0 * v 1 * q ^ 3 * D,
     2 * v 0 * v 2 * S * q ^ 4 - v 0 * v 2 * q ^ 3 * D;
     2 * v 1 * v 0 * S * q ^ 4 - v 1 * v 0 * q ^ 3 * D,
     2 * v 1 ^ 2 * S * q ^ 4 - S * q ^ 2 - v 1 ^ 2 * q ^ 3 * D,
     2 * v 1 * v 2 * S * q ^ 4 - v 1 * v 2 * q ^ 3 * D;
     2 * v 2 * v 0 * S * q ^ 4 - v 2 * v 0 * q ^ 3 * D,
     2 * v 2 * v 1 * S * q ^ 4 - v 2 * v 1 * q ^ 3 * D,
     2 * v 2 ^ 2 * S * q ^ 4 - S * q ^ 2 - v 2 ^ 2 * q ^ 3 * D]

/-- `nstart_idxs`, envMatrix.h 78-82, se4pw.h 70-75 and 225-230. -/
def nstartIdxs (umax : List ℤ) : List ℤ := (List.range umax.length).map (fun i => (umax.take i).sum)

/-- The arrays shared by the three loops. -/
structure SlotIn where
  inum : ℤ
  numneigh : List ℤ
  firstneigh : List ℤ
  types : List ℤ
  umax : List ℤ

/-- `umax_num_neigh_atoms`, envMatrix.h 63-65; `tot_num_neigh_atoms`, se4pw.h 78-80 and 232-234. -/
def SlotIn.width (p : SlotIn) : ℤ := p.umax.sum

/-- One step of the loop over the neighbours, envMatrix.h 92-157, se4pw.h 101-203, 243-249: the state
holds the slots written so far and `nloop_idxs`. -/
def slotStep {α : Type} (p : SlotIn) (val : ℤ → ℤ → Except CErr α) (ii : ℕ)
    (st : List α × List ℤ) (jj : ℕ) : Except CErr (List α × List ℤ) := do
  let nb ← cGet p.firstneigh (ii * p.width + jj)
  let t ← cGet p.types nb
  let a ← val (ii * p.width + jj) nb
  let start ← cGet (nstartIdxs p.umax) t
  let k ← cGet st.2 t
  let out ← cSet st.1 (ii * p.width + (start + k)) a
  let nloop ← cSet st.2 t (k + 1)
  return (out, nloop)

/-- The loop over the centres, envMatrix.h 87-158, se4pw.h 91-204, 238-250; `centre` is what is read
before the neighbours of a centre are visited. -/
def slotFill {α β : Type} (p : SlotIn) (zero : α) (centre : ℕ → Except CErr β)
    (val : β → ℤ → ℤ → Except CErr α) : Except CErr (List α) :=
  if p.inum < 0 ∨ p.umax.any (fun m => decide (m < 0)) then .error .undefined
  else (List.range p.inum.toNat).foldlM (fun (out : List α) (ii : ℕ) => do
      let c ← centre ii
      let n ← cGet p.numneigh (ii : ℤ)
      let st ← (List.range n.toNat).foldlM (slotStep p (val c) ii)
        (out, List.replicate p.umax.length 0)
      return st.1)
    (List.replicate (p.inum * p.width).toNat zero)

/-- Read three consecutive numbers. -/
def cVec3 (l : List ℝ) (k : ℤ) : Except CErr (Vec ℝ) := do
  let x ← cGet l (k * 3)
  let y ← cGet l (k * 3 + 1)
  let z ← cGet l (k * 3 + 2)
  return ![x, y, z]

/-- `EnvMatrix::find_value_deriv`, envMatrix.h 47-165: value row and derivative block of every slot. -/
noncomputable def envFind (p : SlotIn) (rel : List ℝ) (rcut rs : ℝ) :
    Except CErr (List ((Fin 4 → ℝ) × Matrix (Fin 4) (Fin 3) ℝ)) :=
  slotFill p (0, 0) (fun _ => .ok ()) (fun _ k _ => do
    let v ← cVec3 rel k
    return (cEnvRow rcut rs v, cEnvDeriv rcut rs v))

/-- `Se4pw::generate`, se4pw.h 43-206: value row, derivative block and relative position of every
slot. -/
noncomputable def se4pwGenerate (p : SlotIn) (ilist : List ℤ) (x : List ℝ) (rcut rs : ℝ) :
    Except CErr (List ((Fin 4 → ℝ) × Matrix (Fin 4) (Fin 3) ℝ × Vec ℝ)) :=
  slotFill p (0, 0, 0)
    (fun ii => do
      let i ← cGet ilist (ii : ℤ)
      cVec3 x i)
    (fun c _ nb => do
      let q ← cVec3 x nb
      let v : Vec ℝ := ![q 0 - c 0, q 1 - c 1, q 2 - c 2]
      return (cEnvRow rcut rs v, cSe4pwDeriv rcut rs v, v))

/-- `Se4pw::get_prim_indices_from_matersdk`, se4pw.h 211-254; `memset` with `-1` gives `-1`. -/
def primIndices (p : SlotIn) (ilist : List ℤ) : Except CErr (List ℤ) :=
  slotFill p (-1) (fun ii => cGet ilist (ii : ℤ)) (fun _ _ nb => .ok (nb.tmod p.inum))

end MaterSDK
