import Verif.Model.MtpRadial
import Verif.Model.StructObj

/-!
# The older radial basis of the moment tensor potentials

Model of `/repo/source/descriptor/mtp/include/mtpMRadial_de.h`: `SwitchFunc` (52-88) and
`RadialBasisChebyshev` (174-337, 388-433).

* Scalars are real numbers; `hmju` is an integer.
* An array has exactly the elements it was allocated for; a write elsewhere is `outOfBounds`.
  `malloc` of a negative number of elements gets a huge size and returns the null pointer, so that
  the first write is undefined.
* The functions of the class are run by the constructor only, in the order of lines 212-215; calling
  them again gives the same arrays.
* The class has neither destructor nor copy operations: an object is its scalars and four addresses,
  and nothing is freed when it ends.
* `show_in_value` and `show_in_deriv` are left out; they print.
-/

namespace MaterSDK

open Classical

/-- `SwitchFunc::get_result`, mtpMRadial_de.h 59-72. -/
noncomputable def rbcSwitch (rcut rs r : ℝ) : ℝ :=
  let uu := (r - rs) / (rcut - rs)
  if r < rs then 1
  else if rs ≤ r ∧ r < rcut then uu ^ 3 * (-6 * uu ^ 2 + 15 * uu - 10) + 1
  else 0

/-- `SwitchFunc::get_deriv2rji`, mtpMRadial_de.h 75-88. -/
noncomputable def rbcSwitchDer (rcut rs r : ℝ) : ℝ :=
  let uu := (r - rs) / (rcut - rs)
  if r < rs then 0
  else if rs ≤ r ∧ r < rcut then 1 / (rcut - rs) * (-30 * uu ^ 4 + 60 * uu ^ 3 - 30 * uu ^ 2)
  else 0

/-- The indices of `for (int ii=2; ii<(hmju+1); ii++)`. -/
def rbcFrom2 (hmju : ℤ) : List ℤ := cRange 2 hmju

/-- `calc_chebyshev_vals`, mtpMRadial_de.h 220-240. -/
noncomputable def rbcChebVals (rcut rs : ℝ) (hmju : ℤ) (r : ℝ) (a : List ℝ) : Except CErr (List ℝ) :=
  let ksi := (2 * r - (rcut + rs)) / (rcut - rs)
  if hmju = 0 then cSet a 0 1
  else if hmju = 1 then do
    let a1 ← cSet a 0 1
    cSet a1 1 ksi
  else do
    let a1 ← cSet a 0 1
    let a2 ← cSet a1 1 ksi
    (rbcFrom2 hmju).foldlM (fun a ii => do
      let x ← cGet a (ii - 1)
      let y ← cGet a (ii - 2)
      cSet a ii (2 * ksi * x - y)) a2

/-- `calc_chebyshev_ders`, mtpMRadial_de.h 244-269; `v` are the values. -/
noncomputable def rbcChebDers (rcut rs : ℝ) (hmju : ℤ) (r : ℝ) (v a : List ℝ) :
    Except CErr (List ℝ) :=
  let ksi := (2 * r - (rcut + rs)) / (rcut - rs)
  let ksiDer := 2 / (rcut - rs)
  if hmju = 0 then cSet a 0 0
  else if hmju = 1 then do
    let a1 ← cSet a 0 0
    cSet a1 1 ksiDer
  else do
    let a1 ← cSet a 0 0
    let a2 ← cSet a1 1 ksiDer
    (rbcFrom2 hmju).foldlM (fun a ii => do
      let x ← cGet v (ii - 1)
      let y ← cGet a (ii - 1)
      let z ← cGet a (ii - 2)
      cSet a ii (2 * ksiDer * x + 2 * ksi * y - z)) a2

/-- The last two functions fill an array index by index with the same expression `f`:
mtpMRadial_de.h 277-292, 302-336. -/
def rbcFill (hmju : ℤ) (f : ℤ → Except CErr ℝ) (a : List ℝ) : Except CErr (List ℝ) :=
  let put := fun (a : List ℝ) (ii : ℤ) => do
    let x ← f ii
    cSet a ii x
  if hmju = 0 then put a 0
  else if hmju = 1 then do
    let a1 ← put a 0
    put a1 1
  else do
    let a1 ← put a 0
    let a2 ← put a1 1
    (rbcFrom2 hmju).foldlM put a2

/-- `calc_rb_vals`, mtpMRadial_de.h 272-293. -/
noncomputable def rbcVals (rcut rs : ℝ) (hmju : ℤ) (r : ℝ) (v a : List ℝ) : Except CErr (List ℝ) :=
  rbcFill hmju (fun ii => do
    let x ← cGet v ii
    return rbcSwitch rcut rs r * x) a

/-- `calc_rb_ders`, mtpMRadial_de.h 296-337. -/
noncomputable def rbcDers (rcut rs : ℝ) (hmju : ℤ) (r : ℝ) (v d a : List ℝ) : Except CErr (List ℝ) :=
  rbcFill hmju (fun ii => do
    let y ← cGet d ii
    let x ← cGet v ii
    return rbcSwitch rcut rs r * y + rbcSwitchDer rcut rs r * x) a

/-- What the accessors of an object show, mtpMRadial_de.h 388-433. -/
structure RbcShown where
  rcut : ℝ
  rs : ℝ
  hmju : ℤ
  rji : ℝ
  chebVals : List ℝ
  chebDers : List ℝ
  rbVals : List ℝ
  rbDers : List ℝ

/-- The constructor with arguments, mtpMRadial_de.h 187-216. -/
noncomputable def rbcNew (rcut rs : ℝ) (hmju : ℤ) (r : ℝ) : Except CErr RbcShown :=
  if rcut > rs then
    if hmju + 1 < 0 then .error .undefined
    else do
      let z := List.replicate (hmju + 1).toNat (0 : ℝ)
      let v ← rbcChebVals rcut rs hmju r z
      let d ← rbcChebDers rcut rs hmju r v z
      let rv ← rbcVals rcut rs hmju r v z
      let rd ← rbcDers rcut rs hmju r v d z
      return ⟨rcut, rs, hmju, r, v, d, rv, rd⟩
  else .error .assertFail

/-- A program with objects of this class: `none` constructs an object without arguments
(174-184), `some` constructs one with arguments which is then destroyed at the end of its block - there is no
destructor, so that this does nothing. -/
noncomputable def rbcRun (h : ObjHeap (List ℝ)) :
    List (Option (ℝ × ℝ × ℤ × ℝ)) → Except CErr (ObjHeap (List ℝ))
  | [] => .ok h
  | none :: ops => rbcRun h ops
  | some (rcut, rs, hmju, r) :: ops => do
    let o ← rbcNew rcut rs hmju r
    let h1 := (objAlloc h (.val o.chebVals)).1
    let h2 := (objAlloc h1 (.val o.chebDers)).1
    let h3 := (objAlloc h2 (.val o.rbVals)).1
    let h4 := (objAlloc h3 (.val o.rbDers)).1
    rbcRun h4 ops

end MaterSDK
