import Verif.Model.EnvMatrix

/-!
# Radial functions of the moment tensor potentials

Model of
* `/repo/source/descriptor/mtpr/include/basis.h` 128-156 (`SwitchFunction`), 284-306
  (`RB_Chebyshev::build`), 503-515 (`RQ_Chebyshev::build`),
* `/repo/source/descriptor/mtp/include/mtpMRadial.h` 167-177 (`MtpSwitchFunc1`), 218-245
  (`MtpSwitchFunc2`), 375-404 (`ChebyshevPoly::build`), 550-562 (`MtpQ::build`),
* `/repo/source/descriptor/mtp/src/mtpMRadialOp.cc` 11-134 (`MtpQFunction`).

Simplifications.
* Scalars are real numbers. Sizes are natural numbers.
* The objects are functions of the constructor arguments: `build` overwrites all arrays it hands out.
* `assert` is active (no `NDEBUG`).
* `operator=` of these classes lacks a `return`, which is undefined behaviour in C++; the result of the
  assignments is never used and they are taken as written.
-/

namespace MaterSDK

open Classical

/-- One turn of the loop of `RB_Chebyshev::build`, basis.h 291-305, and `ChebyshevPoly::build`,
mtpMRadial.h 380-398: value and derivative with respect to the scaled distance. -/
noncomputable def chebStep (u : ℝ) (acc : List (ℝ × ℝ)) (ii : ℕ) : List (ℝ × ℝ) :=
  if ii = 0 then acc ++ [(1, 0)]
  else if ii = 1 then acc ++ [(u, 1)]
  else
    let a := acc.getD (ii - 1) 0
    let b := acc.getD (ii - 2) 0
    acc ++ [(2 * u * a.1 - b.1, 2 * a.1 + 2 * u * a.2 - b.2)]

/-- The whole loop. -/
noncomputable def chebLoop (u : ℝ) (size : ℕ) : List (ℝ × ℝ) := (List.range size).foldl (chebStep u) []

/-- `RB_Chebyshev::build`, basis.h 284-306: values and derivatives with respect to the distance. -/
noncomputable def rbBuild (size : ℕ) (rmax rmin d : ℝ) : Except CErr (List (ℝ × ℝ)) :=
  if rmin ≤ d ∧ d ≤ rmax then
    let uu := (2 * d - (rmax + rmin)) / (rmax - rmin)
    let c := 2 / (rmax - rmin)
    .ok ((chebLoop uu size).map (fun e => (e.1, e.2 * c)))
  else .error .assertFail

/-- `SwitchFunction::val`, basis.h 128-141. -/
noncomputable def sfVal (rmax rmin d : ℝ) : Except CErr ℝ :=
  if rmin ≤ d ∧ d ≤ rmax then
    let uu := (d - rmin) / (rmax - rmin)
    if d < rmin then .ok 0
    else if rmin ≤ d ∧ d < rmax then .ok (uu ^ 3 * (-6 * uu ^ 2 + 15 * uu - 10) + 1)
    else .ok 0
  else .error .assertFail

/-- `SwitchFunction::der2r`, basis.h 143-156. -/
noncomputable def sfDer (rmax rmin d : ℝ) : Except CErr ℝ :=
  if rmin ≤ d ∧ d ≤ rmax then
    let uu := (d - rmin) / (rmax - rmin)
    if d < rmin then .ok 0
    else if rmin ≤ d ∧ d < rmax then
      .ok (1 / (rmax - rmin) * (-30 * uu ^ 4 + 60 * uu ^ 3 - 30 * uu ^ 2))
    else .ok 0
  else .error .assertFail

/-- `RQ_Chebyshev::build`, basis.h 503-515: values and derivatives with respect to the distance. -/
noncomputable def rqBuild (size : ℕ) (rmax rmin d : ℝ) : Except CErr (List (ℝ × ℝ)) :=
  if rmin ≤ d ∧ d ≤ rmax then do
    let rb ← rbBuild size rmax rmin d
    rb.mapM (fun e => do
      let v ← sfVal rmax rmin d
      let w ← sfDer rmax rmin d
      return (v * e.1, w * e.1 + v * e.2))
  else .error .assertFail

/-- `MtpSwitchFunc1::get_result`, mtpMRadial.h 167-171. -/
noncomputable def mtpXi (rcut rs d : ℝ) : ℝ := (2 * d - (rcut + rs)) / (rcut - rs)

/-- `MtpSwitchFunc1::get_deriv2r`, mtpMRadial.h 173-177. -/
noncomputable def mtpXiDer (rcut rs : ℝ) : ℝ := 2 / (rcut - rs)

/-- `MtpSwitchFunc2::get_result`, mtpMRadial.h 218-231. -/
noncomputable def mtpSwitch (rcut rs d : ℝ) : ℝ :=
  let uu := (d - rs) / (rcut - rs)
  if d < rs then 0
  else if rs ≤ d ∧ d < rcut then uu ^ 3 * (-6 * uu ^ 2 + 15 * uu - 10) + 1
  else 0

/-- `MtpSwitchFunc2::get_deriv2r`, mtpMRadial.h 233-245. -/
noncomputable def mtpSwitchDer (rcut rs d : ℝ) : ℝ :=
  let uu := (d - rs) / (rcut - rs)
  if d < rs then 0
  else if rs ≤ d ∧ d < rcut then 1 / (rcut - rs) * (-30 * uu ^ 4 + 60 * uu ^ 3 - 30 * uu ^ 2)
  else 0

/-- `ChebyshevPoly::build`, mtpMRadial.h 375-404: values and derivatives with respect to the distance. -/
noncomputable def mtpCheb (size : ℕ) (rcut rs d : ℝ) : List (ℝ × ℝ) :=
  if rs ≤ d ∧ d < rcut then
    (chebLoop (mtpXi rcut rs d) size).map (fun e => (e.1, e.2 * mtpXiDer rcut rs))
  else List.replicate size (0, 0)

/-- `MtpQ::build`, mtpMRadial.h 550-562: values and derivatives with respect to the distance. -/
noncomputable def mtpQ (size : ℕ) (rcut rs d : ℝ) : List (ℝ × ℝ) :=
  let v := mtpSwitch rcut rs d
  let w := mtpSwitchDer rcut rs d
  (mtpCheb size rcut rs d).map (fun e => (e.1 * v, e.2 * v + e.1 * w))

/-- The distance of a relative position, mtpMRadialOp.cc 36-40 and 66-70. -/
noncomputable def mtpDist (v : Vec ℝ) : ℝ := Real.sqrt (v 0 ^ 2 + v 1 ^ 2 + v 2 ^ 2)

/-- Value and Cartesian derivative of one neighbour and one radial function, mtpMRadialOp.cc 42-53 and
72-83. -/
noncomputable def mtpQEntry (v : Vec ℝ) (e : ℝ × ℝ) : ℝ × Vec ℝ :=
  let d := mtpDist v
  (e.1, if d = 0 then ![0, 0, 0] else ![e.2 * v 0 / d, e.2 * v 1 / d, e.2 * v 2 / d])

/-- `MtpQFunction::forward`, mtpMRadialOp.cc 11-90: for every neighbour (`rcs` has one row per
neighbour) the values of the radial functions and the saved derivatives. -/
noncomputable def mtpQForward (size : ℕ) (rcut rs : ℝ) (rcs : List (Vec ℝ)) : List (List (ℝ × Vec ℝ)) :=
  rcs.map (fun v => (mtpQ size rcut rs (mtpDist v)).map (mtpQEntry v))

/-- `MtpQFunction::backward`, mtpMRadialOp.cc 93-134: `grad` has one row per neighbour, `saved` holds the
derivatives stored by `forward`. -/
def mtpQBackward (saved : List (List (Vec ℝ))) (grad : List (List ℝ)) : List (Vec ℝ) :=
  List.zipWith (fun (ds : List (Vec ℝ)) (gs : List ℝ) =>
    (List.zip gs ds).foldl (fun (acc : Vec ℝ) (e : ℝ × Vec ℝ) => fun c => acc c + e.1 * e.2 c) 0) saved grad

end MaterSDK
