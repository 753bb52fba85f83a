import Verif.Model.CellListD
import Verif.Model.EnvMatrix

/-!
# The C++ environment matrix in doubles

The functions of `Verif/Model/EnvMatrix.lean` that belong to `EnvMatrix::find_value_deriv` once more, with
every floating point operation followed by a rounding `R`; `R := flR` is IEEE 754 double arithmetic, and
`R := id` gives back the definitions of `EnvMatrix.lean` (`Lemmas/EnvMatrixD.lean`). The order of the
operations is that of the source.

Simplifications: as in `Verif/Model/CellListD.lean`; `std::pow(x, n)` is the correctly rounded power.
-/

namespace MaterSDK

open Classical

variable (R : ℝ → ℝ)

/-- The scaled distance `uu`, se.h 62, 78 and 120. -/
noncomputable def scaledD (rcut rs d : ℝ) : ℝ := R (R (d - rs) / R (rcut - rs))

/-- The polynomial of the switch, se.h 67 and 126. -/
def polyD (uu : ℝ) : ℝ :=
  R (R (R (uu ^ 3) * R (R (R (-6 * R (uu ^ 2)) + R (15 * uu)) - 10)) + 1)

/-- `SwitchFunc::get_result`, se.h 59-72. -/
noncomputable def switchD (rcut rs d : ℝ) : ℝ :=
  if d < rs then 1
  else if rs ≤ d ∧ d < rcut then polyD R (scaledD R rcut rs d)
  else 0

/-- The polynomial of the derivative of the switch, se.h 83. -/
def dpolyD (uu : ℝ) : ℝ :=
  R (R (R (-30 * R (uu ^ 4)) + R (60 * R (uu ^ 3))) - R (30 * R (uu ^ 2)))

/-- `SwitchFunc::get_deriv2r`, se.h 75-88. -/
noncomputable def switchDerivD (rcut rs d : ℝ) : ℝ :=
  if d < rs then 0
  else if rs ≤ d ∧ d < rcut then R (R (1 / R (rcut - rs)) * dpolyD R (scaledD R rcut rs d))
  else 0

/-- `recip`, se.h 141-149. -/
noncomputable def recipD (d : ℝ) : ℝ := if d = 0 then 0 else R (1 / d)

/-- `smooth_func`, se.h 109-131. -/
noncomputable def smoothD (rcut rs d : ℝ) : ℝ :=
  let rr := if d = 0 then 0 else R (1 / d)
  if d < rs then rr
  else if rs ≤ d ∧ d < rcut then R (rr * polyD R (scaledD R rcut rs d))
  else 0

/-- The distance, envMatrix.h 97-100. -/
noncomputable def lengthD (v : Vec ℝ) : ℝ :=
  R (Real.sqrt (R (R (R (v 0 ^ 2) + R (v 1 ^ 2)) + R (v 2 ^ 2))))

/-- The four values of one slot, envMatrix.h 97-111. -/
noncomputable def envRowD (rcut rs : ℝ) (v : Vec ℝ) : Fin 4 → ℝ :=
  let d := lengthD R v
  let q := recipD R d
  let s := smoothD R rcut rs d
  ![s, R (R (s * q) * v 0), R (R (s * q) * v 1), R (R (s * q) * v 2)]

/-- Entry of the first row of a derivative block, envMatrix.h 115-123. -/
def derivD0 (q S D x : ℝ) : ℝ :=
  R (R (R (R (q ^ 2) * D) * x) - R (R (R (q ^ 3) * S) * x))

/-- Entry of the other rows for two equal coordinates, envMatrix.h 126-129, 141-144 and 156-159. -/
def derivDD (q S D x : ℝ) : ℝ :=
  R (R (R (R (R (q ^ 3) * D) * R (x ^ 2)) + R (R (q ^ 2) * S)) -
    R (R (R (2 * R (q ^ 4)) * S) * R (x ^ 2)))

/-- Entry of the other rows for two different coordinates, envMatrix.h 130-135, 138-140, 145-147 and
150-155. -/
def derivDO (q S D x y : ℝ) : ℝ :=
  R (R (R (R (R (q ^ 3) * D) * x) * y) - R (R (R (R (2 * R (q ^ 4)) * S) * x) * y))

/-- The twelve derivatives of one slot, envMatrix.h 113-159. -/
noncomputable def envDerivD (rcut rs : ℝ) (v : Vec ℝ) : Matrix (Fin 4) (Fin 3) ℝ :=
  let d := lengthD R v
  let q := recipD R d
  let S := switchD R rcut rs d
  let D := switchDerivD R rcut rs d
  !![derivD0 R q S D (v 0), derivD0 R q S D (v 1), derivD0 R q S D (v 2);
     derivDD R q S D (v 0), derivDO R q S D (v 0) (v 1), derivDO R q S D (v 0) (v 2);
     derivDO R q S D (v 1) (v 0), derivDD R q S D (v 1), derivDO R q S D (v 1) (v 2);
     derivDO R q S D (v 2) (v 0), derivDO R q S D (v 2) (v 1), derivDD R q S D (v 2)]

/-- `EnvMatrix::find_value_deriv`, envMatrix.h 47-165: value row and derivative block of every slot. -/
noncomputable def envFindD (p : SlotIn) (rel : List ℝ) (rcut rs : ℝ) :
    Except CErr (List ((Fin 4 → ℝ) × Matrix (Fin 4) (Fin 3) ℝ)) :=
  slotFill p (0, 0) (fun _ => .ok ()) (fun _ k _ => do
    let v ← cVec3 rel k
    return (envRowD R rcut rs v, envDerivD R rcut rs v))

end MaterSDK
