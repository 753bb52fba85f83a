import Verif.Model.EnvMatrixD

/-!
# `Se4pw` in doubles

`Se4pw::generate` of `Verif/Model/EnvMatrix.lean` once more, with every floating point operation followed
by a rounding `R`, in the order of the source; `R := id` gives back `se4pwGenerate`
(`Lemmas/Se4pwD.lean`). The length (`vec3Operation::norm`, vec3Operation.h 94-99), `recip` and
`smooth_func` are those of `Model/EnvMatrixD.lean`. Simplifications: as there.
-/

namespace MaterSDK

variable (R : ℝ → ℝ)

/-- Entry of the first row of a derivative block, se4pw.h 133-145. -/
def seD0 (q S D x : ℝ) : ℝ :=
  R (R (R (S * x) * R (q ^ 3)) - R (R (D * x) * R (q ^ 2)))

/-- Entry of the other rows for two equal coordinates, se4pw.h 148-152, 167-171 and 186-190. -/
def seDD (q S D x : ℝ) : ℝ :=
  R (R (R (R (R (2 * R (x ^ 2)) * S) * R (q ^ 4)) - R (S * R (q ^ 2))) -
    R (R (R (x ^ 2) * R (q ^ 3)) * D))

/-- Entry of the other rows for two different coordinates, se4pw.h 153-160, 163-166, 172-175 and
178-185. -/
def seDO (q S D x y : ℝ) : ℝ :=
  R (R (R (R (R (2 * x) * y) * S) * R (q ^ 4)) - R (R (R (x * y) * R (q ^ 3)) * D))

/-- The twelve derivatives of one slot, se4pw.h 133-190. -/
noncomputable def se4pwDerivD (rcut rs : ℝ) (v : Vec ℝ) : Matrix (Fin 4) (Fin 3) ℝ :=
  let d := lengthD R v
  let q := recipD R d
  let S := switchD R rcut rs d
  let D := switchDerivD R rcut rs d
  !![seD0 R q S D (v 0), seD0 R q S D (v 1), seD0 R q S D (v 2);
     seDD R q S D (v 0), seDO R q S D (v 0) (v 1), seDO R q S D (v 0) (v 2);
     seDO R q S D (v 1) (v 0), seDD R q S D (v 1), seDO R q S D (v 1) (v 2);
     seDO R q S D (v 2) (v 0), seDO R q S D (v 2) (v 1), seDD R q S D (v 2)]

/-- `Se4pw::generate`, se4pw.h 43-206: value row, derivative block and relative position of every
slot. -/
noncomputable def se4pwGenerateD (p : SlotIn) (ilist : List ℤ) (x : List ℝ) (rcut rs : ℝ) :
    Except CErr (List ((Fin 4 → ℝ) × Matrix (Fin 4) (Fin 3) ℝ × Vec ℝ)) :=
  slotFill p (0, 0, 0)
    (fun ii => do
      let i ← cGet ilist (ii : ℤ)
      cVec3 x i)
    (fun c _ nb => do
      let q ← cVec3 x nb
      let v : Vec ℝ := ![R (q 0 - c 0), R (q 1 - c 1), R (q 2 - c 2)]
      return (envRowD R rcut rs v, se4pwDerivD R rcut rs v, v))

end MaterSDK
