import Verif.Model.Structure
import Mathlib.Analysis.Real.Sqrt
import Mathlib.LinearAlgebra.Matrix.Determinant.Basic

/-!
# Random perturbation of structures

Model of `/repo/matersdk/adalearn/generator/perturbation.py` 13-109.

Simplifications.
* Scalars are real numbers.
* The random numbers are inputs: for every copy six numbers (`np.random.rand(6)`, in `[0, 1)`) and three
  numbers per atom (`np.random.randn(3)`).
* `np.linalg.qr` is an arbitrary function with the contract of `QR`; the signs it chooses are unknown.
* The temporary attributes `cell` and `coords` of the copy are arguments.
* A species is an atomic number. Site properties are not passed to the new structure.
-/

namespace MaterSDK

open Matrix

/-- What is known about `np.linalg.qr` of a 3x3 matrix: an orthogonal and an upper triangular factor. -/
structure QR where
  q : Matrix (Fin 3) (Fin 3) ℝ → Matrix (Fin 3) (Fin 3) ℝ
  r : Matrix (Fin 3) (Fin 3) ℝ → Matrix (Fin 3) (Fin 3) ℝ
  orthogonal : ∀ M, (q M)ᵀ * q M = 1
  upper : ∀ M i j, j < i → r M i j = 0
  product : ∀ M, q M * r M = M

open Classical

/-- `get_cell_perturb_matrix`, perturbation.py 61-71. -/
noncomputable def cellPerturbMatrix (frac : ℝ) (e0 : Fin 6 → ℝ) :
    Except PyErr (Matrix (Fin 3) (Fin 3) ℝ) :=
  if frac < 0 then .error .runtimeError
  else
    let e := fun i => (e0 i * 2 - 1) * frac
    .ok !![1 + e 0, 0.5 * e 5, 0.5 * e 4;
           0.5 * e 5, 1 + e 1, 0.5 * e 3;
           0.5 * e 4, 0.5 * e 3, 1 + e 2]

/-- `get_atom_perturb_vector`, perturbation.py 74-82. -/
noncomputable def atomPerturbVector (dist : ℝ) (e : Vec ℝ) : Except PyErr (Vec ℝ) :=
  if dist < 0 then .error .runtimeError
  else .ok (fun i => dist * e i / Real.sqrt 3)

/-- `rot[i][i]`, perturbation.py 92-98. -/
noncomputable def flipSign (x : ℝ) : ℝ := if x < 0 then -1 else 1

/-- `rot_lower_triangular`, perturbation.py 85-108. -/
noncomputable def rotLowerTriangular (F : QR) (cell : Matrix (Fin 3) (Fin 3) ℝ)
    (coords : List (Vec ℝ)) (species : List ℕ) : Except PyErr (Struct ℝ) :=
  let qq := F.q cellᵀ
  let qq := if qq.det < 0 then -qq else qq
  let cell := cell * qq
  let coords := coords.map (fun p => p ᵥ* qq)
  let rot := Matrix.diagonal (fun i => flipSign (cell i i))
  if rot.det ≠ 1 then .error .assertionError
  else .ok ⟨cell * rot, List.zipWith (fun z p => ⟨z, p ᵥ* rot, none⟩) species coords⟩

/-- One copy, perturbation.py 48-57. A structure without atoms has coordinates of shape `(0,)`, which
`np.matmul` refuses. -/
noncomputable def perturbOne (F : QR) (s : Struct ℝ) (frac dist : ℝ) (e0 : Fin 6 → ℝ)
    (es : ℕ → Vec ℝ) : Except PyErr (Struct ℝ) := do
  let pm ← cellPerturbMatrix frac e0
  let cell := s.lattice * pm
  if s.sites = [] then .error .valueError
  else
    let coords := s.sites.map (fun t => t.pos ᵥ* pm)
    let coords ← coords.zipIdx.mapM (fun (pk : Vec ℝ × ℕ) => do
      let v ← atomPerturbVector dist (es pk.2)
      return pk.1 + v)
    rotLowerTriangular F cell coords (s.sites.map Site.z)

/-- `perturb`, perturbation.py 18-58; `range(pert_num)` of a negative number is empty. -/
noncomputable def perturb (F : QR) (s : Struct ℝ) (pertNum : ℤ) (frac dist : ℝ)
    (e0 : ℕ → Fin 6 → ℝ) (es : ℕ → ℕ → Vec ℝ) : Except PyErr (List (Struct ℝ)) :=
  (List.range pertNum.toNat).mapM (fun (j : ℕ) => perturbOne F s frac dist (e0 j) (es j))

end MaterSDK
