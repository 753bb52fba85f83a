import Verif.Model.DeepMD
import Verif.Model.Dataset
import Verif.Py.Str

/-! # Features of a structure for inference

/repo/matersdk/infer/pwmatmlff/deepmd/inference_depre.py, class `FFInfer`, 69-138. The network weights
are not modelled: `calc_tildeR` does not use them. -/

namespace MaterSDK

/-- `"{0}_{1}".format(center, nbr)`, inference_depre.py 115. -/
def pairKey (c n : ℕ) : Str := showNat c ++ '_' :: showNat n

/-- One pass of the inner loop, inference_depre.py 107-118. The descriptor is made before the width is
looked up. -/
noncomputable def ffPair (rcut rs : ℝ) (table : List (List NbrEntry)) (maxNbrs : List (ℕ × ℤ))
    (d : List (Str × List (List (Fin 4 → ℝ)))) (p : ℕ × ℕ) :
    Except PyErr (List (Str × List (List (Fin 4 → ℝ)))) := do
  let arr ← pairTildeR rcut rs table p.1 p.2
  let width ← pyDictGet maxNbrs p.2
  let block ← padWidth 0 arr width
  return dictSet d (pairKey p.1 p.2) block

/-- `FFInfer.calc_tildeR`, inference_depre.py 69-127. `order` is `list(set(...))` of the elements of the
structure (`_get_atomic_numbers`, 130-138), whose order python leaves open. -/
noncomputable def ffTildeR (A : ArgSort) (s : Struct ℝ) (rcut rs : ℝ) (sc : Fin 3 → ℤ) (order : List ℕ)
    (maxNbrs : List (ℕ × ℤ)) : Except PyErr (List (Str × List (List (Fin 4 → ℝ)))) := do
  let table ← neighborTable A s rcut sc
  (order.product order).foldlM (ffPair rcut rs table maxNbrs) []

end MaterSDK
