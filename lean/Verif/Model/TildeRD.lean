import Verif.Model.TildeR
import Verif.Model.Se4pwD

/-!
# The static functions of `PairTildeR` and `TildeR` in doubles

The functions of `Verif/Model/TildeR.lean` which take arrays of atoms, once more, with every floating point
operation followed by a rounding `R`, in the order of the source; `R := id` gives back the functions there
(`Lemmas/TildeRD.lean`). The only floating point operations are the three differences (se.h 937-938,
1193-1194) and those behind them, so the loops are shared. Length, `recip`, `smooth_func` and the switch
function are those of `Model/EnvMatrixD.lean`; the twelve expressions se.h 1206-1260 are those of
`Model/Se4pwD.lean`. Simplifications: as in these files.
-/

namespace MaterSDK

variable (R : ℝ → ℝ)

/-- `diff_cart_coord`, se.h 937-938 and 1193-1194. -/
def diffD (v : Vec ℝ) : Vec ℝ := ![R (v 0), R (v 1), R (v 2)]

/-- The static `PairTildeR::generate`, se.h 853-968. -/
noncomputable def pairGenerateLmpD (p : LmpIn) (cz nz w : ℤ) (rcut rs : ℝ) :
    Except CErr (List (List (Fin 4 → ℝ))) :=
  pairLmp p cz nz w (fun v => envRowD R rcut rs (diffD R v)) 0 false

/-- The static `PairTildeR::deriv`, se.h 1116-1271. -/
noncomputable def pairDerivLmpD (p : LmpIn) (cz nz w : ℤ) (rcut rs : ℝ) :
    Except CErr (List (List (Matrix (Fin 4) (Fin 3) ℝ))) :=
  pairLmp p cz nz w (fun v => se4pwDerivD R rcut rs (diffD R v)) 0 true

/-- The static `TildeR::generate` which allocates its result, se.h 1860-1981. -/
noncomputable def tildeGenerateLmpD (p : LmpIn) (cz nz nn : List ℤ) (rcut rs : ℝ) :
    Except CErr (List (List (Option (Fin 4 → ℝ)))) := do
  let nc ← cz.mapM p.src.numCentres
  let nn ← cTake nn nz.length
  stackPairs some (fun c z _ w => pairGenerateLmpD R p c z w rcut rs) cz nz nc nn
    (allocRows ((nc.sum : ℕ) : ℤ) nn.sum none)

/-- The static `TildeR::deriv` which allocates its result, se.h 2208-2341. -/
noncomputable def tildeDerivLmpD (p : LmpIn) (cz nz nn : List ℤ) (rcut rs : ℝ) :
    Except CErr (List (List (Matrix (Fin 4) (Fin 3) ℝ))) := do
  let nc ← cz.mapM p.src.numCentres
  let nn ← cTake nn nz.length
  stackPairs id (fun c z _ w => pairDerivLmpD R p c z w rcut rs) cz nz nc nn
    (allocRows ((nc.sum : ℕ) : ℤ) nn.sum 0)

/-- The static `TildeR::generate` which fills an array of the caller, se.h 1984-2096. -/
noncomputable def tildeGenerateIntoD (arr : List (List (Fin 4 → ℝ))) (p : LmpIn) (cz nz nn : List ℤ)
    (rcut rs : ℝ) : Except CErr (List (List (Fin 4 → ℝ))) := do
  let nc ← cz.mapM p.src.numCentres
  let nn ← cTake nn nz.length
  stackPairs id (fun c z _ w => pairGenerateLmpD R p c z w rcut rs) cz nz nc nn arr

/-- The static `TildeR::deriv` which fills an array of the caller, se.h 2344-2459. -/
noncomputable def tildeDerivIntoD (arr : List (List (Matrix (Fin 4) (Fin 3) ℝ))) (p : LmpIn)
    (cz nz nn : List ℤ) (rcut rs : ℝ) : Except CErr (List (List (Matrix (Fin 4) (Fin 3) ℝ))) := do
  let nc ← cz.mapM p.src.numCentres
  let nn ← cTake nn nz.length
  stackPairs id (fun c z _ w => pairDerivLmpD R p c z w rcut rs) cz nz nc nn arr

end MaterSDK
