import Verif.Model.Averages
import Verif.Model.NormStatsD

/-!
# Mean-square displacements in doubles

`calc_msd_s` and `Msd.calc_msd` of `/repo/matersdk/feature/avg/msd.py` 56-78 and 108-121 once more, with every floating
point operation followed by a rounding `R`. `np.power(x, 2)` is `x * x` rounded once; `np.sum` adds in any order
(`NpSum`).

Simplifications: no overflow and no underflow; a power function that rounds squares otherwise than `x * x` is left out;
otherwise as in `Averages.lean`.
-/

namespace MaterSDK

variable (R : ℝ → ℝ) (A : NpSum R)

/-- `np.sum(np.power(rel, 2)) / rel.shape[0]`, msd.py 119-121. -/
noncomputable def meanSquareD (rel : List (Vec ℝ)) : Option ℝ :=
  if rel = [] then none
  else some (R (A.run (rel.flatMap (fun v => [R (v 0 * v 0), R (v 1 * v 1), R (v 2 * v 2)])) / rel.length))

/-- `calc_msd_s`, msd.py 108-121: the differences of the coordinates are rounded. -/
noncomputable def calcMsdSD (s1 s2 : Struct ℝ) : Except PyErr (Option ℝ) :=
  if (s1.sites = []) ≠ (s2.sites = []) then .error .valueError
  else do
    let rel ← npSubRows (s2.sites.map Site.pos) (s1.sites.map Site.pos)
    return meanSquareD R A (rel.map (fun v j => R (v j)))

/-- `Msd.calc_msd`, msd.py 56-78. -/
noncomputable def calcMsdD (cpus : ℕ) (frames : List (Struct ℝ)) : Except PyErr (List (Option ℝ)) :=
  poolMap cpus (fun (p : Struct ℝ × Struct ℝ) => calcMsdSD R A p.1 p.2) (consecutiveFrames frames)

end MaterSDK
