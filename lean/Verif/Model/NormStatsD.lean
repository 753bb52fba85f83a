import Verif.Model.DeepMDNormD

/-!
# The statistics of the normaliser in doubles

`TildeRPairNormalizer.calc_stats` and `_calc_std` of `/repo/matersdk/feature/deepmd/preprocess.py` 455-534 once more, with
every floating point operation followed by a rounding `R`.

`np.sum` adds in an order that depends on the length, the memory layout and the processor. The model takes any order:
`SumsTo R l a` says that `a` is the sum of `l` for some order and some brackets, `NpSum` chooses one for every list.

Simplifications: no overflow and no underflow; the entries are any real numbers.
-/

namespace MaterSDK

variable (R : ℝ → ℝ)

/-- `a` is a sum of `l` with a rounding after every addition, in some order and with some brackets. -/
inductive SumsTo : List ℝ → ℝ → Prop
  | nil : SumsTo [] 0
  | one (x : ℝ) : SumsTo [x] x
  | add {l l' : List ℝ} {a b : ℝ} (h : l ≠ []) (h' : l' ≠ []) : SumsTo l a → SumsTo l' b → SumsTo (l ++ l') (R (a + b))
  | perm {l l' : List ℝ} {a : ℝ} : l.Perm l' → SumsTo l a → SumsTo l' a

/-- `np.sum`. -/
structure NpSum where
  run : List ℝ → ℝ
  sums : ∀ l, SumsTo R l (run l)

/-- `_calc_std`, preprocess.py 514-534; as `calcStd`. -/
noncomputable def calcStdD (sum2 sum : ℝ) (n : ℕ) : Option ℝ :=
  if n = 0 then some (R (1 / 100))
  else
    let v := R (R (sum2 / n) - R (R (sum / n) * R (sum / n)))
    if v < 0 then none
    else if |R (Real.sqrt v)| < R (1 / 100) then some (R (1 / 100)) else some (R (Real.sqrt v))

/-- `TildeRPairNormalizer.calc_stats`, preprocess.py 455-511. -/
noncomputable def calcPairStatsD (A : NpSum R) (rows : List (Fin 4 → ℝ)) : PairStats :=
  let radius := rows.map (fun v => v 0)
  let angles := rows.flatMap (fun v => [v 1, v 2, v 3])
  let sumR := A.run radius
  let sumA := R (A.run angles / 3)
  let sum2R := A.run (radius.map (fun x => R (x * x)))
  let sum2A := R (A.run (angles.map (fun x => R (x * x))) / 3)
  let n := radius.length
  let stdA := calcStdD R sum2A sumA n
  ⟨![R (sumR / R (n + R (1 / 10 ^ 15))), 0, 0, 0], ![calcStdD R sum2R sumR n, stdA, stdA, stdA]⟩

end MaterSDK
