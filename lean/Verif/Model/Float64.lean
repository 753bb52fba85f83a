import Verif.Py.Str
import Mathlib.Data.Real.Archimedean
import Mathlib.Data.Int.Log

/-!
# Rounding of IEEE 754 doubles

Used only where a claim depends on rounding. Rational numbers stand for doubles; overflow, underflow and
signed zeros are left out.
-/

namespace MaterSDK

/-- The exponent `e` with `2^e ≤ |q| < 2^(e+1)`, for `q ≠ 0`. -/
def binExp (q : ℚ) : ℤ :=
  let e : ℤ := (Nat.log2 q.num.natAbs : ℤ) - Nat.log2 q.den
  if |q| < (2 : ℚ) ^ e then e - 1 else e

/-- The double nearest to `q`, ties to the even one. -/
def fl (q : ℚ) : ℚ :=
  if q = 0 then 0
  else
    let ulp : ℚ := (2 : ℚ) ^ (binExp q - 52)
    rhe (q / ulp) * ulp

/-- Round a real number to the nearest integer, ties to even (`rhe` for real numbers). -/
noncomputable def rheR (x : ℝ) : ℤ :=
  if x - ⌊x⌋ < 1 / 2 then ⌊x⌋
  else if 1 / 2 < x - ⌊x⌋ then ⌊x⌋ + 1
  else if ⌊x⌋ % 2 = 0 then ⌊x⌋ else ⌊x⌋ + 1

/-- The double nearest to the real number `x`, ties to the even one (`fl` for real numbers; used where square
roots occur). -/
noncomputable def flR (x : ℝ) : ℝ :=
  if x = 0 then 0 else rheR (x / 2 ^ (Int.log 2 |x| - 52)) * 2 ^ (Int.log 2 |x| - 52)

/-- `np.sum` of fewer than eight doubles: one after the other. -/
def flSum (xs : List ℚ) : ℚ := xs.foldl (fun acc x => fl (acc + x)) 0

/-- The argument of the square root in `_calc_std`, preprocess.py 528-530, in doubles; the sums as in
`calc_stats`, preprocess.py 478-486, for the radial column. -/
def flVariance (xs : List ℚ) : ℚ :=
  let sum := flSum xs
  let sum2 := flSum (xs.map (fun x => fl (x * x)))
  let n : ℚ := xs.length
  fl (fl (sum2 / n) - fl (fl (sum / n) * fl (sum / n)))

end MaterSDK
