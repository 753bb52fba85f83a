import Verif.Model.CellList

/-!
# Combinations of moments

Model of
* `/repo/source/descriptor/mtp/src/mtpLevel.cc` 50-53 (`_calc_level`), 66-71 (`CoeffPairSortFunction`),
  110-142 (`get_all_schemes4lev`), 144-188 (`get_contracted_combs`), 190-199 (`_build`), 216-229 (`nmus`,
  `nmus_check`),
* `/repo/source/descriptor/mtp/include/level.h` 141-161 (`Combinations`), 168-189 (`remove_duplicates`),
  196-264 (`remove_cannot_contract`), 307-315 (`get_max_num_M`), 323-359 (`calc_redundant_combination(s)`).

Simplifications.
* A moment `M_{mu,nu}` is the pair `(mu, nu)` of natural numbers; the code only builds such pairs.
* `std::sort` is any function that returns a permutation sorted by `nu`, largest first: the order of
  moments with equal `nu` is not determined by the standard.
* `int` is unbounded.
* The first part takes `std::sort` to come back. The last part also looks at how it moves elements:
  `MtpMCoeffPair::operator=` (mtpLevel.cc 44-48) ends without `return`, which C++ leaves undefined.
-/

namespace MaterSDK

/-- `MtpMCoeffPair::_calc_level`, mtpLevel.cc 50-53; `Combinations::get_level`, level.h 294-296. -/
def mtpLevel (p : ℕ × ℕ) : ℕ := 2 + 4 * p.1 + p.2

/-- What is known about `std::sort` with `CoeffPairSortFunction`, mtpLevel.cc 66-71 and 134. -/
structure NuSort where
  sort : List (ℕ × ℕ) → List (ℕ × ℕ)
  perm : ∀ l, (sort l).Perm l
  sorted : ∀ l, (sort l).Pairwise (fun a b => b.2 ≤ a.2)

/-- `get_all_schemes4lev`, mtpLevel.cc 110-142. The first argument bounds the depth of the recursion;
every call lowers `aim_level` by at least 2. -/
def schemesAux (S : NuSort) : ℕ → ℕ → ℕ → ℕ → List (List (ℕ × ℕ))
  | 0, _, _, _ => []
  | depth + 1, aim, startMu, startNu =>
    if aim = 0 then [[]]
    else (List.range aim).flatMap (fun mu => (List.range aim).flatMap (fun nu =>
      if mtpLevel (mu, nu) < mtpLevel (startMu, startNu) then []
      else if mtpLevel (mu, nu) ≤ aim then
        (schemesAux S depth (aim - mtpLevel (mu, nu)) mu nu).map (fun c => S.sort (c ++ [(mu, nu)]))
      else []))

/-- `get_all_schemes4lev`, mtpLevel.cc 110-142. -/
def allSchemes (S : NuSort) (aim startMu startNu : ℕ) : List (List (ℕ × ℕ)) :=
  schemesAux S (aim + 1) aim startMu startNu

/-- The test of `get_contracted_combs`, mtpLevel.cc 150-185. -/
def mtpKept (c : List (ℕ × ℕ)) : Bool :=
  match c with
  | [] => false
  | [p] => p.2 == 0
  | p :: rest =>
    let mark1 := (rest.map Prod.snd).sum == p.2
    let mark2 := c.all (fun q => q.2 == 0 || c.countP (fun r => r.2 == q.2) % 2 == 0)
    mark1 || mark2

/-- `get_contracted_combs`, mtpLevel.cc 144-188. -/
def contractedCombs (cs : List (List (ℕ × ℕ))) : List (List (ℕ × ℕ)) := cs.filter mtpKept

/-- `MtpMCoeffPairCombs::_build`, mtpLevel.cc 190-199. -/
def mtpBuild (S : NuSort) (maxLevel : ℤ) : List (List (ℕ × ℕ)) :=
  (List.range (maxLevel + 1).toNat).flatMap (fun ii => contractedCombs (allSchemes S ii 0 0))

/-- `MtpMCoeffPairCombs::nmus`, mtpLevel.cc 216-219: the division is one of integers, so `ceil` has no
effect. -/
def mtpNmus (maxLevel : ℤ) : ℤ := (maxLevel - 2).tdiv 4 + 1

/-- `MtpMCoeffPairCombs::nmus_check`, mtpLevel.cc 221-229. -/
def mtpNmusCheck (combs : List (List (ℕ × ℕ))) : ℕ := (combs.flatten.map Prod.fst).dedup.length

/-- The pushes of `Combinations::remove_duplicates` for one combination, level.h 173-184. -/
def dupPushes (c : List (ℕ × ℕ)) : List (List (ℕ × ℕ)) :=
  (List.range (c.length - 1)).flatMap (fun jj =>
    match c[jj]?, c[jj + 1]? with
    | some a, some b => if mtpLevel a ≤ mtpLevel b then [c] else []
    | _, _ => [])

/-- `Combinations::remove_duplicates`, level.h 168-189. For an empty combination the unsigned `size()-1`
is the largest number and the loop reads outside the vector. -/
def removeDuplicates (cs : List (List (ℕ × ℕ))) : Except CErr (List (List (ℕ × ℕ))) := do
  let ls ← cs.mapM (fun c => if c = [] then .error .outOfBounds else .ok (dupPushes c))
  return ls.flatten

/-- `Combinations::remove_cannot_contract`, level.h 196-264. -/
def removeCannotContract (cs : List (List (ℕ × ℕ))) : List (List (ℕ × ℕ)) :=
  cs.filter (fun c => c.all (fun q => q.2 == 0 || c.countP (fun r => r.2 == q.2) % 2 == 0))

/-- `Combinations::Combinations`, level.h 141-161. -/
def combinations (cs : List (List (ℕ × ℕ))) (markTiny : Bool) : Except CErr (List (List (ℕ × ℕ))) :=
  if markTiny then do
    let ds ← removeDuplicates cs
    return removeCannotContract ds
  else .ok cs

/-- `MTPLevel::get_max_num_M`, level.h 307-315: the loop counts in steps of 2 up to `max_level`. -/
def maxNumM (maxLevel : ℤ) : ℕ := ((maxLevel + 1) / 2).toNat

/-- `MTPLevel::calc_redundant_combination`, level.h 323-345. -/
def redundantComb (maxLevel : ℤ) : ℕ → ℤ → List (ℕ × ℕ) → List (List (ℕ × ℕ))
  | 0, level, c => if level ≤ maxLevel then [c] else []
  | numM + 1, level, c =>
    (List.range (maxLevel + 2).toNat).flatMap (fun mu => (List.range (maxLevel + 2).toNat).flatMap (fun nu =>
      if level + mtpLevel (mu, nu) ≤ maxLevel then
        redundantComb maxLevel numM (level + mtpLevel (mu, nu)) (c ++ [(mu, nu)])
      else []))

/-- `MTPLevel::calc_redundant_combinations`, level.h 348-359. -/
def redundantCombs (maxLevel : ℤ) : List (List (ℕ × ℕ)) :=
  (List.range (maxNumM maxLevel)).flatMap (fun ii => redundantComb maxLevel ii 0 [])

/-! ## Sorting by assignments -/

/-- What is known about `std::sort` as a program: besides the result, how often it calls `operator=`.
Elements can only be moved by assignments (`std::swap` makes two), and a sequence of at most one element is
left alone. -/
structure PairSort extends NuSort where
  assigns : List (ℕ × ℕ) → ℕ
  moves : ∀ l, sort l ≠ l → assigns l ≠ 0
  short : ∀ l, l.length ≤ 1 → assigns l = 0

/-- `std::sort` of line 134: the first call of `MtpMCoeffPair::operator=`, mtpLevel.cc 44-48, which has no
`return`, is undefined. -/
def PairSort.run (S : PairSort) (l : List (ℕ × ℕ)) : Except CErr (List (ℕ × ℕ)) :=
  if S.assigns l = 0 then .ok (S.sort l) else .error .undefined

/-- `get_all_schemes4lev`, mtpLevel.cc 110-142, with the sort as a program. -/
def schemesRun (S : PairSort) : ℕ → ℕ → ℕ → ℕ → Except CErr (List (List (ℕ × ℕ)))
  | 0, _, _, _ => .ok []
  | depth + 1, aim, startMu, startNu =>
    if aim = 0 then .ok [[]]
    else do
      let parts ← ((List.range aim).flatMap (fun mu => (List.range aim).map (fun nu => (mu, nu)))).mapM
        (fun p =>
          if mtpLevel p < mtpLevel (startMu, startNu) then .ok []
          else if mtpLevel p ≤ aim then do
            let before ← schemesRun S depth (aim - mtpLevel p) p.1 p.2
            before.mapM (fun c => S.run (c ++ [p]))
          else .ok [])
      return parts.flatten

/-- `MtpMCoeffPairCombs(max_level)`, mtpLevel.cc 79-83, with `_build`, 190-199. -/
def combsMake (S : PairSort) (maxLevel : ℤ) : Except CErr (List (List (ℕ × ℕ))) := do
  let parts ← (List.range (maxLevel + 1).toNat).mapM (fun ii => do
    let tmp ← schemesRun S (ii + 1) ii 0 0
    return contractedCombs tmp)
  return parts.flatten

end MaterSDK
