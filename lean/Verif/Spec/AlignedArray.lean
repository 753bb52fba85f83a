import Verif.Model.AlignedArray

/-! # Specification vocabulary for aligned arrays -/

namespace MaterSDK

/-- Arrays as values: a name stands for a list; `none`: nothing stored yet. -/
abbrev ArrVals (β : Type) := ℕ → Option (List (Option β))

/-- What an operation means for arrays that are values; `none`: not a sensible use (unknown or used name,
negative size, index out of range). -/
def arrStep {β : Type} (s : ArrVals β) : AOp β → Option (ArrVals β × List (AOut β))
  | .dflt x => if s x = none then some (Function.update s x (some []), []) else none
  | .make x n => if s x = none ∧ 0 ≤ n then some (Function.update s x (some (List.replicate n.toNat none)), [])
      else none
  | .resize x n => (s x).bind (fun l =>
      if 0 ≤ n then
        some (Function.update s x (some (if (l.length : ℤ) = n then l else List.replicate n.toNat none)), [])
      else none)
  | .set x i v => (s x).bind (fun l =>
      if 0 ≤ i ∧ i < l.length then some (Function.update s x (some (l.set i.toNat (some v))), []) else none)
  | .get x i => (s x).bind (fun l =>
      if 0 ≤ i ∧ i < l.length then some (s, [.elem (l[i.toNat]?.getD none)]) else none)
  | .size x => (s x).bind (fun l => some (s, [.size l.length]))
  | .copy x y => (s y).bind (fun l => if s x = none then some (Function.update s x (some l), []) else none)
  | .assign x y => (s y).bind (fun l => (s x).bind (fun _ => some (Function.update s x (some l), [])))
  | .destroy x => (s x).bind (fun _ => some (Function.update s x none, []))

/-- What a program means. -/
def arrRun {β : Type} : ArrVals β → List (AOp β) → Option (ArrVals β × List (AOut β))
  | s, [] => some (s, [])
  | s, op :: ops => (arrStep s op).bind (fun r1 => (arrRun r1.1 ops).bind (fun r2 => some (r2.1, r1.2 ++ r2.2)))

/-- The operation copies no array. -/
def AOp.noCopy {β : Type} : AOp β → Prop
  | .copy _ _ => False
  | .assign _ _ => False
  | _ => True

/-- Sizes that fit the `int` of the constructor. -/
def AOp.sizeOk {β : Type} : AOp β → Prop
  | .make _ n => n < 2 ^ 31
  | .resize _ n => n < 2 ^ 31
  | _ => True

end MaterSDK
