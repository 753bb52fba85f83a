import Mathlib.Data.List.Basic

/-!
# Python values used by the model

Exceptions are values of `PyErr`; `Except PyErr α` is the result of a call that may raise.
-/

namespace MaterSDK

/-- The exception classes the modelled code can raise. -/
inductive PyErr
  | indexError | valueError | attributeError | keyError | typeError
  | assertionError | osError | runtimeError | zeroDivision
  deriving DecidableEq, Repr

/-- Make `Except` results comparable in examples. -/
instance {α : Type} [DecidableEq α] : DecidableEq (Except PyErr α) := fun a b =>
  match a, b with
  | .ok x, .ok y => if h : x = y then isTrue (h ▸ rfl) else isFalse (fun e => by cases e; exact h rfl)
  | .error x, .error y => if h : x = y then isTrue (h ▸ rfl) else isFalse (fun e => by cases e; exact h rfl)
  | .ok _, .error _ => isFalse (fun e => by cases e)
  | .error _, .ok _ => isFalse (fun e => by cases e)

/-- Python `l[i]` for a non-negative index. -/
def pyGet {α : Type} (l : List α) (i : Nat) : Except PyErr α :=
  match l[i]? with
  | some a => .ok a
  | none => .error .indexError

/-- Python `l[i]` for any integer index: negative indices count from the end. -/
def pyGetI {α : Type} (l : List α) (i : Int) : Except PyErr α :=
  let j : Int := if i < 0 then i + l.length else i
  if j < 0 then .error .indexError else pyGet l j.toNat

/-- Python `l[i:j]` for non-negative bounds (bounds are clamped). -/
def pySlice {α : Type} (l : List α) (i j : Nat) : List α := (l.drop i).take (j - i)

/-- Python `l[-k:]` for `k > 0`. -/
def pyLastN {α : Type} (l : List α) (k : Nat) : List α := l.drop (l.length - k)

/-- A Python `dict` built from a list of pairs; later keys overwrite, so look from the right.
`KeyError` when the key is absent. -/
def pyDictGet {α β : Type} [DecidableEq α] (d : List (α × β)) (k : α) : Except PyErr β :=
  match (d.reverse.find? (fun p => p.1 = k)) with
  | some p => .ok p.2
  | none => .error .keyError

end MaterSDK
