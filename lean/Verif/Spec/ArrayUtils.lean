import Mathlib.Data.Nat.Notation

/-!
# Nested arrays as a user sees them
-/

namespace MaterSDK

/-- The index is in range: one number below each size, the last one below `m`. -/
def InSizes (m : ℕ) : List ℕ → List ℕ → Prop
  | [], [k] => k < m
  | n :: ds, i :: idx => i < n ∧ InSizes m ds idx
  | _, _ => False

/-- The value of the last assignment to this index. -/
def lastWrite {K : Type} (ws : List (List ℕ × K)) (idx : List ℕ) : Option K :=
  (ws.reverse.find? fun w => decide (w.1 = idx)).map Prod.snd

/-- Number of calls of `malloc` for an array with these sizes, the last one left out. -/
def numBlocks : List ℕ → ℕ
  | [] => 1
  | n :: ds => 1 + n * numBlocks ds

/-- Freeing with the sizes `ds'` visits only parts of an array with the sizes `ds`. -/
def VisitsInside : List ℕ → List ℕ → Prop
  | [], _ => True
  | _ :: _, [] => False
  | n' :: ds', n :: ds => n' ≤ n ∧ (n' = 0 ∨ VisitsInside ds' ds)

/-- Number of blocks of an array with the sizes `ds` which freeing with the sizes `ds'` leaves. -/
def blocksLeft : List ℕ → List ℕ → ℕ
  | n :: ds, n' :: ds' => (n - n') * numBlocks ds + n' * blocksLeft ds ds'
  | _, _ => 0

end MaterSDK
