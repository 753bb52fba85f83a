import Verif.Spec.Trajectory
import Verif.Model.Report

/-! # Specification vocabulary for REPORT files and band edges -/

namespace MaterSDK

/-- `row` is the first row that contains `key`. -/
def FirstWith (rows : List Str) (key row : Str) : Prop :=
  ∃ pre post, rows = pre ++ row :: post ∧ key <:+: row ∧ ∀ r ∈ pre, ¬ key <:+: r

/-- The last word of a row is the decimal text of `n`. -/
def LastCount (row : Str) (n : ℕ) : Prop := ∃ ws w, split row = ws ++ [w] ∧ CountWord w n

/-- Rows with five numbers each, the last one with one to five. -/
inductive FiveRows : List Str → List ℚ → Prop
  | nil : FiveRows [] []
  | last (r : Str) (vs : List ℚ) : vs ≠ [] → vs.length ≤ 5 → ReadsAs (split r) vs → FiveRows [r] vs
  | more (r : Str) (vs : List ℚ) (rows : List Str) (rest : List ℚ) : vs.length = 5 → rest ≠ [] →
      ReadsAs (split r) vs → FiveRows rows rest → FiveRows (r :: rows) (vs ++ rest)

/-- One block: a header, the rows of numbers, other rows. Only the header contains `key`. -/
structure EigenBlock (key : Str) (rows : List Str) (vals : List ℚ) : Prop where
  layout : ∃ header body tail, rows = header :: (body ++ tail) ∧ key <:+: header ∧ FiveRows body vals ∧
    ∀ r ∈ body ++ tail, ¬ key <:+: r

/-- A REPORT with one block of `nb` energies per entry of `blocks`. -/
structure ReportLayout (rows : List Str) (nk nb : ℕ) (blocks : List (List ℚ)) : Prop where
  kpts : ∃ r, FirstWith rows (chars% "NUM_KPT") r ∧ LastCount r nk
  bands : ∃ r, FirstWith rows (chars% "NUM_BAND") r ∧ LastCount r nb
  eigen : ∃ (pre : List Str) (parts : List (List Str)), rows = pre ++ parts.flatten ∧
    (∀ r ∈ pre, ¬ (chars% "eigen energies, in eV") <:+: r) ∧
    List.Forall₂ (EigenBlock (chars% "eigen energies, in eV")) parts blocks
  size : ∀ b ∈ blocks, b.length = nb

/-- `e` is the energy of spin `s`, k-point `k` and band `b` (both from 0). -/
def EigenTable.At (t : EigenTable) (s : Spin) (k b : ℕ) (e : ℚ) : Prop :=
  ∃ row : List ℚ, (t.get s)[k]? = some row ∧ row[b]? = some e

/-- `e` is an energy of the table. -/
def EigenTable.Has (t : EigenTable) (e : ℚ) : Prop := ∃ s k b, t.At s k b e

end MaterSDK
