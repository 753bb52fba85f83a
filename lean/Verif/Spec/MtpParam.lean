import Verif.Model.MtpParam
import Verif.Model.Dos

/-! # The layout of an MTP parameter file, for stating properties -/

namespace MaterSDK

/-- Pieces joined by a comma and a blank. -/
def commaSep : List Str → Str
  | [] => []
  | [x] => x
  | x :: y :: r => x ++ (chars% ", ") ++ commaSep (y :: r)

/-- `{a, b, c, d}`. -/
def quadText (q : MtpQuad) : Str :=
  '{' :: commaSep [showInt q.1, showInt q.2.1, showInt q.2.2.1, showInt q.2.2.2] ++ ['}']

/-- `word = v`, then the rest of the file. -/
def countLine (word : Str) (v : ℤ) (eol rest : Str) : Str :=
  word ++ ((chars% " = ") ++ (showInt v ++ (eol ++ rest)))

/-- `word = {x, y, ...}`, then the rest of the file. -/
def tableLine (word : Str) (xs : List Str) (rest : Str) : Str :=
  word ++ ((chars% " = {") ++ (commaSep xs ++ '}' :: rest))

/-- The text of a parameter file: header lines, then the counts and tables of `t`, then `tail`. `eol`
ends a line. The counts written are those of `t`, whether or not they agree with the tables. -/
def mtpText (header : List Str) (eol : Str) (t : MtpTables) (tail : Str) : Str :=
  header.flatMap (fun l => l ++ eol) ++
  countLine (chars% "alpha_moments_count") t.momentsCount eol (
  countLine (chars% "alpha_index_basic_count") t.basicCount eol (
  tableLine (chars% "alpha_index_basic") (t.basic.map quadText) (eol ++
  countLine (chars% "alpha_index_times_count") t.timesCount eol (
  tableLine (chars% "alpha_index_times") (t.times.map quadText) (eol ++
  countLine (chars% "alpha_scalar_moments") t.scalarCount eol (
  tableLine (chars% "alpha_moment_mapping") (t.mapping.map showInt) tail))))))

/-- Line ends of the templates: `\n` or `\r\n`. -/
def IsEol (eol : Str) : Prop := eol = ['\n'] ∨ eol = ['\r', '\n']

/-- Ten header lines, none of 5000 characters or more. -/
def IsHeader (header : List Str) : Prop :=
  header.length = 10 ∧ ∀ l ∈ header, '\n' ∉ l ∧ l.length < 4998

/-- The numbers an `int` holds. -/
def IsInt32 (v : ℤ) : Prop := -2147483648 ≤ v ∧ v ≤ 2147483647

/-- All numbers of the file fit an `int`. -/
def MtpTables.Int32 (t : MtpTables) : Prop :=
  IsInt32 t.momentsCount ∧ IsInt32 t.basicCount ∧ IsInt32 t.timesCount ∧ IsInt32 t.scalarCount ∧
  (∀ q ∈ t.basic ++ t.times, IsInt32 q.1 ∧ IsInt32 q.2.1 ∧ IsInt32 q.2.2.1 ∧ IsInt32 q.2.2.2) ∧
  ∀ v ∈ t.mapping, IsInt32 v

/-- The counts are the lengths of the tables. -/
def MtpTables.Agree (t : MtpTables) : Prop :=
  t.basicCount = t.basic.length ∧ t.timesCount = t.times.length ∧ t.scalarCount = t.mapping.length

/-- The words occur in the text, in this order and without overlap. -/
def WordsInOrder : List Str → Str → Prop
  | [], _ => True
  | w :: ws, s => ∃ a b, s = a ++ w ++ b ∧ WordsInOrder ws b

/-! ## Objects as plain values -/

/-- The tables of an empty object. -/
def noTables : MtpTables := ⟨0, 0, [], 0, [], 0, []⟩

/-- What an operation should do, if every object simply held its tables: copying duplicates the value,
moving takes it away, nothing else changes. `none`: the program uses an object that does not exist. -/
def valueStep (v : List (Option MtpTables)) : MtpOp → Option (List (Option MtpTables))
  | .dflt => some (v ++ [some noTables])
  | .load t => some (v ++ [some t])
  | .copy y => (v[y]?.join).map (fun t => v ++ [some t])
  | .move y => (v[y]?.join).map (fun t => v.set y (some noTables) ++ [some t])
  | .assign x y => do
    let _ ← v[x]?.join
    let t ← v[y]?.join
    return v.set x (some t)
  | .moveAssign x y => do
    let _ ← v[x]?.join
    let t ← v[y]?.join
    if x = y then return v else return (v.set x (some t)).set y (some noTables)
  | .destroy x => (v[x]?.join).map (fun _ => v.set x none)

/-- The values after a program. -/
def valueRun (v : List (Option MtpTables)) (ops : List MtpOp) : Option (List (Option MtpTables)) :=
  ops.foldlM valueStep v

/-- Every object shows its value. -/
def Shows (s : MtpState) (v : List (Option MtpTables)) : Prop :=
  s.pool.length = v.length ∧ ∀ i : ℕ,
    match s.pool[i]?.join, v[i]?.join with
    | none, none => True
    | some o, some t => mtpView s.heap o = .ok t
    | _, _ => False

/-- Tables as a file holds them: as many rows as the counts say. -/
def MtpTables.Full (t : MtpTables) : Prop :=
  t.basic.length = t.basicCount.toNat ∧ t.times.length = t.timesCount.toNat ∧
  t.mapping.length = t.scalarCount.toNat

/-- The operations for which the code does as it should: no move assignment, no self-assignment, and in
`x = y` a table that is empty in `y` is empty in `x` already. -/
def SafeOp (v : List (Option MtpTables)) : MtpOp → Prop
  | .load t => t.Full
  | .assign x y => x ≠ y ∧ ∀ a b, v[x]?.join = some a → v[y]?.join = some b →
      (b.basicCount = 0 → a.basicCount = 0) ∧ (b.timesCount = 0 → a.timesCount = 0) ∧
      (b.scalarCount = 0 → a.scalarCount = 0)
  | .moveAssign _ _ => False
  | _ => True

/-- Every operation of the program is safe when it is reached. -/
def SafeRun : List (Option MtpTables) → List MtpOp → Prop
  | _, [] => True
  | v, op :: ops => SafeOp v op ∧ ∀ v', valueStep v op = some v' → SafeRun v' ops

/-- In addition every assignment is between objects without empty tables. -/
def NoEmptyAssign : List (Option MtpTables) → List MtpOp → Prop
  | _, [] => True
  | v, op :: ops =>
    (match op with
      | .assign x y => ∀ a, (v[x]?.join = some a ∨ v[y]?.join = some a) →
          a.basicCount ≠ 0 ∧ a.timesCount ≠ 0 ∧ a.scalarCount ≠ 0
      | _ => True) ∧ ∀ v', valueStep v op = some v' → NoEmptyAssign v' ops

end MaterSDK
