import Mathlib.Data.List.Infix
import Mathlib.Data.Rat.Floor
import Mathlib.Data.Int.Log
import Verif.Py.Basic

/-!
# Python strings

Strings are lists of characters. Only ASCII text is modelled: `upper` changes `a`..`z` only.
-/

namespace MaterSDK

/-- A Python `str`. -/
abbrev Str := List Char

open Lean in
/-- `chars% "abc"` is the explicit list `['a', 'b', 'c']` (a literal the kernel can compute with). -/
macro "chars% " s:str : term => do
  let cs : Array (TSyntax `char) := (s.getString.toList.map (fun c => Syntax.mkCharLit c)).toArray
  let ts : Array (TSyntax `term) := cs.map (fun c => ⟨c.raw⟩)
  `(([$[$ts],*] : Str))

/-- `str.upper()` restricted to ASCII. -/
def upper (s : Str) : Str := s.map Char.toUpper

/-- Python `sub in s` for strings: `sub` is a contiguous block of `s`. -/
def strIn (sub s : Str) : Bool := decide (sub <:+: s)

/-- ASCII whitespace recognised by `str.split()` and `str.strip()`. -/
def isSpace (c : Char) : Bool :=
  c = ' ' || c = '\t' || c = '\n' || c = '\r' || c = '\x0b' || c = '\x0c'

/-- Worker of `split`: `cur` is the current word, reversed. -/
def splitAux : Str → Str → List Str
  | cur, [] => if cur = [] then [] else [cur.reverse]
  | cur, c :: cs =>
    if isSpace c then
      if cur = [] then splitAux [] cs else cur.reverse :: splitAux [] cs
    else splitAux (c :: cur) cs

/-- `str.split()` without argument: maximal runs of non-whitespace. -/
def split (s : Str) : List Str := splitAux [] s

/-- `str.split(c)` for a one-character separator: keeps empty pieces. -/
def splitCh (c : Char) : Str → List Str
  | [] => [[]]
  | d :: ds =>
    if d = c then [] :: splitCh c ds
    else match splitCh c ds with
      | [] => [[d]]
      | w :: ws => (d :: w) :: ws

/-- `str.strip()`. -/
def strip (s : Str) : Str := ((s.dropWhile isSpace).reverse.dropWhile isSpace).reverse

/-- Iterating over a text file (or `readlines()`): rows keep their `\n`; the last row may lack it. -/
def fileLines : Str → List Str
  | [] => []
  | c :: cs =>
    if c = '\n' then ['\n'] :: fileLines cs
    else match fileLines cs with
      | [] => [[c]]
      | l :: ls => (c :: l) :: ls

/-- Numerical value of a decimal digit character. -/
def digitVal (c : Char) : Nat := c.toNat - '0'.toNat

/-- Value of a run of decimal digits, most significant first. -/
def natOfDigits (ds : Str) : Nat := ds.foldl (fun a c => a * 10 + digitVal c) 0

/-- Optional leading sign; `true` means negative. -/
def takeSign : Str → Bool × Str
  | '-' :: r => (true, r)
  | '+' :: r => (false, r)
  | r => (false, r)

/-- `int(s)` for a decimal string (surrounding whitespace and a sign allowed; `_` not modelled). -/
def parseInt (s : Str) : Except PyErr Int :=
  let (neg, ds) := takeSign (strip s)
  if ds ≠ [] ∧ ds.all Char.isDigit then
    .ok (if neg then -(natOfDigits ds : Int) else (natOfDigits ds : Int))
  else .error .valueError

/-- Exponent part of a float literal: nothing, or `e`/`E`, a sign and at least one digit. -/
def parseExp : Str → Option Int
  | [] => some 0
  | e :: r =>
    if e = 'e' ∨ e = 'E' then
      let (neg, ds) := takeSign r
      if ds ≠ [] ∧ ds.all Char.isDigit then
        some (if neg then -(natOfDigits ds : Int) else (natOfDigits ds : Int))
      else none
    else none

/-- Optional fractional part: the digits after a `.`, and the remaining characters. -/
def takeFrac : Str → Str × Str
  | '.' :: r => r.span Char.isDigit
  | r => ([], r)

/-- Unsigned float literal as an exact rational. -/
def parseUFloat (s : Str) : Option ℚ :=
  let (ip, r) := s.span Char.isDigit
  let (fp, r') := takeFrac r
  if ip = [] ∧ fp = [] then none
  else match parseExp r' with
    | none => none
    | some e => some ((natOfDigits (ip ++ fp) : ℚ) / 10 ^ fp.length * (10 : ℚ) ^ e)

/-- `float(s)` as an exact rational. `inf`, `nan` and `_` are not modelled (treated as errors);
the rounding of the decimal to binary64 is not modelled. -/
def parseFloat (s : Str) : Except PyErr ℚ :=
  let (neg, r) := takeSign (strip s)
  match parseUFloat r with
  | none => .error .valueError
  | some q => .ok (if neg then -q else q)

/-! ## Number formatting -/

/-- The digit character of `n < 10`. -/
def digitChar (n : Nat) : Char := Char.ofNat ('0'.toNat + n)

/-- Decimal digits of a natural number, no leading zeros. -/
def showNat (n : Nat) : Str :=
  if _h : n < 10 then [digitChar n] else showNat (n / 10) ++ [digitChar (n % 10)]
decreasing_by omega

/-- Exactly `k` decimal digits of `n` (the `k` least significant ones). -/
def showPad : Nat → Nat → Str
  | 0, _ => []
  | k + 1, n => showPad k (n / 10) ++ [digitChar (n % 10)]

/-- Round to the nearest integer, ties to even (C `printf`, Python `format`, `round`). -/
def rhe (q : ℚ) : ℤ :=
  let f := ⌊q⌋
  if q - f < 1 / 2 then f
  else if 1 / 2 < q - f then f + 1
  else if f % 2 = 0 then f else f + 1

/-- Left-justify in a field of width `w` (`{:<w}`). -/
def ljust (w : Nat) (s : Str) : Str := s ++ List.replicate (w - s.length) ' '

/-- `format(q, '.kf')` for a non-negative number. -/
def fmtUFixed (k : Nat) (q : ℚ) : Str :=
  let m := (rhe (q * 10 ^ k)).toNat
  showNat (m / 10 ^ k) ++ '.' :: showPad k (m % 10 ^ k)

/-- `format(q, '.kf')`. A negative value that rounds to zero still prints a minus sign. -/
def fmtFixed (k : Nat) (q : ℚ) : Str :=
  if q < 0 then '-' :: fmtUFixed k (-q) else fmtUFixed k q

/-- Two-or-more digit exponent of the `E` format. -/
def showExp (e : Int) : Str :=
  let n := e.natAbs
  (if e < 0 then '-' else '+') :: (if n < 10 then '0' :: showNat n else showNat n)

/-- Mantissa (with `k` decimals, as an integer in `10^k .. 10^(k+1)-1`) and decimal exponent of a
positive number, with the carry when rounding reaches `10^(k+1)`. -/
def sciParts (k : Nat) (q : ℚ) : Nat × Int :=
  let e := Int.log 10 q
  let m := (rhe (q / (10 : ℚ) ^ e * 10 ^ k)).toNat
  if m = 10 ^ (k + 1) then (10 ^ k, e + 1) else (m, e)

/-- `format(q, '.kE')` for a non-negative number. -/
def fmtUSci (k : Nat) (q : ℚ) : Str :=
  let (m, e) := if q = 0 then (0, 0) else sciParts k q
  showNat (m / 10 ^ k) ++ '.' :: showPad k (m % 10 ^ k) ++ 'E' :: showExp e

/-- `format(q, '.kE')`. -/
def fmtSci (k : Nat) (q : ℚ) : Str :=
  if q < 0 then '-' :: fmtUSci k (-q) else fmtUSci k q

end MaterSDK
