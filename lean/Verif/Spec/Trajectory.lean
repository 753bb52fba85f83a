import Verif.Spec.Text

/-!
# Specification of a trajectory frame

PWmat writes as first row of a frame (current format)
`  72 atoms,Iteration (fs) =   -0.1E+01, Etot,Ep,Ek (eV) =   -0.11E+05  -0.11E+05   0.0E+00, SCF =    16`
and used to write
`  54 atoms,Iteration=    0.0E+00, Etot,Ep,Ek=   -0.1E+05  -0.1E+05   0.0E+00`.
-/

namespace MaterSDK

/-- `n` blanks. -/
def blanks (n : Nat) : Str := List.replicate n ' '

/-- The text `w` of a number `q`: only digits, sign, point and exponent letter. -/
def NumWord (w : Str) (q : ℚ) : Prop :=
  parseFloat w = .ok q ∧ ∀ c ∈ w, c.isDigit = true ∨ c = '.' ∨ c = 'E' ∨ c = '+' ∨ c = '-'

/-- A non-empty run of digits with value `n`. -/
def CountWord (w : Str) (n : Nat) : Prop :=
  w ≠ [] ∧ (∀ c ∈ w, c.isDigit = true) ∧ natOfDigits w = n

/-- The words and blanks of a header row. -/
structure Header where
  count : Str
  time : Str
  etot : Str
  ep : Str
  ek : Str
  scf : Str
  g0 : Nat
  g1 : Nat
  g2 : Nat
  g3 : Nat
  g4 : Nat
  g5 : Nat

/-- The row of the current format. The numbers of blanks are arbitrary (`g+1` where at least one is
needed). -/
def Header.row (h : Header) : Str :=
  blanks h.g0 ++ h.count ++ (chars% " atoms,Iteration (fs) =") ++ blanks (h.g1 + 1) ++ h.time ++
    (chars% ", Etot,Ep,Ek (eV) =") ++ blanks (h.g2 + 1) ++ h.etot ++ blanks (h.g3 + 1) ++ h.ep ++
    blanks (h.g4 + 1) ++ h.ek ++ (chars% ", SCF =") ++ blanks (h.g5 + 1) ++ h.scf

/-- The row of the old format. -/
def Header.oldRow (h : Header) : Str :=
  blanks h.g0 ++ h.count ++ (chars% " atoms,Iteration=") ++ blanks (h.g1 + 1) ++ h.time ++
    (chars% ", Etot,Ep,Ek=") ++ blanks (h.g2 + 1) ++ h.etot ++ blanks (h.g3 + 1) ++ h.ep ++
    blanks (h.g4 + 1) ++ h.ek

/-- The words are numbers: `n` atoms, energies `et`, `ep`, `ek`. -/
structure Header.Reads (h : Header) (n : Nat) (et ep ek : ℚ) : Prop where
  count : CountWord h.count n
  time : ∃ t, NumWord h.time t
  etot : NumWord h.etot et
  ep : NumWord h.ep ep
  ek : NumWord h.ek ek
  scf : ∃ k, CountWord h.scf k

end MaterSDK
