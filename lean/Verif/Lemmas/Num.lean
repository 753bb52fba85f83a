import Mathlib.Algebra.Order.Floor.Ring
import Mathlib.Data.Rat.Floor
import Mathlib.Data.Int.Log
import Mathlib.Algebra.Order.Field.Power
import Mathlib.Tactic.IntervalCases
import Mathlib.Tactic.Linarith
import Mathlib.Tactic.FieldSimp
import Mathlib.Tactic.Ring
import Mathlib.Tactic.NormNum
import Mathlib.Tactic.Positivity
import Verif.Py.Str

/-! # Printing and parsing numbers -/

namespace MaterSDK

/-! ## Digits -/

theorem digitChar_toNat {n : Nat} (h : n < 10) : (digitChar n).toNat = 48 + n := by
  interval_cases n <;> decide

theorem digitVal_digitChar {n : Nat} (h : n < 10) : digitVal (digitChar n) = n := by
  interval_cases n <;> decide

theorem isDigit_digitChar {n : Nat} (h : n < 10) : (digitChar n).isDigit = true := by
  interval_cases n <;> decide

theorem natOfDigits_append (a b : Str) :
    natOfDigits (a ++ b) = natOfDigits a * 10 ^ b.length + natOfDigits b := by
  have key : ∀ (b : Str) (x : Nat), b.foldl (fun a c => a * 10 + digitVal c) x
      = x * 10 ^ b.length + b.foldl (fun a c => a * 10 + digitVal c) 0 := by
    intro b
    induction b with
    | nil => simp
    | cons c cs ih =>
      intro x
      simp only [List.foldl_cons, List.length_cons]
      rw [ih (x * 10 + digitVal c), ih (0 * 10 + digitVal c)]
      ring
  unfold natOfDigits
  rw [List.foldl_append, key]

theorem natOfDigits_singleton (c : Char) : natOfDigits [c] = digitVal c := by
  simp [natOfDigits]

theorem showNat_spec (n : Nat) :
    natOfDigits (showNat n) = n ∧ (∀ c ∈ showNat n, c.isDigit = true) ∧ showNat n ≠ [] := by
  induction n using Nat.strong_induction_on with
  | _ n ih =>
    unfold showNat
    split
    · rename_i h
      refine ⟨by rw [natOfDigits_singleton, digitVal_digitChar h], ?_, by simp⟩
      intro c hc
      simp at hc; subst hc; exact isDigit_digitChar h
    · rename_i h
      obtain ⟨h1, h2, _⟩ := ih (n / 10) (by omega)
      refine ⟨?_, ?_, by simp⟩
      · rw [natOfDigits_append, h1, natOfDigits_singleton, digitVal_digitChar (by omega)]
        simp; omega
      · intro c hc
        rcases List.mem_append.1 hc with hc | hc
        · exact h2 c hc
        · simp at hc; subst hc; exact isDigit_digitChar (by omega)

theorem showPad_spec (k n : Nat) :
    natOfDigits (showPad k n) = n % 10 ^ k ∧ (∀ c ∈ showPad k n, c.isDigit = true) ∧
      (showPad k n).length = k := by
  induction k generalizing n with
  | zero => simp [showPad, natOfDigits, Nat.mod_one]
  | succ k ih =>
    obtain ⟨h1, h2, h3⟩ := ih (n / 10)
    unfold showPad
    refine ⟨?_, ?_, by simp [h3]⟩
    · rw [natOfDigits_append, h1, natOfDigits_singleton, digitVal_digitChar (by omega)]
      simp only [List.length_singleton, pow_one]
      rw [pow_succ, Nat.mul_comm (10 ^ k) 10, Nat.mod_mul]
      ring
    · intro c hc
      rcases List.mem_append.1 hc with hc | hc
      · exact h2 c hc
      · simp at hc; subst hc; exact isDigit_digitChar (by omega)

theorem span_digits {ds r : Str} (h : ∀ c ∈ ds, c.isDigit = true)
    (hr : ∀ c ∈ r.head?, c.isDigit = false) : (ds ++ r).span Char.isDigit = (ds, r) := by
  rw [List.span_eq_takeWhile_dropWhile]
  induction ds with
  | nil =>
    cases r with
    | nil => rfl
    | cons c cs =>
      have := hr c (by simp)
      simp [this]
  | cons d ds ih =>
    have hd := h d (by simp)
    have := ih (fun c hc => h c (by simp [hc]))
    simp only [Prod.mk.injEq] at this
    simp [hd, this.1, this.2]

/-! ## Characters of numbers -/

theorem digit_not_space {c : Char} (h : c.isDigit = true) : isSpace c = false := by
  unfold Char.isDigit at h
  simp only [Bool.and_eq_true, decide_eq_true_eq, ge_iff_le, UInt32.le_iff_toNat_le] at h
  have h1 : 48 ≤ c.toNat := h.1
  unfold isSpace
  simp only [Bool.or_eq_false_iff, decide_eq_false_iff_not]
  refine ⟨⟨⟨⟨⟨?_, ?_⟩, ?_⟩, ?_⟩, ?_⟩, ?_⟩ <;> rintro rfl <;> exact absurd h1 (by decide)

theorem digit_ne {c d : Char} (h : c.isDigit = true) (hd : d.isDigit = false) : c ≠ d := by
  rintro rfl; rw [h] at hd; cases hd

/-! ## Rounding -/

theorem rhe_error (q : ℚ) : |(rhe q : ℚ) - q| ≤ 1 / 2 := by
  have h1 := Int.floor_le q
  have h2 := Int.lt_floor_add_one q
  unfold rhe
  simp only
  rw [abs_le]
  split
  · rename_i h; constructor <;> linarith
  · rename_i h
    split
    · rename_i h'; push_cast; constructor <;> linarith
    · rename_i h'
      split
      · constructor <;> linarith
      · push_cast; constructor <;> linarith

theorem rhe_nonneg {q : ℚ} (h : 0 ≤ q) : 0 ≤ rhe q := by
  have : 0 ≤ ⌊q⌋ := Int.floor_nonneg.2 h
  unfold rhe
  simp only
  split
  · exact this
  · split
    · omega
    · split <;> omega

theorem rhe_toNat {q : ℚ} (h : 0 ≤ q) : (((rhe q).toNat : ℕ) : ℚ) = (rhe q : ℚ) := by
  have := rhe_nonneg h
  have h2 : (((rhe q).toNat : ℕ) : ℤ) = rhe q := Int.toNat_of_nonneg this
  exact_mod_cast h2

theorem rhe_intCast (z : ℤ) : rhe (z : ℚ) = z := by
  unfold rhe; simp

theorem rhe_mono {p q : ℚ} (h : p ≤ q) : rhe p ≤ rhe q := by
  by_contra hc
  have hlt : rhe q + 1 ≤ rhe p := by omega
  have hp := abs_le.1 (rhe_error p)
  have hq := abs_le.1 (rhe_error q)
  have hcast : (rhe q : ℚ) + 1 ≤ rhe p := by exact_mod_cast hlt
  -- both errors are extreme, so p = q = rhe q + 1/2
  have e1 : p = q := by linarith
  subst e1; omega

/-! ## Unsigned decimal numbers -/

/-- The value of digits, point, digits, exponent. -/
theorem parseUFloat_parts {ip fp ex : Str} {e : Int} (hi : ∀ c ∈ ip, c.isDigit = true)
    (hne : ip ≠ []) (hf : ∀ c ∈ fp, c.isDigit = true)
    (hx : ∀ c ∈ ex.head?, c.isDigit = false) (he : parseExp ex = some e) :
    parseUFloat (ip ++ '.' :: (fp ++ ex))
      = some ((natOfDigits (ip ++ fp) : ℚ) / 10 ^ fp.length * (10 : ℚ) ^ e) := by
  unfold parseUFloat
  rw [span_digits hi (by simp)]
  simp only [takeFrac]
  rw [span_digits hf hx]
  simp [hne, he]

/-- Characters that may occur in a printed number. -/
def numChar (c : Char) : Bool := c.isDigit || c = '.' || c = '-' || c = '+' || c = 'E'

theorem numChar_not_space {c : Char} (h : numChar c = true) : isSpace c = false := by
  unfold numChar at h
  simp only [Bool.or_eq_true, decide_eq_true_eq] at h
  rcases h with (((h | h) | h) | h) | h
  · exact digit_not_space h
  all_goals subst h; decide

theorem strip_of_no_space {s : Str} (h : ∀ c ∈ s, isSpace c = false) : strip s = s := by
  have hd : ∀ t : Str, (∀ c ∈ t, isSpace c = false) → t.dropWhile isSpace = t := by
    intro t ht
    cases t with
    | nil => rfl
    | cons c cs => simp [ht c (by simp)]
  unfold strip
  rw [hd s h, hd s.reverse (by simpa using h), List.reverse_reverse]

theorem takeSign_digits {c : Char} {cs : Str} (h : c.isDigit = true) :
    takeSign (c :: cs) = (false, c :: cs) := by
  unfold takeSign
  split
  · rename_i h'; simp at h'; rw [h'.1] at h; exact absurd h (by decide)
  · rename_i h'; simp at h'; rw [h'.1] at h; exact absurd h (by decide)
  · rfl

/-! ## Fixed-point format -/

theorem fmtUFixed_chars (k : Nat) (q : ℚ) : ∀ c ∈ fmtUFixed k q, numChar c = true := by
  intro c hc
  unfold fmtUFixed at hc
  simp only [List.mem_append, List.mem_cons] at hc
  unfold numChar
  rcases hc with hc | hc | hc
  · simp [(showNat_spec _).2.1 c hc]
  · simp [hc]
  · simp [(showPad_spec _ _).2.1 c hc]

theorem fmtFixed_chars (k : Nat) (q : ℚ) : ∀ c ∈ fmtFixed k q, numChar c = true := by
  intro c hc
  unfold fmtFixed at hc
  split at hc
  · rcases List.mem_cons.1 hc with rfl | hc
    · decide
    · exact fmtUFixed_chars k _ c hc
  · exact fmtUFixed_chars k _ c hc

theorem fmtFixed_ne_nil (k : Nat) (q : ℚ) : fmtFixed k q ≠ [] := by
  unfold fmtFixed fmtUFixed
  split <;> simp

theorem natOfDigits_int_frac (m k : Nat) :
    natOfDigits (showNat (m / 10 ^ k) ++ showPad k (m % 10 ^ k)) = m := by
  rw [natOfDigits_append, (showNat_spec _).1, (showPad_spec _ _).1, (showPad_spec _ _).2.2]
  rw [Nat.mod_mod]
  exact Nat.div_add_mod' m (10 ^ k)

theorem parseUFloat_fmtUFixed (k : Nat) {q : ℚ} (h : 0 ≤ q) :
    parseUFloat (fmtUFixed k q) = some ((rhe (q * 10 ^ k) : ℚ) / 10 ^ k) := by
  unfold fmtUFixed
  simp only
  have := parseUFloat_parts (ip := showNat ((rhe (q * 10 ^ k)).toNat / 10 ^ k))
    (fp := showPad k ((rhe (q * 10 ^ k)).toNat % 10 ^ k)) (ex := []) (e := 0)
    (showNat_spec _).2.1 (showNat_spec _).2.2 (showPad_spec _ _).2.1 (by simp) rfl
  rw [List.append_nil] at this
  rw [this, natOfDigits_int_frac, (showPad_spec _ _).2.2]
  rw [rhe_toNat (by positivity)]
  simp

theorem fmtUFixed_head (k : Nat) (q : ℚ) :
    ∃ c cs, fmtUFixed k q = c :: cs ∧ c.isDigit = true := by
  unfold fmtUFixed
  simp only
  obtain ⟨_, h2, h3⟩ := showNat_spec ((rhe (q * 10 ^ k)).toNat / 10 ^ k)
  cases hs : showNat ((rhe (q * 10 ^ k)).toNat / 10 ^ k) with
  | nil => exact absurd hs h3
  | cons c cs => exact ⟨c, _, rfl, h2 c (by rw [hs]; simp)⟩

/-- Value read back from a printed fixed-point number. -/
def fixedValue (k : Nat) (q : ℚ) : ℚ :=
  if q < 0 then -((rhe (-q * 10 ^ k) : ℚ) / 10 ^ k) else (rhe (q * 10 ^ k) : ℚ) / 10 ^ k

theorem parseFloat_fmtFixed (k : Nat) (q : ℚ) : parseFloat (fmtFixed k q) = .ok (fixedValue k q) := by
  unfold parseFloat
  rw [strip_of_no_space (fun c hc => numChar_not_space (fmtFixed_chars k q c hc))]
  unfold fmtFixed fixedValue
  by_cases h : q < 0
  · rw [if_pos h, if_pos h]
    simp only [takeSign]
    rw [parseUFloat_fmtUFixed k (by linarith)]
    rfl
  · rw [if_neg h, if_neg h]
    obtain ⟨c, cs, e, hc⟩ := fmtUFixed_head k q
    rw [e, takeSign_digits hc, ← e]
    simp only
    rw [parseUFloat_fmtUFixed k (by linarith)]
    rfl

theorem fixedValue_error (k : Nat) (q : ℚ) : |fixedValue k q - q| ≤ 1 / 2 / 10 ^ k := by
  have hp : (0 : ℚ) < 10 ^ k := by positivity
  unfold fixedValue
  split
  · have h := rhe_error (-q * 10 ^ k)
    have e : -((rhe (-q * 10 ^ k) : ℚ) / 10 ^ k) - q = -(((rhe (-q * 10 ^ k) : ℚ) - (-q * 10 ^ k)) / 10 ^ k) := by
      field_simp; ring
    rw [e, abs_neg, abs_div, abs_of_pos hp]
    gcongr
  · have h := rhe_error (q * 10 ^ k)
    have e : ((rhe (q * 10 ^ k) : ℚ) / 10 ^ k) - q = (((rhe (q * 10 ^ k) : ℚ) - (q * 10 ^ k)) / 10 ^ k) := by
      field_simp
    rw [e, abs_div, abs_of_pos hp]
    gcongr

/-! ## Scientific format -/

theorem parseExp_sign (e : Int) (ds : Str) (hne : ds ≠ []) (hds : ∀ c ∈ ds, c.isDigit = true)
    (hv : natOfDigits ds = e.natAbs) :
    parseExp ('E' :: (if e < 0 then '-' else '+') :: ds) = some e := by
  have hall : ds.all Char.isDigit = true := List.all_eq_true.2 hds
  unfold parseExp
  simp only [or_true, if_true]
  by_cases h : e < 0
  · rw [if_pos h]
    simp only [takeSign]
    rw [if_pos ⟨hne, hall⟩, hv]
    simp only [if_true, Option.some.injEq]
    omega
  · rw [if_neg h]
    simp only [takeSign]
    rw [if_pos ⟨hne, hall⟩, hv]
    simp only [Bool.false_eq_true, if_false, Option.some.injEq]
    omega

theorem showExp_digits (e : Int) : ∃ ds, showExp e = (if e < 0 then '-' else '+') :: ds ∧
    ds ≠ [] ∧ (∀ c ∈ ds, c.isDigit = true) ∧ natOfDigits ds = e.natAbs := by
  refine ⟨if e.natAbs < 10 then '0' :: showNat e.natAbs else showNat e.natAbs, rfl, ?_⟩
  by_cases h : e.natAbs < 10
  · rw [if_pos h]
    refine ⟨by simp, ?_, ?_⟩
    · intro c hc
      rcases List.mem_cons.1 hc with rfl | hc
      · decide
      · exact (showNat_spec _).2.1 c hc
    · rw [show ('0' :: showNat e.natAbs) = ['0'] ++ showNat e.natAbs from rfl, natOfDigits_append,
        (showNat_spec _).1]
      simp [natOfDigits, digitVal]
  · rw [if_neg h]
    exact ⟨(showNat_spec _).2.2, (showNat_spec _).2.1, (showNat_spec _).1⟩

theorem parseExp_showExp (e : Int) : parseExp ('E' :: showExp e) = some e := by
  obtain ⟨ds, h1, h2, h3, h4⟩ := showExp_digits e
  rw [h1]; exact parseExp_sign e ds h2 h3 h4

/-- The text of a mantissa and an exponent. -/
def sciText (k m : Nat) (e : Int) : Str :=
  showNat (m / 10 ^ k) ++ '.' :: showPad k (m % 10 ^ k) ++ 'E' :: showExp e

theorem fmtUSci_eq (k : Nat) (q : ℚ) :
    fmtUSci k q = if q = 0 then sciText k 0 0 else sciText k (sciParts k q).1 (sciParts k q).2 := by
  unfold fmtUSci
  by_cases h : q = 0
  · simp only [if_pos h]; rfl
  · simp only [if_neg h]; rfl

theorem sciText_chars (k m : Nat) (e : Int) : ∀ c ∈ sciText k m e, numChar c = true := by
  intro c hc
  unfold sciText at hc
  simp only [List.mem_append, List.mem_cons] at hc
  unfold numChar
  rcases hc with (hc | hc | hc) | hc | hc
  · simp [(showNat_spec _).2.1 c hc]
  · simp [hc]
  · simp [(showPad_spec _ _).2.1 c hc]
  · simp [hc]
  · obtain ⟨ds, h1, h2, h3, h4⟩ := showExp_digits e
    rw [h1] at hc
    rcases List.mem_cons.1 hc with hc | hc
    · by_cases h : e < 0
      · rw [if_pos h] at hc; simp [hc]
      · rw [if_neg h] at hc; simp [hc]
    · simp [h3 c hc]

theorem fmtUSci_chars (k : Nat) (q : ℚ) : ∀ c ∈ fmtUSci k q, numChar c = true := by
  rw [fmtUSci_eq]
  split <;> exact sciText_chars _ _ _

theorem fmtSci_chars (k : Nat) (q : ℚ) : ∀ c ∈ fmtSci k q, numChar c = true := by
  intro c hc
  unfold fmtSci at hc
  split at hc
  · rcases List.mem_cons.1 hc with rfl | hc
    · decide
    · exact fmtUSci_chars k _ c hc
  · exact fmtUSci_chars k _ c hc

/-- Value of the printed mantissa and exponent. -/
def sciUValue (k : Nat) (q : ℚ) : ℚ :=
  if q = 0 then 0 else (rhe (q / (10 : ℚ) ^ (Int.log 10 q) * 10 ^ k) : ℚ) / 10 ^ k * (10 : ℚ) ^ (Int.log 10 q)

theorem parseUFloat_sciText (k m : Nat) (e : Int) :
    parseUFloat (sciText k m e) = some ((m : ℚ) / 10 ^ k * (10 : ℚ) ^ e) := by
  have := parseUFloat_parts (ip := showNat (m / 10 ^ k)) (fp := showPad k (m % 10 ^ k))
    (ex := 'E' :: showExp e) (e := e)
    (showNat_spec _).2.1 (showNat_spec _).2.2 (showPad_spec _ _).2.1 (by simp)
    (parseExp_showExp e)
  rw [natOfDigits_int_frac, (showPad_spec _ _).2.2] at this
  unfold sciText
  rw [List.append_assoc]
  exact this

theorem parseUFloat_fmtUSci (k : Nat) {q : ℚ} (h : 0 ≤ q) :
    parseUFloat (fmtUSci k q) = some (sciUValue k q) := by
  rw [fmtUSci_eq]
  unfold sciUValue
  by_cases hq : q = 0
  · rw [if_pos hq, if_pos hq, parseUFloat_sciText]; simp
  · rw [if_neg hq, if_neg hq, parseUFloat_sciText]
    have hpos : (0 : ℚ) ≤ q / (10 : ℚ) ^ (Int.log 10 q) * 10 ^ k := by positivity
    have hcast := rhe_toNat hpos
    unfold sciParts
    simp only
    split
    · rename_i hm
      have hm' : (rhe (q / (10 : ℚ) ^ (Int.log 10 q) * 10 ^ k) : ℚ) = 10 ^ (k + 1) := by
        rw [← hcast, hm]; push_cast; rfl
      rw [hm', zpow_add₀ (by norm_num)]
      push_cast
      congr 1
      field_simp
      ring
    · rw [hcast]

theorem fmtUSci_head (k : Nat) (q : ℚ) :
    ∃ c cs, fmtUSci k q = c :: cs ∧ c.isDigit = true := by
  have gen : ∀ m e, ∃ c cs, sciText k m e = c :: cs ∧ c.isDigit = true := by
    intro m e
    unfold sciText
    obtain ⟨_, h2, h3⟩ := showNat_spec (m / 10 ^ k)
    cases hs : showNat (m / 10 ^ k) with
    | nil => exact absurd hs h3
    | cons c cs => exact ⟨c, _, rfl, h2 c (by rw [hs]; simp)⟩
  rw [fmtUSci_eq]
  split
  · exact gen _ _
  · exact gen _ _

theorem fmtSci_ne_nil (k : Nat) (q : ℚ) : fmtSci k q ≠ [] := by
  unfold fmtSci
  split
  · simp
  · obtain ⟨c, cs, e, _⟩ := fmtUSci_head k q
    rw [e]; simp

/-- Value read back from a printed scientific number. -/
def sciValue (k : Nat) (q : ℚ) : ℚ := if q < 0 then -sciUValue k (-q) else sciUValue k q

theorem parseFloat_fmtSci (k : Nat) (q : ℚ) : parseFloat (fmtSci k q) = .ok (sciValue k q) := by
  unfold parseFloat
  rw [strip_of_no_space (fun c hc => numChar_not_space (fmtSci_chars k q c hc))]
  unfold fmtSci sciValue
  by_cases h : q < 0
  · rw [if_pos h, if_pos h]
    simp only [takeSign]
    rw [parseUFloat_fmtUSci k (by linarith)]
    rfl
  · rw [if_neg h, if_neg h]
    obtain ⟨c, cs, e, hc⟩ := fmtUSci_head k q
    rw [e, takeSign_digits hc, ← e]
    simp only
    rw [parseUFloat_fmtUSci k (by linarith)]
    rfl

theorem sciUValue_error (k : Nat) {q : ℚ} (h : 0 ≤ q) :
    |sciUValue k q - q| ≤ 1 / 2 / 10 ^ k * q := by
  unfold sciUValue
  split
  · rename_i hq; simp [hq]
  · rename_i hq
    have hq' : 0 < q := lt_of_le_of_ne h (Ne.symm hq)
    have hlog := Int.zpow_log_le_self (b := 10) (r := q) (by norm_num) hq'
    set d : ℚ := (10 : ℚ) ^ (Int.log 10 q) with hd
    have hlog' : d ≤ q := by simpa [hd] using hlog
    have hdpos : 0 < d := by positivity
    have hp : (0 : ℚ) < 10 ^ k := by positivity
    have hr := rhe_error (q / d * 10 ^ k)
    have e : (rhe (q / d * 10 ^ k) : ℚ) / 10 ^ k * d - q
        = ((rhe (q / d * 10 ^ k) : ℚ) - q / d * 10 ^ k) / 10 ^ k * d := by
      field_simp
    rw [e, abs_mul, abs_div, abs_of_pos hp, abs_of_pos hdpos]
    have : |(rhe (q / d * 10 ^ k) : ℚ) - q / d * 10 ^ k| / 10 ^ k ≤ 1 / 2 / 10 ^ k := by gcongr
    calc _ ≤ 1 / 2 / 10 ^ k * d := by gcongr
      _ ≤ 1 / 2 / 10 ^ k * q := by gcongr

theorem sciValue_error (k : Nat) (q : ℚ) : |sciValue k q - q| ≤ 1 / 2 / 10 ^ k * |q| := by
  unfold sciValue
  split
  · rename_i h
    have := sciUValue_error k (q := -q) (by linarith)
    rw [abs_of_neg h]
    have e : -sciUValue k (-q) - q = -(sciUValue k (-q) - -q) := by ring
    rw [e, abs_neg]; exact this
  · rename_i h
    rw [abs_of_nonneg (a := q) (by linarith)]
    exact sciUValue_error k (by linarith)

/-! ## Integers -/

theorem parseInt_showNat (n : Nat) : parseInt (showNat n) = .ok (n : Int) := by
  obtain ⟨h1, h2, h3⟩ := showNat_spec n
  unfold parseInt
  rw [strip_of_no_space (fun c hc => digit_not_space (h2 c hc))]
  cases hs : showNat n with
  | nil => exact absurd hs h3
  | cons c cs =>
    rw [hs] at h1 h2
    rw [takeSign_digits (h2 c (by simp))]
    simp only
    rw [if_pos ⟨by simp, List.all_eq_true.2 h2⟩, h1]
    simp

end MaterSDK
