import Verif.Model.KptFile
import Verif.Lemmas.Split
import Verif.Lemmas.StructIO
import Verif.Lemmas.Report
import Verif.Lemmas.Kpoints

/-!
# Lemmas about small input files
-/

namespace MaterSDK

/-- A word: not empty, no white space. -/
def IsWord (w : Str) : Prop := w ≠ [] ∧ ∀ c ∈ w, isSpace c = false

theorem IsWord.no_newline {w : Str} (h : IsWord w) : '\n' ∉ w := by
  intro hc
  have := h.2 _ hc
  revert this
  decide

theorem fmtFixed_word (k : ℕ) (q : ℚ) : IsWord (fmtFixed k q) :=
  ⟨fmtFixed_ne_nil k q, numChar_spaces (fmtFixed_chars k q)⟩

theorem showNat_word (n : ℕ) : IsWord (showNat n) := by
  obtain ⟨_, h2, h3⟩ := showNat_spec n
  exact ⟨h3, fun c hc => digit_not_space (h2 c hc)⟩

theorem showInt_word (z : ℤ) : IsWord (showInt z) := by
  unfold showInt
  obtain ⟨h1, h2⟩ := showNat_word z.natAbs
  split
  · refine ⟨by simp, ?_⟩
    intro c hc
    rcases List.mem_cons.1 hc with rfl | hc
    · decide
    · exact h2 c hc
  · exact ⟨h1, h2⟩

theorem split_rjust (k : ℕ) {w : Str} (hw : IsWord w) {c : Char} (hc : isSpace c = true) (rest : Str) :
    split (rjust k w ++ c :: rest) = w :: split rest := by
  unfold rjust
  rw [List.append_assoc, split_spaces, split_word hw.1 hw.2 hc]

theorem kptRow_split (v : Vec ℚ) {label : Str} (hl : IsWord label) :
    split (kptRow v label) = [fmtFixed 6 (v 0), fmtFixed 6 (v 1), fmtFixed 6 (v 2), label] := by
  unfold kptRow
  simp only [List.append_assoc, List.cons_append, List.nil_append]
  iterate 4 rw [split_space (by decide)]
  rw [split_rjust 12 (fmtFixed_word 6 _) (by decide), split_rjust 12 (fmtFixed_word 6 _) (by decide),
    split_rjust 12 (fmtFixed_word 6 _) (by decide), split_word hl.1 hl.2 (by decide)]
  rfl

theorem rjust_mem {k : ℕ} {s : Str} {c : Char} (h : c ∈ rjust k s) : c ∈ s ∨ c = ' ' := by
  unfold rjust at h
  rcases List.mem_append.1 h with h | h
  · exact .inr (List.eq_of_mem_replicate h)
  · exact .inl h

theorem rjust_no_newline {k : ℕ} {s : Str} (h : '\n' ∉ s) : '\n' ∉ rjust k s := by
  intro hc
  rcases rjust_mem hc with h' | h'
  · exact h h'
  · revert h'; decide

theorem kptRow_body (v : Vec ℚ) {label : Str} (hl : '\n' ∉ label) :
    ∃ body, kptRow v label = body ++ ['\n'] ∧ '\n' ∉ body := by
  refine ⟨(chars% "    ") ++ rjust 12 (fmtFixed 6 (v 0)) ++ (chars% "\t") ++ rjust 12 (fmtFixed 6 (v 1)) ++
    (chars% "\t") ++ rjust 12 (fmtFixed 6 (v 2)) ++ (chars% "\t") ++ label, rfl, ?_⟩
  have h0 := rjust_no_newline (k := 12) (fmtFixed_word 6 (v 0)).no_newline
  have h1 := rjust_no_newline (k := 12) (fmtFixed_word 6 (v 1)).no_newline
  have h2 := rjust_no_newline (k := 12) (fmtFixed_word 6 (v 2)).no_newline
  simp only [List.mem_append, not_or]
  refine ⟨⟨⟨⟨⟨⟨⟨by decide, h0⟩, by decide⟩, h1⟩, by decide⟩, h2⟩, by decide⟩, hl⟩

theorem countRow_body (n : Option ℤ) : ∃ body, countRow n = body ++ ['\n'] ∧ '\n' ∉ body := by
  cases n with
  | none => exact ⟨chars% "inf", rfl, by decide⟩
  | some n =>
    refine ⟨showInt n ++ (chars% ".0"), by simp [countRow], ?_⟩
    simp only [List.mem_append, not_or]
    exact ⟨(showInt_word n).no_newline, by decide⟩

/-- A whole number with one decimal. -/
theorem fmtFixed_intCast (z : ℤ) : fmtFixed 1 (z : ℚ) = showInt z ++ (chars% ".0") := by
  have h : ∀ n : ℕ, fmtUFixed 1 (n : ℚ) = showNat n ++ (chars% ".0") := by
    intro n
    unfold fmtUFixed
    have e : (n : ℚ) * 10 ^ 1 = ((n * 10 : ℕ) : ℤ) := by push_cast; ring
    rw [e, rhe_intCast]
    simp only [Int.toNat_natCast, pow_one, Nat.mul_div_cancel _ (by decide : 0 < 10), Nat.mul_mod_left]
    rfl
  unfold fmtFixed showInt
  by_cases hz : z < 0
  · rw [if_pos (by exact_mod_cast hz), if_pos hz]
    have e : -(z : ℚ) = ((z.natAbs : ℕ) : ℚ) := by
      rw [Nat.cast_natAbs, abs_of_neg hz]
      push_cast
      rfl
    rw [e, h]
    rfl
  · rw [if_neg (by exact_mod_cast hz), if_neg hz]
    have e : (z : ℚ) = ((z.natAbs : ℕ) : ℚ) := by
      rw [Nat.cast_natAbs, abs_of_nonneg (by omega)]
    rw [e, h]

theorem fixedValue_intCast (z : ℤ) : fixedValue 1 (z : ℚ) = z := by
  unfold fixedValue
  have e1 : -(z : ℚ) * 10 ^ 1 = ((-z * 10 : ℤ) : ℚ) := by push_cast; ring
  have e2 : (z : ℚ) * 10 ^ 1 = ((z * 10 : ℤ) : ℚ) := by push_cast; ring
  rw [e1, e2, rhe_intCast, rhe_intCast]
  split <;> push_cast <;> ring

theorem countRow_split (n : ℤ) : ∃ w, split (countRow (some n)) = [w] ∧ parseFloat w = .ok (n : ℚ) := by
  refine ⟨fmtFixed 1 (n : ℚ), ?_, by rw [parseFloat_fmtFixed, fixedValue_intCast]⟩
  have e : countRow (some n) = fmtFixed 1 (n : ℚ) ++ '\n' :: [] := by
    rw [fmtFixed_intCast]; simp [countRow]
  rw [e, split_word (fmtFixed_ne_nil _ _) (fmtFixed_word 1 _).2 (by decide)]
  rfl

theorem header_body {a b f : Str} (ha : '\n' ∉ a) (hb : '\n' ∉ b) (hf : '\n' ∉ f) :
    '\n' ∉ a ++ f ++ b := by
  simp only [List.mem_append, not_or]
  exact ⟨⟨ha, hf⟩, hb⟩

theorem highkHeader_body {f : Str} (hf : '\n' ∉ f) :
    ∃ body, highkHeader f = body ++ ['\n'] ∧ '\n' ∉ body :=
  ⟨(chars% "High symmetry kpoints generated by MaterSDK, structure:") ++ f ++
    (chars% ", fractional coordinates in reciprocal lattice"), by simp [highkHeader],
    header_body (by decide) (by decide) hf⟩

theorem genHeader_body {f d : Str} (hf : '\n' ∉ f) (hd : '\n' ∉ d) :
    ∃ body, genHeader f d = body ++ ['\n'] ∧ '\n' ∉ body := by
  refine ⟨(chars% "K-path generated by MaterSDK, structure:") ++ f ++ (chars% ", density:") ++ d ++
    (chars% ", fractional coordinates in reciprocal lattice"), by simp [genHeader], ?_⟩
  simp only [List.mem_append, not_or]
  exact ⟨⟨⟨⟨by decide, hf⟩, by decide⟩, hd⟩, by decide⟩

theorem joinSpace_split (l : List Str) (h : ∀ w ∈ l, IsWord w) {c : Char} (hc : isSpace c = true)
    (rest : Str) : split (joinSpace l ++ c :: rest) = l ++ split rest := by
  induction l with
  | nil => simp only [joinSpace, List.nil_append]; rw [split_space hc]
  | cons a l ih =>
    have ha := h a (by simp)
    cases l with
    | nil =>
      simp only [joinSpace]
      rw [split_word ha.1 ha.2 hc]
      rfl
    | cons b l =>
      simp only [joinSpace, List.append_assoc, List.cons_append]
      rw [split_word ha.1 ha.2 (by decide), ih (fun w hw => h w (by simp [hw]))]
      rfl

theorem joinSpace_no_newline (l : List Str) (h : ∀ w ∈ l, IsWord w) : '\n' ∉ joinSpace l := by
  induction l with
  | nil => simp [joinSpace]
  | cons a l ih =>
    have ha := (h a (by simp)).no_newline
    cases l with
    | nil => simpa [joinSpace] using ha
    | cons b l =>
      simp only [joinSpace, List.mem_append, List.mem_cons, not_or]
      exact ⟨ha, by decide, ih (fun w hw => h w (by simp [hw]))⟩

/-- The rows that pass a test, with and without their numbers. -/
theorem zipIdx_filter_fst {α : Type} (p : α → Bool) (l : List α) (n : ℕ) :
    ((l.zipIdx n).filter (fun x => p x.1)).map Prod.fst = l.filter p := by
  induction l generalizing n with
  | nil => rfl
  | cons a l ih =>
    rw [List.zipIdx_cons, List.filter_cons, List.filter_cons]
    by_cases h : p a
    · simp only [h, if_true, List.map_cons, ih]
    · simp only [h, Bool.false_eq_true, if_false, ih]

theorem pyGet_ok_iff {α : Type} {l : List α} {i : ℕ} {a : α} : pyGet l i = .ok a ↔ l[i]? = some a :=
  pyGet_eq_ok

end MaterSDK
