import Verif.Model.Trajectory
import Verif.Spec.Trajectory
import Verif.Lemmas.Num
import Verif.Lemmas.Split
import Verif.Lemmas.Str
import Verif.Lemmas.AC

/-! # Lemmas on header rows and frame blocks -/

namespace MaterSDK

theorem split_blanks (g : Nat) (rest : Str) : split (blanks g ++ rest) = split rest := split_spaces g rest

theorem split_word_blanks {w : Str} (hne : w ≠ []) (hw : ∀ c ∈ w, isSpace c = false) (g : Nat)
    (rest : Str) : split (w ++ (blanks (g + 1) ++ rest)) = w :: split rest := by
  have : blanks (g + 1) = ' ' :: blanks g := rfl
  rw [this, List.cons_append, split_word hne hw (by decide), split_blanks]

theorem split_last_word {w : Str} (hne : w ≠ []) (hw : ∀ c ∈ w, isSpace c = false) : split w = [w] := by
  have := splitAux_word w hw [] []
  rw [List.append_nil] at this
  unfold split
  rw [this]
  simp [splitAux, hne]

theorem splitCh_sep {c : Char} {a : Str} (h : c ∉ a) (b : Str) :
    splitCh c (a ++ c :: b) = a :: splitCh c b := by
  induction a with
  | nil => simp [splitCh]
  | cons x xs ih =>
    simp only [List.mem_cons, not_or] at h
    rw [List.cons_append, splitCh, if_neg (Ne.symm h.1), ih h.2]

theorem splitCh_last {c : Char} {a : Str} (h : c ∉ a) : splitCh c a = [a] := by
  induction a with
  | nil => rfl
  | cons x xs ih =>
    simp only [List.mem_cons, not_or] at h
    rw [splitCh, if_neg (Ne.symm h.1), ih h.2]

theorem NumWord.noSpace {w : Str} {q : ℚ} (h : NumWord w q) : ∀ c ∈ w, isSpace c = false := by
  intro c hc
  rcases h.2 c hc with h | rfl | rfl | rfl | rfl
  · exact digit_not_space h
  all_goals decide

theorem NumWord.ne_nil {w : Str} {q : ℚ} (h : NumWord w q) : w ≠ [] := by
  rintro rfl
  have := h.1
  revert this
  show (Except.error PyErr.valueError = _) → _
  intro h; cases h

theorem NumWord.not_mem {w : Str} {q : ℚ} (h : NumWord w q) {c : Char} (hd : c.isDigit = false)
    (hc : c ≠ '.' ∧ c ≠ 'E' ∧ c ≠ '+' ∧ c ≠ '-') : c ∉ w := by
  intro hm
  rcases h.2 c hm with h | rfl | rfl | rfl | rfl
  · rw [hd] at h; cases h
  all_goals simp at hc

theorem CountWord.noSpace {w : Str} {n : Nat} (h : CountWord w n) : ∀ c ∈ w, isSpace c = false :=
  fun c hc => digit_not_space (h.2.1 c hc)

theorem CountWord.not_mem {w : Str} {n : Nat} (h : CountWord w n) {c : Char} (hd : c.isDigit = false) :
    c ∉ w := by
  intro hm
  have := h.2.1 c hm
  rw [hd] at this; cases this

theorem NumWord.strip {w : Str} {q : ℚ} (h : NumWord w q) : strip w = w := strip_of_no_space h.noSpace

theorem mem_append_single {w : Str} {c d : Char} (h : c ∉ w) (hd : c ≠ d) : c ∉ w ++ [d] := by
  simp [h, hd]

theorem noSpace_comma {w : Str} (h : ∀ c ∈ w, isSpace c = false) : ∀ c ∈ w ++ [','], isSpace c = false := by
  intro c hc
  rcases List.mem_append.1 hc with hc | hc
  · exact h c hc
  · rw [List.mem_singleton.1 hc]; decide

/-- The words of a header row in the current format. -/
theorem header_split (h : Header) {n : Nat} {et ep ek : ℚ} (hr : h.Reads n et ep ek) :
    split h.row = [h.count, chars% "atoms,Iteration", chars% "(fs)", chars% "=", h.time ++ [','],
      chars% "Etot,Ep,Ek", chars% "(eV)", chars% "=", h.etot, h.ep, h.ek ++ [','], chars% "SCF",
      chars% "=", h.scf] := by
  obtain ⟨t, ht⟩ := hr.time
  obtain ⟨k, hk⟩ := hr.scf
  have e : h.row = blanks h.g0 ++ (h.count ++ (blanks (0 + 1) ++ ((chars% "atoms,Iteration") ++
      (blanks (0 + 1) ++ ((chars% "(fs)") ++ (blanks (0 + 1) ++ ((chars% "=") ++ (blanks (h.g1 + 1) ++
      ((h.time ++ [',']) ++ (blanks (0 + 1) ++ ((chars% "Etot,Ep,Ek") ++ (blanks (0 + 1) ++
      ((chars% "(eV)") ++ (blanks (0 + 1) ++ ((chars% "=") ++ (blanks (h.g2 + 1) ++ (h.etot ++
      (blanks (h.g3 + 1) ++ (h.ep ++ (blanks (h.g4 + 1) ++ ((h.ek ++ [',']) ++ (blanks (0 + 1) ++
      ((chars% "SCF") ++ (blanks (0 + 1) ++ ((chars% "=") ++ (blanks (h.g5 + 1) ++
      h.scf)))))))))))))))))))))))))) := by
    have b1 : blanks (0 + 1) = [' '] := rfl
    simp [Header.row, b1]
  rw [e, split_blanks, split_word_blanks hr.count.1 hr.count.noSpace,
    split_word_blanks (by decide) (by decide), split_word_blanks (by decide) (by decide),
    split_word_blanks (by decide) (by decide),
    split_word_blanks (by simp) (noSpace_comma ht.noSpace),
    split_word_blanks (by decide) (by decide), split_word_blanks (by decide) (by decide),
    split_word_blanks (by decide) (by decide),
    split_word_blanks hr.etot.ne_nil hr.etot.noSpace, split_word_blanks hr.ep.ne_nil hr.ep.noSpace,
    split_word_blanks (by simp) (noSpace_comma hr.ek.noSpace),
    split_word_blanks (by decide) (by decide), split_word_blanks (by decide) (by decide),
    split_last_word hk.1 hk.noSpace]

/-- The words of a header row in the old format. -/
theorem oldHeader_split (h : Header) {n : Nat} {et ep ek : ℚ} (hr : h.Reads n et ep ek) :
    split h.oldRow = [h.count, chars% "atoms,Iteration=", h.time ++ [','],
      chars% "Etot,Ep,Ek=", h.etot, h.ep, h.ek] := by
  obtain ⟨t, ht⟩ := hr.time
  have e : h.oldRow = blanks h.g0 ++ (h.count ++ (blanks (0 + 1) ++ ((chars% "atoms,Iteration=") ++
      (blanks (h.g1 + 1) ++ ((h.time ++ [',']) ++ (blanks (0 + 1) ++ ((chars% "Etot,Ep,Ek=") ++
      (blanks (h.g2 + 1) ++ (h.etot ++ (blanks (h.g3 + 1) ++ (h.ep ++ (blanks (h.g4 + 1) ++
      h.ek)))))))))))) := by
    have b1 : blanks (0 + 1) = [' '] := rfl
    simp [Header.oldRow, b1]
  rw [e, split_blanks, split_word_blanks hr.count.1 hr.count.noSpace,
    split_word_blanks (by decide) (by decide),
    split_word_blanks (by simp) (noSpace_comma ht.noSpace),
    split_word_blanks (by decide) (by decide),
    split_word_blanks hr.etot.ne_nil hr.etot.noSpace, split_word_blanks hr.ep.ne_nil hr.ep.noSpace,
    split_last_word hr.ek.ne_nil hr.ek.noSpace]

theorem strIn_false_of_char {sub s : Str} {c : Char} (hc : c ∈ sub) (h : ∀ d ∈ s, d.toUpper ≠ c) :
    strIn sub (upper s) = false := by
  cases hx : strIn sub (upper s) with
  | false => rfl
  | true =>
    rw [strIn_iff] at hx
    have := hx.subset hc
    unfold upper at this
    obtain ⟨d, hd, he⟩ := List.mem_map.1 this
    exact absurd he (h d hd)

theorem upper_ne_eq {w : Str} (h : '=' ∉ w) : ∀ d ∈ w, d.toUpper ≠ '=' := by
  intro d hd he
  rw [toUpper_eq_of_not_upper (by decide) he] at hd
  exact h hd

theorem digit_toUpper {c : Char} (h : c.isDigit = true) : c.toUpper = c := by
  rcases toUpper_range c with ⟨h1, _, _⟩ | ⟨_, h2⟩
  · exfalso
    unfold Char.isDigit at h
    simp only [Bool.and_eq_true, decide_eq_true_eq, ge_iff_le, UInt32.le_iff_toNat_le] at h
    have h3 : c.toNat ≤ 57 := h.2
    omega
  · exact h2

theorem NumWord.upper_ne {w : Str} {q : ℚ} (h : NumWord w q) {c : Char} (hd : c.isDigit = false)
    (hc : c ≠ '.' ∧ c ≠ 'E' ∧ c ≠ '+' ∧ c ≠ '-') : ∀ d ∈ w, d.toUpper ≠ c := by
  intro d hm he
  rcases h.2 d hm with h | rfl | rfl | rfl | rfl
  · rw [digit_toUpper h] at he; subst he; rw [hd] at h; cases h
  all_goals (revert hc; rw [← he]; decide)

theorem CountWord.upper_ne {w : Str} {n : Nat} (h : CountWord w n) {c : Char} (hd : c.isDigit = false) :
    ∀ d ∈ w, d.toUpper ≠ c := by
  intro d hm he
  have h := h.2.1 d hm
  rw [digit_toUpper h] at he; subst he; rw [hd] at h; cases h

theorem blanks_upper_ne (g : Nat) {c : Char} (hc : c ≠ ' ') : ∀ d ∈ blanks g, d.toUpper ≠ c := by
  intro d hd
  rw [List.eq_of_mem_replicate hd]
  intro h
  exact hc (by rw [← h]; decide)

theorem noComma_numChars {w : Str} {q : ℚ} (h : NumWord w q) : ',' ∉ w :=
  h.not_mem (by decide) (by decide)

theorem noComma_blanks (g : Nat) : ',' ∉ blanks g := by
  intro h
  have := List.eq_of_mem_replicate h
  revert this; decide

/-- The comma-separated pieces of a header row in the current format. -/
theorem header_splitComma (h : Header) {n : Nat} {et ep ek : ℚ} (hr : h.Reads n et ep ek) :
    splitCh ',' h.row = [blanks h.g0 ++ h.count ++ (chars% " atoms"),
      (chars% "Iteration (fs) =") ++ blanks (h.g1 + 1) ++ h.time, chars% " Etot", chars% "Ep",
      (chars% "Ek (eV) =") ++ blanks (h.g2 + 1) ++ h.etot ++ blanks (h.g3 + 1) ++ h.ep ++
        blanks (h.g4 + 1) ++ h.ek, (chars% " SCF =") ++ blanks (h.g5 + 1) ++ h.scf] := by
  obtain ⟨t, ht⟩ := hr.time
  obtain ⟨k, hk⟩ := hr.scf
  have e : h.row = (blanks h.g0 ++ h.count ++ (chars% " atoms")) ++ ',' ::
      (((chars% "Iteration (fs) =") ++ blanks (h.g1 + 1) ++ h.time) ++ ',' :: ((chars% " Etot") ++ ',' ::
      ((chars% "Ep") ++ ',' :: (((chars% "Ek (eV) =") ++ blanks (h.g2 + 1) ++ h.etot ++
        blanks (h.g3 + 1) ++ h.ep ++ blanks (h.g4 + 1) ++ h.ek) ++ ',' ::
      ((chars% " SCF =") ++ blanks (h.g5 + 1) ++ h.scf))))) := by
    simp [Header.row]
  have c1 := noComma_numChars ht
  have c2 := noComma_numChars hr.etot
  have c3 := noComma_numChars hr.ep
  have c4 := noComma_numChars hr.ek
  have c5 : ',' ∉ h.count := hr.count.not_mem (by decide)
  have c6 : ',' ∉ h.scf := hk.not_mem (by decide)
  have cb := noComma_blanks
  rw [e, splitCh_sep, splitCh_sep, splitCh_sep, splitCh_sep, splitCh_sep, splitCh_last]
  · simp only [List.mem_append, cb, c6, or_false]; decide
  · simp only [List.mem_append, cb, c2, c3, c4, or_false]; decide
  · decide
  · decide
  · simp only [List.mem_append, cb, c1, or_false]; decide
  · simp only [List.mem_append, cb, c5, or_false, false_or]; decide

theorem header_no_newline (h : Header) {n : Nat} {et ep ek : ℚ} (hr : h.Reads n et ep ek) :
    '\n' ∉ h.row := by
  obtain ⟨t, ht⟩ := hr.time
  obtain ⟨k, hk⟩ := hr.scf
  have c1 : '\n' ∉ h.time := ht.not_mem (by decide) (by decide)
  have c2 : '\n' ∉ h.etot := hr.etot.not_mem (by decide) (by decide)
  have c3 : '\n' ∉ h.ep := hr.ep.not_mem (by decide) (by decide)
  have c4 : '\n' ∉ h.ek := hr.ek.not_mem (by decide) (by decide)
  have c5 : '\n' ∉ h.count := hr.count.not_mem (by decide)
  have c6 : '\n' ∉ h.scf := hk.not_mem (by decide)
  have cb : ∀ g, '\n' ∉ blanks g := by
    intro g h
    have := List.eq_of_mem_replicate h
    revert this; decide
  unfold Header.row
  simp only [List.mem_append, cb, c1, c2, c3, c4, c5, c6, or_false, false_or]
  decide

theorem oldHeader_no_newline (h : Header) {n : Nat} {et ep ek : ℚ} (hr : h.Reads n et ep ek) :
    '\n' ∉ h.oldRow := by
  obtain ⟨t, ht⟩ := hr.time
  have c1 : '\n' ∉ h.time := ht.not_mem (by decide) (by decide)
  have c2 : '\n' ∉ h.etot := hr.etot.not_mem (by decide) (by decide)
  have c3 : '\n' ∉ h.ep := hr.ep.not_mem (by decide) (by decide)
  have c4 : '\n' ∉ h.ek := hr.ek.not_mem (by decide) (by decide)
  have c5 : '\n' ∉ h.count := hr.count.not_mem (by decide)
  have cb : ∀ g, '\n' ∉ blanks g := by
    intro g h
    have := List.eq_of_mem_replicate h
    revert this; decide
  unfold Header.oldRow
  simp only [List.mem_append, cb, c1, c2, c3, c4, c5, or_false, false_or]
  decide

theorem oldHeader_no_paren (h : Header) {n : Nat} {et ep ek : ℚ} (hr : h.Reads n et ep ek) :
    '(' ∉ h.oldRow := by
  obtain ⟨t, ht⟩ := hr.time
  have c1 : '(' ∉ h.time := ht.not_mem (by decide) (by decide)
  have c2 : '(' ∉ h.etot := hr.etot.not_mem (by decide) (by decide)
  have c3 : '(' ∉ h.ep := hr.ep.not_mem (by decide) (by decide)
  have c4 : '(' ∉ h.ek := hr.ek.not_mem (by decide) (by decide)
  have c5 : '(' ∉ h.count := hr.count.not_mem (by decide)
  have cb : ∀ g, '(' ∉ blanks g := by
    intro g h
    have := List.eq_of_mem_replicate h
    revert this; decide
  unfold Header.oldRow
  simp only [List.mem_append, cb, c1, c2, c3, c4, c5, or_false, false_or]
  decide

theorem mem_of_splitCh {c d : Char} {s part : Str} (h : part ∈ splitCh c s) (hd : d ∈ part) : d ∈ s := by
  induction s generalizing part with
  | nil => simp [splitCh] at h; subst h; exact hd
  | cons x xs ih =>
    rw [splitCh] at h
    split at h
    · rcases List.mem_cons.1 h with rfl | h
      · simp at hd
      · exact List.mem_cons_of_mem _ (ih h hd)
    · split at h
      · simp at h; subst h
        simp at hd; subst hd; simp
      · rename_i p ps hp
        rcases List.mem_cons.1 h with rfl | h
        · rcases List.mem_cons.1 hd with rfl | hd
          · simp
          · exact List.mem_cons_of_mem _ (ih (by rw [hp]; simp) hd)
        · exact List.mem_cons_of_mem _ (ih (by rw [hp]; simp [h]) hd)

theorem searchAtoms_blank (rest : Str) : searchAtoms (' ' :: rest) = searchAtoms rest := by
  rw [searchAtoms]
  have : (' ' :: rest).span Char.isDigit = ([], ' ' :: rest) := by
    rw [List.span_eq_takeWhile_dropWhile]
    simp [List.takeWhile, List.dropWhile, show (' ').isDigit = false from by decide]
  rw [this]
  simp

theorem searchAtoms_blanks (g : Nat) (rest : Str) : searchAtoms (blanks g ++ rest) = searchAtoms rest := by
  induction g with
  | zero => rfl
  | succ g ih =>
    have : blanks (g + 1) = ' ' :: blanks g := rfl
    rw [this, List.cons_append, searchAtoms_blank, ih]

theorem searchAtoms_count {w : Str} {n : Nat} (h : CountWord w n) (rest : Str) :
    searchAtoms (w ++ ((chars% " atoms") ++ rest)) = .ok n := by
  have hs : (w ++ ((chars% " atoms") ++ rest)).span Char.isDigit = (w, (chars% " atoms") ++ rest) :=
    span_digits h.2.1 (by simp)
  obtain ⟨h1, _, h3⟩ := h
  obtain ⟨c, cs, rfl⟩ := List.exists_cons_of_ne_nil h1
  rw [List.cons_append] at hs ⊢
  rw [searchAtoms, hs]
  have hp : (chars% " ATOMS").isPrefixOf (upper ((chars% " atoms") ++ rest)) = true := by
    rw [List.isPrefixOf_iff_prefix]
    unfold upper
    rw [List.map_append]
    exact List.prefix_append _ _
  simp only [ne_eq, reduceCtorEq, not_false_eq_true, hp, and_self, if_true, h3]

end MaterSDK
