import Verif.Lemmas.Num

/-! # Splitting formatted rows into words -/

namespace MaterSDK

theorem splitAux_word (w : Str) (hw : ∀ c ∈ w, isSpace c = false) (cur rest : Str) :
    splitAux cur (w ++ rest) = splitAux (w.reverse ++ cur) rest := by
  induction w generalizing cur with
  | nil => rfl
  | cons c cs ih =>
    simp only [List.cons_append, splitAux, hw c (by simp), Bool.false_eq_true, if_false]
    rw [ih (fun x hx => hw x (by simp [hx]))]
    simp

theorem split_word {w : Str} (hne : w ≠ []) (hw : ∀ c ∈ w, isSpace c = false) {c : Char}
    (hc : isSpace c = true) (rest : Str) : split (w ++ c :: rest) = w :: split rest := by
  unfold split
  rw [splitAux_word w hw]
  simp [splitAux, hc, hne]

theorem split_space {c : Char} (hc : isSpace c = true) (rest : Str) :
    split (c :: rest) = split rest := by simp [split, splitAux, hc]

theorem split_spaces (n : Nat) (rest : Str) :
    split (List.replicate n ' ' ++ rest) = split rest := by
  induction n with
  | zero => rfl
  | succ n ih =>
    rw [List.replicate_succ, List.cons_append, split_space (by decide), ih]

theorem split_ljust (k : Nat) {w : Str} (hne : w ≠ []) (hw : ∀ c ∈ w, isSpace c = false) {c : Char}
    (hc : isSpace c = true) (rest : Str) : split (ljust k w ++ c :: rest) = w :: split rest := by
  unfold ljust
  rw [List.append_assoc]
  cases h : k - w.length with
  | zero => simp only [List.replicate_zero, List.nil_append]; exact split_word hne hw hc rest
  | succ n =>
    rw [List.replicate_succ, List.cons_append, split_word hne hw (by decide), split_spaces,
      split_space hc]

theorem fileLines_row {body : Str} (h : '\n' ∉ body) (rest : Str) :
    fileLines (body ++ '\n' :: rest) = (body ++ ['\n']) :: fileLines rest := by
  induction body with
  | nil => simp [fileLines]
  | cons c cs ih =>
    simp only [List.mem_cons, not_or] at h
    have := ih h.2
    simp only [List.cons_append]
    rw [fileLines]
    rw [if_neg (fun e => h.1 e.symm), this]

/-- A text made of rows that each end with the only newline they contain. -/
theorem fileLines_flatten_rows {rows : List Str}
    (h : ∀ r ∈ rows, ∃ body, r = body ++ ['\n'] ∧ '\n' ∉ body) : fileLines rows.flatten = rows := by
  induction rows with
  | nil => rfl
  | cons r rs ih =>
    obtain ⟨body, e, hb⟩ := h r (by simp)
    rw [List.flatten_cons, e, List.append_assoc, List.singleton_append, fileLines_row hb,
      ih (fun x hx => h x (by simp [hx]))]

end MaterSDK
