import Verif.Lemmas.Trajectory
import Verif.Lemmas.Movement

/-! # Rows of a file and rows of a string -/

namespace MaterSDK

theorem splitAux_trailing {c : Char} (hc : isSpace c = true) (b cur : Str) :
    splitAux cur (b ++ [c]) = splitAux cur b := by
  induction b generalizing cur with
  | nil =>
    simp only [List.nil_append, splitAux, hc, if_true]
  | cons x xs ih =>
    rw [List.cons_append]
    simp only [splitAux]
    split
    · split
      · exact ih []
      · rw [ih []]
    · exact ih _

theorem split_newline (b : Str) : split (b ++ ['\n']) = split b := splitAux_trailing (by decide) b []

theorem splitCh_ne_nil (c : Char) (s : Str) : splitCh c s ≠ [] := by
  cases s with
  | nil => simp [splitCh]
  | cons x xs =>
    rw [splitCh]
    split
    · simp
    · split <;> simp

/-- Row `i` of the file is row `i` of the string, with or without its newline. -/
theorem fileLines_splitCh (t : Str) (i : Nat) (r : Str) (h : (fileLines t)[i]? = some r) :
    ∃ b, (splitCh '\n' t)[i]? = some b ∧ (r = b ∨ r = b ++ ['\n']) := by
  induction t generalizing i r with
  | nil => simp [fileLines] at h
  | cons c cs ih =>
    rw [fileLines] at h
    rw [splitCh]
    by_cases hc : c = '\n'
    · rw [if_pos hc] at h ⊢
      cases i with
      | zero => simp at h; subst h; exact ⟨[], by simp, .inr rfl⟩
      | succ i => simpa using ih i r (by simpa using h)
    · rw [if_neg hc] at h ⊢
      obtain ⟨w, ws, hw⟩ := List.exists_cons_of_ne_nil (splitCh_ne_nil '\n' cs)
      rw [hw]
      cases hf : fileLines cs with
      | nil =>
        have : cs = [] := by
          cases cs with
          | nil => rfl
          | cons x xs =>
            rw [fileLines] at hf
            split at hf
            · cases hf
            · split at hf <;> cases hf
        subst this
        rw [hf] at h
        simp [splitCh] at hw
        obtain ⟨rfl, rfl⟩ := hw
        cases i with
        | zero => simp at h; subst h; exact ⟨_, rfl, .inl rfl⟩
        | succ i => simp at h
      | cons l ls =>
        rw [hf] at h ih
        rw [hw] at ih
        cases i with
        | zero =>
          simp at h; subst h
          obtain ⟨b, hb, e⟩ := ih 0 l (by simp)
          simp at hb; subst hb
          refine ⟨c :: w, by simp, ?_⟩
          rcases e with rfl | rfl
          · exact .inl rfl
          · exact .inr rfl
        | succ i =>
          obtain ⟨b, hb, e⟩ := ih (i + 1) r (by simpa using h)
          exact ⟨b, by simpa using hb, e⟩

theorem split_fileRow {r b : Str} (h : r = b ∨ r = b ++ ['\n']) : split r = split b := by
  rcases h with rfl | rfl
  · rfl
  · exact split_newline b

theorem infix_append_single {α : Type} {c b : List α} {x : α} (hx : x ∉ c) (hne : c ≠ []) :
    c <:+: b ++ [x] ↔ c <:+: b := by
  constructor
  · rintro ⟨s, t, h⟩
    cases t using List.reverseRecOn with
    | nil =>
      exfalso
      rw [List.append_nil] at h
      obtain ⟨c', y, rfl⟩ : ∃ c' y, c = c' ++ [y] := by
        cases c using List.reverseRecOn with
        | nil => exact absurd rfl hne
        | append_singleton c' y => exact ⟨c', y, rfl⟩
      rw [← List.append_assoc] at h
      have := (List.append_inj' h rfl).2
      simp at this
      subst this
      simp at hx
    | append_singleton t y =>
      rw [← List.append_assoc] at h
      exact ⟨s, t, (List.append_inj' h rfl).1⟩
  · intro h
    exact h.trans (List.prefix_append b [x]).isInfix

theorem locate_fileRow {c r b : Str} (hc : '\n' ∉ c) (hne : c ≠ []) (h : r = b ∨ r = b ++ ['\n']) :
    c <:+: r.map Char.toUpper ↔ c <:+: b.map Char.toUpper := by
  rcases h with rfl | rfl
  · rfl
  · rw [List.map_append]
    exact infix_append_single hc hne

/-- The first row found in the file is the first row found in the string. -/
theorem firstRow_fileLines {t c : Str} (hc : '\n' ∉ c) (hne : c ≠ []) {l : Nat}
    (h : FirstRow (fileLines t) c l) : FirstRow (splitCh '\n' t) c l := by
  obtain ⟨⟨row, h1, h2⟩, h3⟩ := h
  obtain ⟨b, hb, e⟩ := fileLines_splitCh t l row h1
  refine ⟨⟨b, hb, (locate_fileRow hc hne e).1 h2⟩, ?_⟩
  intro j hj row' hrow'
  have hl : l < (fileLines t).length := (List.getElem?_eq_some_iff.1 h1).1
  have hj' : (fileLines t)[j]? = some (fileLines t)[j] := List.getElem?_eq_getElem (by omega)
  obtain ⟨b', hb', e'⟩ := fileLines_splitCh t j _ hj'
  rw [hb'] at hrow'; cases hrow'
  intro hin
  exact h3 j hj _ hj' ((locate_fileRow hc hne e').2 hin)

/-- Corresponding slices inside the file. -/
theorem slice_forall₂ (t : Str) (p n : Nat) (h : p + n ≤ (fileLines t).length) :
    List.Forall₂ (fun r b => split r = split b) (((fileLines t).drop p).take n)
      (((splitCh '\n' t).drop p).take n) := by
  have hl : (fileLines t).length ≤ (splitCh '\n' t).length := by
    by_contra hh
    push Not at hh
    have hj : (fileLines t)[(splitCh '\n' t).length]? = some (fileLines t)[(splitCh '\n' t).length] :=
      List.getElem?_eq_getElem hh
    obtain ⟨b, hb, _⟩ := fileLines_splitCh t _ _ hj
    simp at hb
  rw [List.forall₂_iff_get]
  refine ⟨by simp; omega, ?_⟩
  intro i h1 h2
  simp only [List.length_take, List.length_drop] at h1 h2
  simp only [List.get_eq_getElem, List.getElem_take, List.getElem_drop]
  obtain ⟨b, hb, e⟩ := fileLines_splitCh t (p + i) _ (List.getElem?_eq_getElem (by omega))
  rw [List.getElem?_eq_getElem (by omega)] at hb
  rw [split_fileRow e, Option.some.inj hb]

theorem mapM_forall₂_eq {α β γ : Type} {R : α → β → Prop} {f : α → Except PyErr γ}
    {g : β → Except PyErr γ} {l : List α} {l' : List β} (h : List.Forall₂ R l l')
    (hfg : ∀ a b, R a b → f a = g b) : l.mapM f = l'.mapM g := by
  induction h with
  | nil => rfl
  | cons h1 _ ih => rw [List.mapM_cons, List.mapM_cons, hfg _ _ h1, ih]

theorem fileLines_append_ne {u v : Str} (hu : '\n' ∉ u) {l : Str} {ls : List Str}
    (hv : fileLines v = l :: ls) : fileLines (u ++ v) = (u ++ l) :: ls := by
  induction u with
  | nil => exact hv
  | cons c cs ih =>
    simp only [List.mem_cons, not_or] at hu
    rw [List.cons_append, fileLines, if_neg (Ne.symm hu.1), ih hu.2]
    rfl

theorem parseInt_count {w : Str} {n : Nat} (h : CountWord w n) : parseInt w = .ok (n : Int) := by
  unfold parseInt
  rw [strip_of_no_space h.noSpace]
  obtain ⟨h1, h2, h3⟩ := h
  obtain ⟨c, cs, rfl⟩ := List.exists_cons_of_ne_nil h1
  have hts : takeSign (c :: cs) = (false, c :: cs) := by
    unfold takeSign
    split
    · rename_i e; cases e; exact absurd (h2 '-' (by simp)) (by decide)
    · rename_i e; cases e; exact absurd (h2 '+' (by simp)) (by decide)
    · rfl
  rw [hts]
  have hall : (c :: cs).all Char.isDigit = true := List.all_eq_true.2 h2
  simp only [ne_eq, reduceCtorEq, not_false_eq_true, hall, and_self, if_true, Bool.false_eq_true,
    if_false, h3]

end MaterSDK
