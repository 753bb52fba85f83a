import Verif.Spec.Kpoints
import Mathlib.Data.List.Basic

/-! # The steps of a filtered list (helpers of C69) -/

namespace MaterSDK

theorem step_cons {α : Type} (a : α) (l : List α) (x y : α) :
    Step (a :: l) x y ↔ (a = x ∧ l[0]? = some y) ∨ Step l x y := by
  constructor
  · rintro ⟨i, h1, h2⟩
    cases i with
    | zero => exact .inl ⟨by simpa using h1, by simpa using h2⟩
    | succ i => exact .inr ⟨i, by simpa using h1, by simpa using h2⟩
  · rintro (⟨rfl, h⟩ | ⟨i, h1, h2⟩)
    · exact ⟨0, by simp, by simpa using h⟩
    · exact ⟨i + 1, by simpa using h1, by simpa using h2⟩

theorem filter_first {α : Type} (P : α → Bool) (l : List α) (y : α) :
    (l.filter P)[0]? = some y ↔
      P y = true ∧ ∃ j : ℕ, l[j]? = some y ∧ ∀ m : ℕ, m < j → ∀ k, l[m]? = some k → P k = false := by
  induction l with
  | nil => simp
  | cons a l ih =>
    by_cases ha : P a = true
    · rw [List.filter_cons_of_pos ha]
      constructor
      · intro h
        have : a = y := by simpa using h
        subst this
        exact ⟨ha, 0, by simp, fun m hm => absurd hm (by omega)⟩
      · rintro ⟨hy, j, h1, h2⟩
        cases j with
        | zero => simpa using h1
        | succ j => have := h2 0 (by omega) a (by simp); rw [ha] at this; cases this
    · rw [List.filter_cons_of_neg ha, ih]
      constructor
      · rintro ⟨hy, j, h1, h2⟩
        refine ⟨hy, j + 1, by simpa using h1, fun m hm k hk => ?_⟩
        cases m with
        | zero => have : a = k := by simpa using hk
                  subst this; simpa using ha
        | succ m => exact h2 m (by omega) k (by simpa using hk)
      · rintro ⟨hy, j, h1, h2⟩
        cases j with
        | zero => have : a = y := by simpa using h1
                  subst this; exact absurd hy ha
        | succ j => exact ⟨hy, j, by simpa using h1, fun m hm k hk => h2 (m + 1) (by omega) k (by simpa using hk)⟩

theorem step_filter {α : Type} (P : α → Bool) (l : List α) (x y : α) :
    Step (l.filter P) x y ↔ P x = true ∧ P y = true ∧ ∃ i j : ℕ, i < j ∧ l[i]? = some x ∧ l[j]? = some y ∧
      ∀ m : ℕ, i < m → m < j → ∀ k, l[m]? = some k → P k = false := by
  induction l with
  | nil => simp [Step]
  | cons a l ih =>
    have hr : (P x = true ∧ P y = true ∧ ∃ i j : ℕ, i < j ∧ (a :: l)[i]? = some x ∧ (a :: l)[j]? = some y ∧
        ∀ m : ℕ, i < m → m < j → ∀ k, (a :: l)[m]? = some k → P k = false) ↔
        (a = x ∧ P x = true ∧ (l.filter P)[0]? = some y) ∨ Step (l.filter P) x y := by
      rw [ih, filter_first]
      constructor
      · rintro ⟨hx, hy, i, j, hij, h1, h2, h3⟩
        obtain ⟨j, rfl⟩ : ∃ j', j = j' + 1 := ⟨j - 1, by omega⟩
        cases i with
        | zero =>
          refine .inl ⟨by simpa using h1, hx, hy, j, by simpa using h2, fun m hm k hk => ?_⟩
          exact h3 (m + 1) (by omega) (by omega) k (by simpa using hk)
        | succ i =>
          refine .inr ⟨hx, hy, i, j, by omega, by simpa using h1, by simpa using h2, fun m hm hm' k hk => ?_⟩
          exact h3 (m + 1) (by omega) (by omega) k (by simpa using hk)
      · rintro (⟨rfl, hx, hy, j, h1, h2⟩ | ⟨hx, hy, i, j, hij, h1, h2, h3⟩)
        · refine ⟨hx, hy, 0, j + 1, by omega, by simp, by simpa using h1, fun m hm hm' k hk => ?_⟩
          obtain ⟨m, rfl⟩ : ∃ m', m = m' + 1 := ⟨m - 1, by omega⟩
          exact h2 m (by omega) k (by simpa using hk)
        · refine ⟨hx, hy, i + 1, j + 1, by omega, by simpa using h1, by simpa using h2, fun m hm hm' k hk => ?_⟩
          obtain ⟨m, rfl⟩ : ∃ m', m = m' + 1 := ⟨m - 1, by omega⟩
          exact h3 m (by omega) (by omega) k (by simpa using hk)
    rw [hr]
    by_cases ha : P a = true
    · rw [List.filter_cons_of_pos ha, step_cons]
      constructor
      · rintro (⟨rfl, h⟩ | h)
        · exact .inl ⟨rfl, ha, h⟩
        · exact .inr h
      · rintro (⟨rfl, -, h⟩ | h)
        · exact .inl ⟨rfl, h⟩
        · exact .inr h
    · rw [List.filter_cons_of_neg ha]
      constructor
      · exact .inr
      · rintro (⟨rfl, h, -⟩ | h)
        · exact absurd h ha
        · exact h

theorem step_length {α : Type} {l : List α} {x y : α} (h : Step l x y) : 1 < l.length := by
  obtain ⟨i, -, h2⟩ := h
  have := (List.getElem?_eq_some_iff.1 h2).1
  omega

end MaterSDK
