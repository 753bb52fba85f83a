import Verif.Model.ACExtractor
import Verif.Spec.Text
import Verif.Lemmas.Movement
import Verif.Lemmas.Except

/-! # Lemmas on the atom.config readers -/

namespace MaterSDK

theorem pyGet_eq_ok {α : Type} {l : List α} {i : Nat} {a : α} :
    pyGet l i = .ok a ↔ l[i]? = some a := by
  unfold pyGet
  cases l[i]? <;> simp

theorem pyGet_eq_error {α : Type} {l : List α} {i : Nat} {e : PyErr} :
    pyGet l i = .error e ↔ e = .indexError ∧ l.length ≤ i := by
  unfold pyGet
  cases h : l[i]? with
  | none => simp at h; simp [h, eq_comm]
  | some a =>
    have := (List.getElem?_eq_some_iff.1 h).1
    simp; omega

/-- First element of a strictly increasing list is below all others. -/
theorem pairwise_head_lt {l : List Nat} (h : l.Pairwise (· < ·)) {a : Nat} (ha : l[0]? = some a)
    {b : Nat} (hb : b ∈ l) : a ≤ b := by
  cases l with
  | nil => simp at ha
  | cons x xs =>
    simp at ha; subst ha
    rcases List.mem_cons.1 hb with rfl | hb
    · exact le_refl _
    · exact le_of_lt (List.rel_of_pairwise_cons h hb)

theorem pyGet_listLocate_zero {rows : List Str} {c : Str} {i : Nat} :
    pyGet (listLocate rows c) 0 = .ok i ↔ FirstRow rows c i := by
  rw [pyGet_eq_ok]
  constructor
  · intro h
    have hm := List.mem_of_getElem? h
    refine ⟨mem_listLocate.1 hm, fun j hj row hr hc => ?_⟩
    have := pairwise_head_lt (listLocate_pairwise rows c) h (mem_listLocate.2 ⟨row, hr, hc⟩)
    omega
  · rintro ⟨h1, h2⟩
    have hm : i ∈ listLocate rows c := mem_listLocate.2 h1
    cases hl : listLocate rows c with
    | nil => rw [hl] at hm; simp at hm
    | cons x xs =>
      have hx : x ∈ listLocate rows c := by rw [hl]; simp
      have h0 : (listLocate rows c)[0]? = some x := by rw [hl]; rfl
      have hle := pairwise_head_lt (listLocate_pairwise rows c) h0 hm
      obtain ⟨row, hr, hc⟩ := mem_listLocate.1 hx
      have : ¬ x < i := fun hlt => h2 x hlt row hr hc
      have : x = i := by omega
      simp [this]

theorem pyGet_lineLocate_zero {rows : List Str} {c : Str} {k : Nat} :
    pyGet (lineLocate rows c) 0 = .ok k ↔ ∃ i, k = i + 1 ∧ FirstRow rows c i := by
  rw [pyGet_eq_ok, lineLocate_eq_map, List.getElem?_map, Option.map_eq_some_iff]
  constructor
  · rintro ⟨i, h1, h2⟩; exact ⟨i, h2.symm, pyGet_listLocate_zero.1 (pyGet_eq_ok.2 h1)⟩
  · rintro ⟨i, h1, h2⟩; exact ⟨i, pyGet_eq_ok.1 (pyGet_listLocate_zero.2 h2), h1.symm⟩

theorem listLocate_noRow {rows : List Str} {c : Str} (h : NoRow rows c) : listLocate rows c = [] := by
  rw [List.eq_nil_iff_forall_not_mem]
  intro n hn
  obtain ⟨row, hr, hc⟩ := mem_listLocate.1 hn
  exact h row (List.mem_of_getElem? hr) hc

theorem lineLocate_noRow {rows : List Str} {c : Str} (h : NoRow rows c) : lineLocate rows c = [] := by
  rw [lineLocate_eq_map, listLocate_noRow h]; rfl

theorem firstRow_unique {rows : List Str} {c : Str} {i j : Nat} (hi : FirstRow rows c i)
    (hj : FirstRow rows c j) : i = j := by
  have h1 := pyGet_listLocate_zero.2 hi
  have h2 := pyGet_listLocate_zero.2 hj
  rw [h1] at h2; cases h2; rfl

theorem pyGetI_last {rows : List Str} {c : Str} {k : Nat} :
    pyGetI (lineLocate rows c) (-1) = .ok k ↔ ∃ i, k = i + 1 ∧ LastRow rows c i := by
  have hlast : ∀ k, pyGetI (lineLocate rows c) (-1) = .ok k ↔ (lineLocate rows c).getLast? = some k := by
    intro k
    unfold pyGetI
    cases h : lineLocate rows c with
    | nil => simp
    | cons x xs =>
      simp only [List.length_cons]
      have e1 : ¬ ((-1 : Int) + ((xs.length + 1 : Nat) : Int) < 0) := by omega
      have e2 : ((-1 : Int) + ((xs.length + 1 : Nat) : Int)).toNat = xs.length := by omega
      simp only [show ((-1 : Int) < 0) by omega, if_true]
      rw [if_neg e1, e2, pyGet_eq_ok, List.getLast?_eq_getElem?]
      simp
  rw [hlast]
  have hpw : (lineLocate rows c).Pairwise (· < ·) := lineLocateFrom_pairwise _ _ _
  have hmem : ∀ n, n ∈ lineLocate rows c ↔ ∃ i, n = i + 1 ∧ ∃ row, rows[i]? = some row ∧
      c <:+: upper row := by
    intro n; rw [lineLocate_eq_map, List.mem_map]
    constructor
    · rintro ⟨i, hi, rfl⟩; exact ⟨i, rfl, mem_listLocate.1 hi⟩
    · rintro ⟨i, rfl, hi⟩; exact ⟨i, mem_listLocate.2 hi, rfl⟩
  constructor
  · intro h
    have hm := List.mem_of_getLast? h
    obtain ⟨i, rfl, hrow⟩ := (hmem k).1 hm
    refine ⟨i, rfl, hrow, fun j hj row hr hc => ?_⟩
    have hjm : j + 1 ∈ lineLocate rows c := (hmem _).2 ⟨j, rfl, row, hr, hc⟩
    have : j + 1 ≤ i + 1 := by
      obtain ⟨ys, hys⟩ := List.getLast?_eq_some_iff.1 h
      rw [hys] at hpw hjm
      rw [List.pairwise_append] at hpw
      rcases List.mem_append.1 hjm with hj' | hj'
      · exact le_of_lt (hpw.2.2 _ hj' _ (by simp))
      · simp at hj'; omega
    omega
  · rintro ⟨i, rfl, hrow, hl⟩
    have hm : i + 1 ∈ lineLocate rows c := (hmem _).2 ⟨i, rfl, hrow⟩
    cases h : (lineLocate rows c).getLast? with
    | none => rw [List.getLast?_eq_none_iff] at h; rw [h] at hm; simp at hm
    | some k =>
      obtain ⟨ys, hys⟩ := List.getLast?_eq_some_iff.1 h
      have hk : k ∈ lineLocate rows c := List.mem_of_getLast? h
      obtain ⟨j, rfl, row, hr, hc⟩ := (hmem k).1 hk
      have h1 : ¬ i < j := fun hlt => hl j hlt row hr hc
      have h2 : i + 1 ≤ j + 1 := by
        rw [hys] at hpw hm
        rw [List.pairwise_append] at hpw
        rcases List.mem_append.1 hm with hj' | hj'
        · exact le_of_lt (hpw.2.2 _ hj' _ (by simp))
        · simp at hj'; omega
      have : j = i := by omega
      rw [this]

theorem npFlat_eq_ok {rows : List (List ℚ)} {l : List ℚ} (h : npFlat rows = .ok l) :
    l = rows.flatten ∧ ∀ r ∈ rows, ∀ r' ∈ rows, r.length = r'.length := by
  unfold npFlat at h
  split at h
  · cases h; simp
  · rename_i r rs
    split at h
    · rename_i hall
      cases h
      refine ⟨rfl, ?_⟩
      simp at hall
      have : ∀ x ∈ r :: rs, x.length = r.length := by
        intro x hx
        rcases List.mem_cons.1 hx with rfl | hx
        · rfl
        · exact hall x hx
      intro a ha b hb
      rw [this a ha, this b hb]
    · cases h

theorem npFlat_of_uniform {rows : List (List ℚ)} {n : Nat} (h : ∀ r ∈ rows, r.length = n) :
    npFlat rows = .ok rows.flatten := by
  unfold npFlat
  split
  · rfl
  · rename_i r rs
    rw [if_pos]
    simp
    intro x hx
    rw [h x (by simp [hx]), h r (by simp)]

theorem sliceN_nonneg (rows : List Str) (idx : Nat) (n : Nat) :
    sliceN rows idx (n : Int) = (rows.drop idx).take n := by
  unfold sliceN pySlice
  have h1 : ¬ ((idx : Int) + (n : Int) < 0) := by omega
  simp only [h1, if_false]
  congr 1
  omega

theorem flatten_get_of_uniform {α : Type} {rows : List (List α)} {n : Nat}
    (h : ∀ r ∈ rows, r.length = n) {k j : Nat} {r : List α} (hr : rows[k]? = some r) (hj : j < n) :
    rows.flatten[n * k + j]? = r[j]? := by
  induction rows generalizing k with
  | nil => simp at hr
  | cons x xs ih =>
    have hx : x.length = n := h x (by simp)
    cases k with
    | zero =>
      simp at hr; subst hr
      simp only [List.flatten_cons, Nat.mul_zero, Nat.zero_add]
      rw [List.getElem?_append_left (by omega)]
    | succ k =>
      simp only [List.flatten_cons]
      rw [List.getElem?_append_right (by rw [hx]; nlinarith)]
      have : n * (k + 1) + j - x.length = n * k + j := by rw [hx, Nat.mul_add]; omega
      rw [this]
      exact ih (fun r hr => h r (by simp [hr])) (by simpa using hr)

end MaterSDK
