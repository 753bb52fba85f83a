import Verif.Py.Str

/-! # Facts about characters and strings -/

namespace MaterSDK

theorem toUpper_range (c : Char) :
    (97 ≤ c.toNat ∧ c.toNat ≤ 122 ∧ c.toUpper.toNat = c.toNat - 32) ∨
    (¬ (97 ≤ c.toNat ∧ c.toNat ≤ 122) ∧ c.toUpper = c) := by
  unfold Char.toUpper
  split
  · rename_i h
    left
    obtain ⟨h1, h2⟩ := h
    rw [UInt32.le_iff_toNat_le] at h1 h2
    have e1 : ('a'.val).toNat = 97 := rfl
    have e2 : ('z'.val).toNat = 122 := rfl
    rw [e1] at h1
    rw [e2] at h2
    refine ⟨h1, h2, ?_⟩
    show (c.val + ('A'.val - 'a'.val)).toNat = c.val.toNat - 32
    have e3 : 'A'.val - 'a'.val = 4294967264 := by decide
    rw [e3, UInt32.toNat_add]
    have : (4294967264 : UInt32).toNat = 4294967264 := rfl
    rw [this]
    omega
  · rename_i h
    right
    refine ⟨?_, rfl⟩
    intro ⟨h1, h2⟩
    apply h
    rw [UInt32.le_iff_toNat_le, UInt32.le_iff_toNat_le]
    exact ⟨h1, h2⟩

theorem toUpper_not_lower (c : Char) : ¬ (97 ≤ c.toUpper.toNat ∧ c.toUpper.toNat ≤ 122) := by
  rcases toUpper_range c with ⟨h1, h2, h3⟩ | ⟨h1, h2⟩
  · rw [h3]; omega
  · rw [h2]; exact h1

/-- A character that is not an upper-case letter can only come from itself. -/
theorem toUpper_eq_of_not_upper {c d : Char} (hd : ¬ (65 ≤ d.toNat ∧ d.toNat ≤ 90))
    (h : c.toUpper = d) : c = d := by
  rcases toUpper_range c with ⟨h1, h2, h3⟩ | ⟨h1, h2⟩
  · exfalso; apply hd; rw [← h, h3]; omega
  · rw [← h, h2]

theorem infix_upper_replicate {n : Nat} {d : Char} (hd : ¬ (65 ≤ d.toNat ∧ d.toNat ≤ 90))
    (hl : d.toUpper = d) (s : Str) :
    List.replicate n d <:+: upper s ↔ List.replicate n d <:+: s := by
  unfold upper
  rw [List.infix_map_iff]
  constructor
  · rintro ⟨l, hl1, hl2⟩
    have : l = List.replicate n d := by
      rw [List.eq_replicate_iff]
      have hlen : l.length = n := by simpa using (congrArg List.length hl2).symm
      refine ⟨hlen, fun b hb => ?_⟩
      have hb' : b.toUpper ∈ List.map Char.toUpper l := List.mem_map_of_mem hb
      rw [← hl2] at hb'
      exact toUpper_eq_of_not_upper hd (List.eq_of_mem_replicate hb')
    rw [← this]; exact hl1
  · intro h
    exact ⟨_, h, by simp [hl]⟩

theorem strIn_iff (a b : Str) : strIn a b = true ↔ a <:+: b := by simp [strIn]

/-! ## Rows of a file -/

theorem fileLines_flatten (s : Str) : (fileLines s).flatten = s := by
  induction s with
  | nil => rfl
  | cons c cs ih =>
    unfold fileLines
    split
    · rename_i h; simp [ih, h]
    · split
      · rename_i h; rw [h] at ih; simp at ih; simp [← ih]
      · rename_i h; rw [h] at ih; simp at ih; simp [ih]

theorem fileLines_ne_nil (s : Str) : ∀ r ∈ fileLines s, r ≠ [] := by
  induction s with
  | nil => simp [fileLines]
  | cons c cs ih =>
    unfold fileLines
    split
    · simpa using ih
    · split
      · simp
      · rename_i h; rw [h] at ih; simp at ih; simpa using ih.2

theorem fileLines_eq_nil (s : Str) : fileLines s = [] ↔ s = [] := by
  constructor
  · intro h; have := fileLines_flatten s; rw [h] at this; simpa using this.symm
  · rintro rfl; rfl

end MaterSDK
