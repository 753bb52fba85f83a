import Verif.Lemmas.DeepMDNorm

/-! # Lists of columns -/

namespace MaterSDK

/-- Every place of a list of blocks lies in one block. -/
theorem block_place (n : ℕ → ℕ) : ∀ (l : List ℕ) (j : ℕ), j < (l.map n).sum →
    ∃ i c a, l[i]? = some c ∧ a < n c ∧ j = ((l.take i).map n).sum + a
  | [], j, h => by simp at h
  | c :: l, j, h => by
    by_cases hj : j < n c
    · exact ⟨0, c, j, rfl, hj, by simp⟩
    · rw [List.map_cons, List.sum_cons] at h
      obtain ⟨i, c', a, h1, h2, h3⟩ := block_place n l (j - n c) (by omega)
      refine ⟨i + 1, c', a, by simpa using h1, h2, ?_⟩
      rw [List.take_succ_cons, List.map_cons, List.sum_cons]
      omega

/-- A part of a list with the same sum of positive numbers is the whole list. -/
theorem perm_of_sum (w : ℕ → ℕ) {l m : List ℕ} (hl : l.Nodup) (hsub : l ⊆ m) (hw : ∀ c ∈ m, 0 < w c)
    (hs : (l.map w).sum = (m.map w).sum) : l.Perm m := by
  obtain ⟨l', hp, hs'⟩ := List.subperm_of_subset hl hsub
  obtain ⟨r, hr'⟩ := hs'.exists_perm_append
  have hr : m.Perm (l ++ r) := hr'.trans (hp.append_right r)
  have h1 : (m.map w).sum = (l.map w).sum + (r.map w).sum := by
    rw [(hr.map w).sum_eq, List.map_append, List.sum_append]
  rcases r with _ | ⟨c, r⟩
  · simpa using hr.symm
  · exfalso
    have := hw c (hr.mem_iff.2 (by simp))
    rw [List.map_cons, List.sum_cons] at h1
    omega

end MaterSDK
