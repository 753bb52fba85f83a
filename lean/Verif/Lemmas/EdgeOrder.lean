import Verif.Lemmas.Report

/-! # Which entry the searches for the band edges stop at -/

namespace MaterSDK

/-- The order in which the entries are visited: spin up first, then by k-point, then by band. -/
def EntryBefore (x y : Spin × ℕ × ℕ × ℚ) : Prop :=
  (x.1 = .up ∧ y.1 = .down) ∨ (x.1 = y.1 ∧ (x.2.1 < y.2.1 ∨ (x.2.1 = y.2.1 ∧ x.2.2.1 < y.2.2.1)))

theorem zipIdx_pairwise {α : Type} (l : List α) (n : ℕ) : (l.zipIdx n).Pairwise (fun a b => a.2 < b.2) := by
  have : ((l.zipIdx n).map Prod.snd).Pairwise (· < ·) := by
    rw [List.zipIdx_map_snd]
    exact List.pairwise_lt_range'
  exact List.pairwise_map.1 this

theorem allEntries_ordered (t : EigenTable) : (allEntries t).Pairwise EntryBefore := by
  have hs : ∀ s, (spinEntries t s).Pairwise EntryBefore := by
    intro s
    unfold spinEntries
    rw [List.pairwise_flatMap]
    constructor
    · rintro ⟨row, k⟩ _
      rw [List.pairwise_map]
      exact (zipIdx_pairwise row 0).imp (fun {a b} h => Or.inr ⟨rfl, Or.inr ⟨rfl, h⟩⟩)
    · refine (zipIdx_pairwise (t.get s) 0).imp ?_
      rintro ⟨r, k⟩ ⟨r', k'⟩ h x hx y hy
      obtain ⟨a, _, rfl⟩ := List.mem_map.1 hx
      obtain ⟨b, _, rfl⟩ := List.mem_map.1 hy
      exact Or.inr ⟨rfl, Or.inl h⟩
  unfold allEntries
  rw [List.pairwise_append]
  refine ⟨hs _, hs _, ?_⟩
  intro x hx y hy
  left
  unfold spinEntries at hx hy
  simp only [List.mem_flatMap, List.mem_map] at hx hy
  obtain ⟨_, _, _, _, rfl⟩ := hx
  obtain ⟨_, _, _, _, rfl⟩ := hy
  exact ⟨rfl, rfl⟩

/-- The search for the CBM ends at the first entry with the lowest energy. -/
theorem cbm_first (ef : ℚ) (l : List (Spin × ℕ × ℕ × ℚ)) (hdec : ∀ x ∈ l, roundDec 4 x.2.2.2 = x.2.2.2) (m : ℚ)
    (hm : IsLeast {e | (∃ x ∈ l, x.2.2.2 = e) ∧ ef ≤ e} m) :
    ∃ l1 x l2, l = l1 ++ x :: l2 ∧ x.2.2.2 = m ∧ (∀ y ∈ l1, y.2.2.2 ≠ m) ∧
      l.foldl (cbmStep ef) ⟨none, 0, 0, none⟩ = ⟨some m, x.2.1 + 1, x.2.2.1 + 1, some x.1⟩ := by
  obtain ⟨⟨⟨x0, hx0, hx0m⟩, hef⟩, hlow⟩ := hm
  -- the first entry with energy m
  obtain ⟨l1, x, l2, hl, hxm, hl1⟩ : ∃ l1 x l2, l = l1 ++ x :: l2 ∧ x.2.2.2 = m ∧ ∀ y ∈ l1, y.2.2.2 ≠ m := by
    clear hlow hdec
    induction l with
    | nil => cases hx0
    | cons a l ih =>
      by_cases ha : a.2.2.2 = m
      · exact ⟨[], a, l, rfl, ha, by simp⟩
      · rcases List.mem_cons.1 hx0 with h | h
        · exact absurd (h ▸ hx0m) ha
        · obtain ⟨l1, x, l2, h1, h2, h3⟩ := ih h
          exact ⟨a :: l1, x, l2, by rw [h1]; rfl, h2, by
            intro y hy
            rcases List.mem_cons.1 hy with rfl | hy
            · exact ha
            · exact h3 y hy⟩
  refine ⟨l1, x, l2, hl, hxm, hl1, ?_⟩
  -- before it, what was found is above m
  have hpre : ∀ (l1 : List (Spin × ℕ × ℕ × ℚ)) (c : Edge), (∀ y ∈ l1, y ∈ l) → (∀ y ∈ l1, y.2.2.2 ≠ m) →
      (∀ v ∈ c.energy, m < v) → ∀ v ∈ (l1.foldl (cbmStep ef) c).energy, m < v := by
    intro l1
    induction l1 with
    | nil => intro c _ _ h; exact h
    | cons y l1 ih =>
      intro c hin hne h
      rw [List.foldl_cons]
      refine ih _ (fun z hz => hin z (by simp [hz])) (fun z hz => hne z (by simp [hz])) ?_
      obtain ⟨s, k, b, e⟩ := y
      simp only [cbmStep]
      split
      · rename_i hcond
        intro v hv
        have hv' : roundDec 4 e = v := by simpa using hv
        have hmem := hin (s, k, b, e) (by simp)
        rw [hdec _ hmem] at hv'
        rw [← hv']
        have h1 : m ≤ e := hlow ⟨⟨_, hmem, rfl⟩, hcond.1⟩
        exact lt_of_le_of_ne h1 (fun h => hne (s, k, b, e) (by simp) h.symm)
      · exact h
  have hpost : ∀ (l2 : List (Spin × ℕ × ℕ × ℚ)) (c : Edge), (∀ y ∈ l2, y ∈ l) → c.energy = some m →
      l2.foldl (cbmStep ef) c = c := by
    intro l2
    induction l2 with
    | nil => intro c _ _; rfl
    | cons y l2 ih =>
      intro c hin hc
      rw [List.foldl_cons]
      have : cbmStep ef c y = c := by
        obtain ⟨s, k, b, e⟩ := y
        simp only [cbmStep]
        rw [if_neg]
        rintro ⟨h1, h2⟩
        have := h2 m (by rw [hc]; rfl)
        exact absurd (hlow ⟨⟨_, hin (s, k, b, e) (by simp), rfl⟩, h1⟩) (not_le.2 this)
      rw [this]
      exact ih c (fun z hz => hin z (by simp [hz])) hc
  have h1 := hpre l1 ⟨none, 0, 0, none⟩ (fun y hy => by rw [hl]; simp [hy]) hl1 (by simp)
  rw [hl, List.foldl_append, List.foldl_cons]
  have hx : cbmStep ef (l1.foldl (cbmStep ef) ⟨none, 0, 0, none⟩) x
      = ⟨some m, x.2.1 + 1, x.2.2.1 + 1, some x.1⟩ := by
    have hxl : x ∈ l := by rw [hl]; simp
    have hd := hdec x hxl
    obtain ⟨s, k, b, e⟩ := x
    simp only at hxm hd
    subst hxm
    simp only [cbmStep]
    rw [if_pos ⟨hef, h1⟩, hd]
  rw [hx]
  exact hpost l2 _ (fun y hy => by rw [hl]; simp [hy]) rfl

/-- The search for the VBM ends at the first entry with the highest energy. -/
theorem vbm_first (ef : ℚ) (l : List (Spin × ℕ × ℕ × ℚ)) (hdec : ∀ x ∈ l, roundDec 4 x.2.2.2 = x.2.2.2) (m : ℚ)
    (hm : IsGreatest {e | (∃ x ∈ l, x.2.2.2 = e) ∧ e ≤ ef} m) :
    ∃ l1 x l2, l = l1 ++ x :: l2 ∧ x.2.2.2 = m ∧ (∀ y ∈ l1, y.2.2.2 ≠ m) ∧
      l.foldl (vbmStep ef) ⟨none, 0, 0, none⟩ = ⟨some m, x.2.1 + 1, x.2.2.1 + 1, some x.1⟩ := by
  obtain ⟨⟨⟨x0, hx0, hx0m⟩, hef⟩, hlow⟩ := hm
  obtain ⟨l1, x, l2, hl, hxm, hl1⟩ : ∃ l1 x l2, l = l1 ++ x :: l2 ∧ x.2.2.2 = m ∧ ∀ y ∈ l1, y.2.2.2 ≠ m := by
    clear hlow hdec
    induction l with
    | nil => cases hx0
    | cons a l ih =>
      by_cases ha : a.2.2.2 = m
      · exact ⟨[], a, l, rfl, ha, by simp⟩
      · rcases List.mem_cons.1 hx0 with h | h
        · exact absurd (h ▸ hx0m) ha
        · obtain ⟨l1, x, l2, h1, h2, h3⟩ := ih h
          exact ⟨a :: l1, x, l2, by rw [h1]; rfl, h2, by
            intro y hy
            rcases List.mem_cons.1 hy with rfl | hy
            · exact ha
            · exact h3 y hy⟩
  refine ⟨l1, x, l2, hl, hxm, hl1, ?_⟩
  have hpre : ∀ (l1 : List (Spin × ℕ × ℕ × ℚ)) (c : Edge), (∀ y ∈ l1, y ∈ l) → (∀ y ∈ l1, y.2.2.2 ≠ m) →
      (∀ v ∈ c.energy, v < m) → ∀ v ∈ (l1.foldl (vbmStep ef) c).energy, v < m := by
    intro l1
    induction l1 with
    | nil => intro c _ _ h; exact h
    | cons y l1 ih =>
      intro c hin hne h
      rw [List.foldl_cons]
      refine ih _ (fun z hz => hin z (by simp [hz])) (fun z hz => hne z (by simp [hz])) ?_
      obtain ⟨s, k, b, e⟩ := y
      simp only [vbmStep]
      split
      · rename_i hcond
        intro v hv
        have hv' : roundDec 4 e = v := by simpa using hv
        have hmem := hin (s, k, b, e) (by simp)
        rw [hdec _ hmem] at hv'
        rw [← hv']
        have h1 : e ≤ m := hlow ⟨⟨_, hmem, rfl⟩, hcond.1⟩
        exact lt_of_le_of_ne h1 (fun h => hne (s, k, b, e) (by simp) h)
      · exact h
  have hpost : ∀ (l2 : List (Spin × ℕ × ℕ × ℚ)) (c : Edge), (∀ y ∈ l2, y ∈ l) → c.energy = some m →
      l2.foldl (vbmStep ef) c = c := by
    intro l2
    induction l2 with
    | nil => intro c _ _; rfl
    | cons y l2 ih =>
      intro c hin hc
      rw [List.foldl_cons]
      have : vbmStep ef c y = c := by
        obtain ⟨s, k, b, e⟩ := y
        simp only [vbmStep]
        rw [if_neg]
        rintro ⟨h1, h2⟩
        have := h2 m (by rw [hc]; rfl)
        exact absurd (hlow ⟨⟨_, hin (s, k, b, e) (by simp), rfl⟩, h1⟩) (not_le.2 this)
      rw [this]
      exact ih c (fun z hz => hin z (by simp [hz])) hc
  have h1 := hpre l1 ⟨none, 0, 0, none⟩ (fun y hy => by rw [hl]; simp [hy]) hl1 (by simp)
  rw [hl, List.foldl_append, List.foldl_cons]
  have hx : vbmStep ef (l1.foldl (vbmStep ef) ⟨none, 0, 0, none⟩) x
      = ⟨some m, x.2.1 + 1, x.2.2.1 + 1, some x.1⟩ := by
    have hxl : x ∈ l := by rw [hl]; simp
    have hd := hdec x hxl
    obtain ⟨s, k, b, e⟩ := x
    simp only at hxm hd
    subst hxm
    simp only [vbmStep]
    rw [if_pos ⟨hef, h1⟩, hd]
  rw [hx]
  exact hpost l2 _ (fun y hy => by rw [hl]; simp [hy]) rfl

end MaterSDK
