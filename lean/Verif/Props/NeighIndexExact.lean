import Verif.Props.NeighIndex

/-!
# C22 for every structure: what the padding is
-/

set_option linter.unusedSectionVars false

namespace MaterSDK

open Classical

/-- C22 for every structure. A row is the neighbours, then `pad` up to the longest row of this pair of
elements, then 0 up to the requested width. `pad` is 0 when no atom is on a lattice point and otherwise the
1-based index of such an atom. So every entry after the neighbours is 0 exactly when no atom is on a lattice
point or all centres have equally many neighbours. -/
theorem C22_exact (A : ArgSort) (s S : Struct ℝ) (hL : s.lattice.det ≠ 0) (hsep : Separated s)
    (hne : s.sites ≠ []) (r : ℝ) (hr : 0 ≤ r) (sc : Fin 3 → ℤ) (m : Fin 3 → ℕ)
    (h : ∀ i, sc i = 2 * (m i : ℤ) + 1) (hS : s.makeSupercell sc true = .ok S) (cz nz : ℕ) (hnz : 0 < nz)
    (hcz : ∃ c ∈ s.sites, c.z = cz) (width : ℕ) :
    ∃ table pad W, neighborTable A s r sc = .ok table ∧
      (pad = 0 ↔ ∀ t ∈ s.sites, ¬ NearImage s.lattice 0 t.pos) ∧
      (∀ k, pad = k + 1 → ∃ t, s.sites[k]? = some t ∧ NearImage s.lattice 0 t.pos) ∧
      (∀ c ∈ s.sites, c.z = cz → (nbrsOf S c.pos r nz).length ≤ W) ∧
      (∃ c ∈ s.sites, c.z = cz ∧ (nbrsOf S c.pos r nz).length = W) ∧
      ((∃ rows, nbrsIndices s table cz nz width = .ok rows) ↔ width = 0 ∨ W ≤ width) ∧
      (width ≠ 0 → width < W → nbrsIndices s table cz nz width = .error .valueError) ∧
      ∀ rows, nbrsIndices s table cz nz width = .ok rows →
        List.Forall₂ (fun c row => ∃ (P : List (Vec ℝ)) (real : List ℕ),
          row = real ++ List.replicate (W - real.length) pad ++
            List.replicate (if width = 0 then 0 else width - W) 0 ∧
          P.Perm ((nbrsOf S c.pos r nz).map Site.pos) ∧
          P.Pairwise (fun p q => dist3 p c.pos ≤ dist3 q c.pos) ∧
          List.Forall₂ (fun p i => ∃ (k : ℕ) (t : Site ℝ) (n : Fin 3 → ℤ), i = k + 1 ∧
            s.sites[k]? = some t ∧ t.z = nz ∧ p = t.pos + ∑ a, (n a : ℝ) • s.lattice a) P real)
          (s.reformat_.sites.filter (fun c => c.z = cz)) rows ∧
        ((∀ (j : ℕ) (c : Site ℝ) (row : List ℕ), (s.reformat_.sites.filter (fun c => c.z = cz))[j]? = some c →
            rows[j]? = some row → ∀ x ∈ row.drop (nbrsOf S c.pos r nz).length, x = 0) ↔
          (∀ t ∈ s.sites, ¬ NearImage s.lattice 0 t.pos) ∨
            ∀ c ∈ s.sites, c.z = cz → (nbrsOf S c.pos r nz).length = W) := by
  obtain ⟨table, pad, W, rows, h1, h2, h3, h4, h5, h6⟩ :=
    nbrsIndices_spec A s S hL hsep hne r hr sc m h hS cz nz hnz
  obtain ⟨pad', e1, e2, e3⟩ := C16_zero_means_none s hL 0
  rw [h2] at e1
  cases e1
  obtain ⟨c0, hc0, hz0, hW⟩ := h4 hcz
  have hmem : ∀ c, c ∈ s.reformat_.sites.filter (fun c => decide (c.z = cz)) ↔ c ∈ s.sites ∧ c.z = cz := by
    intro c
    rw [List.mem_filter]
    simp [Struct.reformat_, (sortByKey_perm _ _).mem_iff]
  have hrows : rows ≠ [] := by
    intro h0
    rw [h0] at h5
    have := List.forall₂_nil_right_iff.1 h5
    have hm := (hmem c0).2 ⟨hc0, hz0⟩
    rw [this] at hm
    cases hm
  refine ⟨table, pad, W, h1, e2, e3, h3, ⟨c0, hc0, hz0, hW⟩, ?_, ?_, ?_⟩
  · rw [h6]
    constructor
    · rintro ⟨rows', hr'⟩
      by_contra hcon
      rw [not_or, not_le] at hcon
      rw [if_neg hcon.1, if_pos ⟨hrows, hcon.2⟩] at hr'
      cases hr'
    · intro hw
      by_cases hw0 : width = 0
      · exact ⟨_, by rw [if_pos hw0]⟩
      · exact ⟨_, by rw [if_neg hw0, if_neg (by omega)]⟩
  · intro hw0 hlt
    rw [h6, if_neg hw0, if_pos ⟨hrows, hlt⟩]
  · intro rows' hr'
    have hr2 : rows' = rows.map (fun l => l ++ List.replicate (if width = 0 then 0 else width - W) 0) := by
      rw [h6] at hr'
      by_cases hw0 : width = 0
      · rw [if_pos hw0] at hr'
        cases hr'
        simp [hw0]
      · rw [if_neg hw0] at hr'
        split at hr'
        · cases hr'
        · rw [← Except.ok.inj hr', if_neg hw0]
    have hforall : List.Forall₂ (fun c row => ∃ (P : List (Vec ℝ)) (real : List ℕ),
          row = real ++ List.replicate (W - real.length) pad ++
            List.replicate (if width = 0 then 0 else width - W) 0 ∧
          P.Perm ((nbrsOf S c.pos r nz).map Site.pos) ∧
          P.Pairwise (fun p q => dist3 p c.pos ≤ dist3 q c.pos) ∧
          List.Forall₂ (fun p i => ∃ (k : ℕ) (t : Site ℝ) (n : Fin 3 → ℤ), i = k + 1 ∧
            s.sites[k]? = some t ∧ t.z = nz ∧ p = t.pos + ∑ a, (n a : ℝ) • s.lattice a) P real)
          (s.reformat_.sites.filter (fun c => c.z = cz)) rows' := by
      rw [hr2, List.forall₂_map_right_iff]
      refine h5.imp ?_
      rintro c row ⟨P, real, g1, g2, g3, g4⟩
      exact ⟨P, real, by rw [g1], g2, g3, g4⟩
    refine ⟨hforall, ?_⟩
    have hrow : ∀ (j : ℕ) (c : Site ℝ) (row : List ℕ),
        (s.reformat_.sites.filter (fun c => decide (c.z = cz)))[j]? = some c → rows'[j]? = some row →
        row.drop (nbrsOf S c.pos r nz).length = List.replicate (W - (nbrsOf S c.pos r nz).length) pad ++
          List.replicate (if width = 0 then 0 else width - W) 0 := by
      intro j c row hc hrow
      obtain ⟨hj, rfl⟩ := List.getElem?_eq_some_iff.1 hc
      obtain ⟨hj', rfl⟩ := List.getElem?_eq_some_iff.1 hrow
      obtain ⟨P, real, g1, g2, _, g4⟩ := hforall.get hj hj'
      simp only [List.get_eq_getElem] at g1 g2
      have hl : real.length = (nbrsOf S ((s.reformat_.sites.filter (fun c => decide (c.z = cz)))[j]).pos r nz).length := by
        rw [← g4.length_eq, g2.length_eq, List.length_map]
      rw [g1, ← hl, List.append_assoc, List.drop_left]
    constructor
    · intro hall
      by_cases hp : pad = 0
      · exact Or.inl (e2.1 hp)
      · right
        intro c hc hz
        obtain ⟨j, hj⟩ := List.mem_iff_getElem?.1 ((hmem c).2 ⟨hc, hz⟩)
        have hj' : j < rows'.length := by
          rw [← hforall.length_eq]; exact (List.getElem?_eq_some_iff.1 hj).1
        have := hall j c _ hj (List.getElem?_eq_getElem hj')
        rw [hrow j c _ hj (List.getElem?_eq_getElem hj')] at this
        by_contra hlt
        have hle := h3 c hc hz
        refine hp (this pad (List.mem_append_left _ (List.mem_replicate.2 ⟨by omega, rfl⟩)))
    · intro hor j c row hc hr' x hx
      rw [hrow j c row hc hr'] at hx
      rcases List.mem_append.1 hx with hx | hx
      · rw [List.mem_replicate] at hx
        rcases hor with h0 | h0
        · rw [hx.2]; exact e2.2 h0
        · obtain ⟨hcs, hz⟩ := (hmem c).1 (List.mem_of_getElem? hc)
          have := h0 c hcs hz
          omega
      · exact (List.mem_replicate.1 hx).2

example (A : ArgSort) := C22_exact A originCell _ (by simp [originCell, Matrix.det_diagonal]) originCell_separated
  (by simp [originCell]) 1 (by norm_num) ![1, 1, 1] ![0, 0, 0] (by decide) originCell_supercell 3 14 (by norm_num)
  ⟨⟨3, 0, none⟩, by simp [originCell], rfl⟩ 4

end MaterSDK
