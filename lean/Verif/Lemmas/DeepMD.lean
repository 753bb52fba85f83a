import Verif.Model.DeepMD
import Verif.Lemmas.NeighIndex

/-! # Lemmas about feature pairs -/

set_option linter.unusedSectionVars false

namespace MaterSDK

open Classical

theorem runningMax_ite {α : Type} (p : α → Bool) (f : α → ℕ) (l : List α) :
    runningMax (l.map (fun a => if p a then f a else 0)) = runningMax ((l.filter p).map f) := by
  apply le_antisymm
  · apply runningMax_le
    intro x hx
    obtain ⟨a, ha, rfl⟩ := List.mem_map.1 hx
    split
    · rename_i h
      exact le_runningMax (List.mem_map.2 ⟨a, List.mem_filter.2 ⟨ha, h⟩, rfl⟩)
    · exact Nat.zero_le _
  · apply runningMax_le
    intro x hx
    obtain ⟨a, ha, rfl⟩ := List.mem_map.1 hx
    obtain ⟨h1, h2⟩ := List.mem_filter.1 ha
    exact le_runningMax (List.mem_map.2 ⟨a, h1, by rw [if_pos h2]⟩)

/-- What `extractFeaturePair` returns for a table with columns. -/
theorem extract_ok (table : List (List NbrEntry)) (hne : table ≠ []) (hc : ∀ r ∈ table, r ≠ [])
    (cz nz : ℕ) :
    extractFeaturePair table cz nz =
      .ok (runningMax ((table.filter (centreIs cz)).map (fun r => (pairEntries r nz).length)),
        (table.filter (centreIs cz)).map (fun r => pairEntries r nz ++ List.replicate
          (runningMax ((table.filter (centreIs cz)).map (fun r => (pairEntries r nz).length))
            - (pairEntries r nz).length) zeroEntry)) := by
  unfold extractFeaturePair
  rw [if_neg]
  · simp only [runningMax_ite (centreIs cz) (fun r => (pairEntries r nz).length)]
  · rintro (h | h)
    · exact hne (List.isEmpty_iff.1 h)
    · obtain ⟨r, h1, h2⟩ := List.any_eq_true.1 h
      exact hc r h1 (List.isEmpty_iff.1 h2)

theorem extract_error (table : List (List NbrEntry)) (h : table = [] ∨ [] ∈ table) (cz nz : ℕ) :
    extractFeaturePair table cz nz = .error .indexError := by
  unfold extractFeaturePair
  rw [if_pos]
  rcases h with h | h
  · left; simp [h]
  · right; exact List.any_eq_true.2 ⟨[], h, rfl⟩

theorem pairEntries_spec (S : Struct ℝ) (c : Site ℝ) (r : ℝ) (nz : ℕ) (hnz : 0 < nz)
    (rest : List NbrEntry) (k : ℕ)
    (h1 : ((c.z, 0, c.pos) :: rest).Perm
      ((within S c.pos r).map (fun t => (t.z, dist3 t.pos c.pos, t.pos))))
    (h2 : rest.Pairwise (fun a b => a.2.1 ≤ b.2.1)) (h3 : ∀ e ∈ rest, 0 < e.2.1) :
    (pairEntries ((c.z, 0, c.pos) :: (rest ++ List.replicate k (0, 0, 0))) nz).Perm
        ((nbrsOf S c.pos r nz).map (fun t => (nz, dist3 t.pos c.pos, t.pos - c.pos))) ∧
      (pairEntries ((c.z, 0, c.pos) :: (rest ++ List.replicate k (0, 0, 0))) nz).Pairwise
        (fun a b => a.2.1 ≤ b.2.1) := by
  have hz : (List.replicate k ((0, 0, 0) : NbrEntry)).filter (fun e => e.1 = nz) = [] := by
    rw [List.filter_eq_nil_iff]
    intro e he
    rw [List.eq_of_mem_replicate he]
    simp; omega
  simp only [pairEntries]
  rw [List.filter_append, hz, List.append_nil]
  constructor
  · have e1 : rest.filter (fun e => e.1 = nz)
        = ((c.z, 0, c.pos) :: rest).filter (fun e : NbrEntry => decide (e.1 = nz ∧ 0 < e.2.1)) := by
      rw [List.filter_cons_of_neg (by simp)]
      apply List.filter_congr
      intro e he
      simp [h3 e he]
    rw [e1]
    refine ((h1.filter _).map _).trans ?_
    rw [List.filter_map, List.map_map]
    unfold within nbrsOf
    rw [List.filter_filter]
    apply List.Perm.of_eq
    have e2 : (S.sites.filter (fun a => ((fun e : NbrEntry => decide (e.1 = nz ∧ 0 < e.2.1)) ∘
        (fun t : Site ℝ => (t.z, dist3 t.pos c.pos, t.pos))) a && decide (dist3 a.pos c.pos ≤ r)))
        = S.sites.filter (fun t => decide (t.z = nz ∧ 0 < dist3 t.pos c.pos ∧ dist3 t.pos c.pos ≤ r)) := by
      apply List.filter_congr
      intro t _
      simp only [Function.comp, ← Bool.decide_and]
      apply decide_eq_decide.2
      tauto
    rw [e2]
    apply List.map_congr_left
    intro t ht
    have := (List.mem_filter.1 ht).2
    simp only [decide_eq_true_eq] at this
    simp only [Function.comp, this.1]
  · rw [List.pairwise_map]
    exact h2.filter _

/-- The feature pair of a structure. -/
theorem pair_spec_nodup (A : ArgSort) (s S : Struct ℝ)
    (hne : s.sites ≠ []) (r : ℝ) (hr : 0 ≤ r) (sc : Fin 3 → ℤ) (m : Fin 3 → ℕ)
    (h : ∀ i, sc i = 2 * (m i : ℤ) + 1) (hS : s.makeSupercell sc true = .ok S)
    (hnod : (S.sites.map Site.pos).Nodup) (cz nz : ℕ)
    (hnz : 0 < nz) :
    ∃ (table : List (List NbrEntry)) (w : ℕ) (rows : List (List NbrEntry)),
      neighborTable A s r sc = .ok table ∧ extractFeaturePair table cz nz = .ok (w, rows) ∧
      (∀ c ∈ s.sites, c.z = cz → (nbrsOf S c.pos r nz).length ≤ w) ∧
      (w = 0 ∨ ∃ c ∈ s.sites, c.z = cz ∧ (nbrsOf S c.pos r nz).length = w) ∧
      List.Forall₂ (fun c row => ∃ (real : List NbrEntry),
          row = real ++ List.replicate (w - real.length) (0, 0, 0) ∧ real.length ≤ w ∧
          real.Perm ((nbrsOf S c.pos r nz).map (fun t => (nz, dist3 t.pos c.pos, t.pos - c.pos))) ∧
          real.Pairwise (fun a b => a.2.1 ≤ b.2.1))
        (s.reformat_.sites.filter (fun c => c.z = cz)) rows := by
  obtain ⟨table, t1, t2⟩ := row_split A s S r hr sc m h hS hnod
  have t3 : List.Forall₂ (fun c row => row.head?.map Prod.fst = some c.z ∧
      (pairEntries row nz).Perm
        ((nbrsOf S c.pos r nz).map (fun t => (nz, dist3 t.pos c.pos, t.pos - c.pos))) ∧
      (pairEntries row nz).Pairwise (fun a b => a.2.1 ≤ b.2.1)) s.reformat_.sites table := by
    refine t2.imp ?_
    rintro c row ⟨rest, k, rfl, g1, g2, g3⟩
    exact ⟨rfl, pairEntries_spec S c r nz hnz rest k g1 g2 g3⟩
  have t4 := forall₂_filter (p := fun c : Site ℝ => decide (c.z = cz))
    (q := centreIs cz) t3 (by
      rintro c row ⟨g, _⟩
      rw [centreIs, g]; simp)
  have hte : table ≠ [] := by
    intro h0
    rw [h0] at t2
    have := t2.length_eq
    rw [Struct.reformat_, (sortByKey_perm _ _).length_eq] at this
    exact hne (List.length_eq_zero_iff.1 this)
  have hre : ∀ row ∈ table, row ≠ [] := by
    intro row hrow
    obtain ⟨i, hi, rfl⟩ := List.mem_iff_getElem.1 hrow
    obtain ⟨rest, k, g, _⟩ := t2.get (by rw [t2.length_eq]; exact hi) hi
    simp only [List.get_eq_getElem] at g
    rw [g]
    simp
  have hmem : ∀ c, c ∈ s.reformat_.sites.filter (fun c => decide (c.z = cz)) ↔
      c ∈ s.sites ∧ c.z = cz := by
    intro c
    rw [List.mem_filter]
    simp [Struct.reformat_, (sortByKey_perm _ _).mem_iff]
  refine ⟨table, _, _, t1, extract_ok table hte hre cz nz, ?_⟩
  generalize s.reformat_.sites.filter (fun c => decide (c.z = cz)) = centres at *
  generalize table.filter (centreIs cz) = trows at *
  have hlens : trows.map (fun row => (pairEntries row nz).length)
      = centres.map (fun c => (nbrsOf S c.pos r nz).length) := by
    symm
    rw [← List.forall₂_eq_eq_eq, List.forall₂_map_left_iff, List.forall₂_map_right_iff]
    refine t4.imp ?_
    rintro c row ⟨_, g, _⟩
    rw [g.length_eq, List.length_map]
  rw [hlens]
  refine ⟨?_, ?_, ?_⟩
  · intro c hc hz
    exact le_runningMax (List.mem_map.2 ⟨c, (hmem c).2 ⟨hc, hz⟩, rfl⟩)
  · by_cases hc : centres = []
    · left; rw [hc]; rfl
    · right
      have hne' : centres.map (fun c => (nbrsOf S c.pos r nz).length) ≠ [] := by simpa using hc
      obtain ⟨c', hc', he⟩ := List.mem_map.1 (runningMax_mem hne')
      exact ⟨c', ((hmem c').1 hc').1, ((hmem c').1 hc').2, he⟩
  · rw [List.forall₂_map_right_iff]
    rw [List.forall₂_iff_zip] at t4 ⊢
    refine ⟨t4.1, ?_⟩
    intro c row hcr
    obtain ⟨_, g1, g2⟩ := t4.2 hcr
    refine ⟨_, rfl, ?_, g1, g2⟩
    rw [← hlens]
    exact le_runningMax (List.mem_map.2 ⟨row, (List.of_mem_zip hcr).2, rfl⟩)

theorem pair_spec (A : ArgSort) (s S : Struct ℝ) (hL : s.lattice.det ≠ 0) (hsep : Separated s)
    (hne : s.sites ≠ []) (r : ℝ) (hr : 0 ≤ r) (sc : Fin 3 → ℤ) (m : Fin 3 → ℕ)
    (h : ∀ i, sc i = 2 * (m i : ℤ) + 1) (hS : s.makeSupercell sc true = .ok S) (cz nz : ℕ)
    (hnz : 0 < nz) :
    ∃ (table : List (List NbrEntry)) (w : ℕ) (rows : List (List NbrEntry)),
      neighborTable A s r sc = .ok table ∧ extractFeaturePair table cz nz = .ok (w, rows) ∧
      (∀ c ∈ s.sites, c.z = cz → (nbrsOf S c.pos r nz).length ≤ w) ∧
      (w = 0 ∨ ∃ c ∈ s.sites, c.z = cz ∧ (nbrsOf S c.pos r nz).length = w) ∧
      List.Forall₂ (fun c row => ∃ (real : List NbrEntry),
          row = real ++ List.replicate (w - real.length) (0, 0, 0) ∧ real.length ≤ w ∧
          real.Perm ((nbrsOf S c.pos r nz).map (fun t => (nz, dist3 t.pos c.pos, t.pos - c.pos))) ∧
          real.Pairwise (fun a b => a.2.1 ≤ b.2.1))
        (s.reformat_.sites.filter (fun c => c.z = cz)) rows :=
  pair_spec_nodup A s S hne r hr sc m h hS (supercell_nodup s S hL hsep sc m h hS) cz nz hnz

theorem padWidth_ok {α : Type} (zero : α) (w : ℕ) (rows : List (List α)) (width : ℕ) (h : w ≤ width) :
    padWidth zero (w, rows) (width : ℤ) =
      .ok (rows.map (fun r => r ++ List.replicate (width - w) zero)) := by
  unfold padWidth
  rw [if_neg (by omega), if_pos (by simpa using h)]
  simp

theorem padWidth_error {α : Type} (zero : α) (w : ℕ) (rows : List (List α)) (width : ℤ)
    (h : width < (w : ℤ)) (h1 : width < 0 ∨ w ≠ 1) :
    padWidth zero (w, rows) width = .error .valueError := by
  unfold padWidth
  split
  · rfl
  · rename_i h0
    rw [if_neg (by simpa using h), if_neg (by rcases h1 with h1 | h1 <;> [exact absurd h1 h0; exact h1])]

end MaterSDK
