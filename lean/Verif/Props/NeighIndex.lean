import Verif.Lemmas.NeighIndex

/-!
# C22: neighbour index lists
-/

set_option linter.unusedSectionVars false

namespace MaterSDK

open Classical

/-! ## C22 -/

/-- C22, when no atom sits on a lattice point: the rows for the centres of element `cz` list, by
non-decreasing distance, the 1-based primitive index of each neighbour of element `nz`; every
further entry is 0. A requested width that is too small is an error. Missing: the case of an atom on
a lattice point, see `C22_padding_is_atom`. -/
theorem C22_indices_partial (A : ArgSort) (s S : Struct ℝ) (hL : s.lattice.det ≠ 0)
    (hsep : Separated s) (hne : s.sites ≠ []) (hlat : ∀ t ∈ s.sites, ¬ NearImage s.lattice 0 t.pos)
    (r : ℝ) (hr : 0 ≤ r) (sc : Fin 3 → ℤ) (m : Fin 3 → ℕ) (h : ∀ i, sc i = 2 * (m i : ℤ) + 1)
    (hS : s.makeSupercell sc true = .ok S) (cz nz : ℕ) (hnz : 0 < nz)
    (hcz : ∃ c ∈ s.sites, c.z = cz) (width : ℕ) :
    ∃ table, neighborTable A s r sc = .ok table ∧
      if width ≠ 0 ∧ ∃ c ∈ s.sites, c.z = cz ∧ width < (nbrsOf S c.pos r nz).length then
        nbrsIndices s table cz nz width = .error .valueError
      else ∃ rows, nbrsIndices s table cz nz width = .ok rows ∧
        List.Forall₂ (fun c row => ∃ (P : List (Vec ℝ)) (real : List ℕ) (k : ℕ),
          row = real ++ List.replicate k 0 ∧ (width ≠ 0 → row.length = width) ∧
          P.Perm ((nbrsOf S c.pos r nz).map Site.pos) ∧
          P.Pairwise (fun p q => dist3 p c.pos ≤ dist3 q c.pos) ∧
          List.Forall₂ (fun p i => ∃ (k : ℕ) (t : Site ℝ) (n : Fin 3 → ℤ), i = k + 1 ∧
            s.sites[k]? = some t ∧ t.z = nz ∧ p = t.pos + ∑ a, (n a : ℝ) • s.lattice a) P real)
          (s.reformat_.sites.filter (fun c => c.z = cz)) rows := by
  obtain ⟨table, pad, W, rows, h1, h2, h3, h4, h5, h6⟩ :=
    nbrsIndices_spec A s S hL hsep hne r hr sc m h hS cz nz hnz
  obtain ⟨c0, hc0, hz0, hW⟩ := h4 hcz
  have hpad : pad = 0 := by
    obtain ⟨pad', e1, e2, _⟩ := C16_zero_means_none s hL 0
    rw [h2] at e1
    cases e1
    exact e2.2 hlat
  subst hpad
  have hreal : ∀ (c : Site ℝ) (P : List (Vec ℝ)) (real : List ℕ), c ∈ s.reformat_.sites.filter (fun c => c.z = cz) →
      P.Perm ((nbrsOf S c.pos r nz).map Site.pos) → P.length = real.length → real.length ≤ W := by
    intro c P real hc hP hl
    rw [← hl, hP.length_eq, List.length_map]
    rw [List.mem_filter] at hc
    refine h3 c ?_ (by simpa using hc.2)
    exact (sortByKey_perm _ _).mem_iff.1 hc.1
  have hrows : rows ≠ [] := by
    intro h0
    rw [h0] at h5
    have := List.forall₂_nil_right_iff.1 h5
    rw [List.filter_eq_nil_iff] at this
    exact this c0 ((sortByKey_perm _ _).mem_iff.2 hc0) (by simpa using hz0)
  have hmemz := h5
  rw [List.forall₂_iff_zip] at hmemz
  refine ⟨table, h1, ?_⟩
  split
  · rename_i hw
    obtain ⟨hw0, c, hc, hz, hlt⟩ := hw
    rw [h6, if_neg hw0, if_pos ⟨hrows, lt_of_lt_of_le hlt (h3 c hc hz)⟩]
  · rename_i hw
    by_cases hw0 : width = 0
    · refine ⟨rows, by rw [h6, if_pos hw0], ?_⟩
      refine h5.imp ?_
      rintro c row ⟨P, real, e1, e2, e3, e4⟩
      exact ⟨P, real, _, e1, fun h => absurd hw0 h, e2, e3, e4⟩
    · have hWw : W ≤ width := by
        by_contra hlt
        exact hw ⟨hw0, c0, hc0, hz0, by omega⟩
      refine ⟨_, by rw [h6, if_neg hw0, if_neg (by omega)], ?_⟩
      rw [List.forall₂_map_right_iff, List.forall₂_iff_zip]
      refine ⟨hmemz.1, ?_⟩
      intro c row hcr
      obtain ⟨P, real, e1, e2, e3, e4⟩ := hmemz.2 hcr
      have hl := hreal c P real (List.of_mem_zip hcr).1 e2 e4.length_eq
      refine ⟨P, real, (W - real.length) + (width - W), ?_, fun _ => ?_, e2, e3, e4⟩
      · rw [e1, List.append_assoc, List.replicate_append_replicate]
      · rw [e1]
        simp only [List.length_append, List.length_replicate]
        omega

/-- C22 fails for an atom on a lattice point: the Li atom at the origin has no Si neighbour within
the cutoff, yet its row of Si neighbours lists atom 1 (itself, a Li atom). -/
theorem C22_padding_is_atom (A : ArgSort) :
    ∃ (s S : Struct ℝ) (r : ℝ) (sc : Fin 3 → ℤ) (table : List (List NbrEntry)),
      s.lattice.det ≠ 0 ∧ Separated s ∧ s.makeSupercell sc true = .ok S ∧
      s.sites.map Site.seen = [(3, 0), (3, ![2, 0, 0]), (14, ![2, 1, 0])] ∧
      nbrsOf S 0 r 14 = [] ∧ neighborTable A s r sc = .ok table ∧
      nbrsIndices s table 3 14 0 = .ok [[1], [3]] := by
  have hL : originCell.lattice.det ≠ 0 := by simp [originCell, Matrix.det_diagonal]
  obtain ⟨table, pad, W, rows, h1, h2, h3, h4, h5, h6⟩ :=
    nbrsIndices_spec A originCell _ hL originCell_separated (by simp [originCell]) 1 (by norm_num)
      ![1, 1, 1] ![0, 0, 0] (by decide) originCell_supercell 3 14 (by norm_num)
  have d1 : dist3 ![2, 1, 0] 0 = Real.sqrt 5 := by
    simp [dist3, Fin.sum_univ_three]; norm_num
  have d2 : dist3 ![2, 1, 0] ![2, 0, 0] = 1 := by simp [dist3, Fin.sum_univ_three]
  have d5 : ¬ Real.sqrt 5 ≤ 1 := by
    rw [not_le, Real.lt_sqrt (by norm_num)]; norm_num
  have n1 : nbrsOf ⟨Matrix.diagonal (fun i => ((![1, 1, 1] : Fin 3 → ℤ) i : ℝ)) * originCell.lattice,
      [⟨3, 0, none⟩, ⟨3, ![2, 0, 0], none⟩, ⟨14, ![2, 1, 0], none⟩]⟩ 0 1 14 = [] := by
    simp [nbrsOf, d1, d5]
  have n2 : nbrsOf ⟨Matrix.diagonal (fun i => ((![1, 1, 1] : Fin 3 → ℤ) i : ℝ)) * originCell.lattice,
      [⟨3, 0, none⟩, ⟨3, ![2, 0, 0], none⟩, ⟨14, ![2, 1, 0], none⟩]⟩ ![2, 0, 0] 1 14
        = [⟨14, ![2, 1, 0], none⟩] := by
    simp [nbrsOf, d2]
  have hpad : pad = 1 := by
    have := C16_image_maps_back originCell hL 0 ⟨3, 0, none⟩ rfl 0 (fun j u hj hu =>
      originCell_separated 0 j _ u (Ne.symm hj) rfl hu)
    simp only [Pi.zero_apply, Int.cast_zero, zero_smul, Finset.sum_const_zero, add_zero] at this
    rw [h2] at this
    cases this
    rfl
  have hW : W = 1 := by
    have a1 := h3 ⟨3, ![2, 0, 0], none⟩ (by simp [originCell]) rfl
    obtain ⟨c, hc, hz, he⟩ := h4 ⟨⟨3, 0, none⟩, by simp [originCell], rfl⟩
    rw [n2] at a1
    simp only [originCell, List.mem_cons, List.not_mem_nil, or_false] at hc
    rcases hc with rfl | rfl | rfl
    · rw [n1] at he; simp at he a1; omega
    · rw [n2] at he; simp at he a1; omega
    · simp at hz
  have hsorted : originCell.reformat_.sites.filter (fun c => c.z = 3)
      = [⟨3, 0, none⟩, ⟨3, ![2, 0, 0], none⟩] := by
    have : originCell.reformat_.sites = originCell.sites := by
      rw [Struct.reformat_, sortByKey_of_sorted]
      simp [originCell]
    rw [this]
    simp [originCell]
  rw [hsorted] at h5
  subst hpad hW
  refine ⟨originCell, _, 1, ![1, 1, 1], table, hL, originCell_separated, originCell_supercell, rfl,
    n1, h1, ?_⟩
  rw [h6, if_pos rfl]
  congr 1
  cases h5 with
  | cons g1 g2 =>
    cases g2 with
    | cons g2 g3 =>
      cases g3
      obtain ⟨P, real, e1, e2, _, e3⟩ := g1
      rw [n1] at e2
      have := List.perm_nil.1 e2
      subst this
      cases e3
      obtain ⟨P, real, e4, e5, _, e6⟩ := g2
      rw [n2] at e5
      have := List.perm_singleton.1 e5
      subst this
      cases e6 with
      | cons a b =>
        cases b
        obtain ⟨k, t, n, rfl, hk, hz, _⟩ := a
        have hk' := (List.getElem?_eq_some_iff.1 hk).1
        simp only [originCell, List.length_cons, List.length_nil] at hk' hk
        subst e1 e4
        interval_cases k
        · simp at hk; subst hk; simp at hz
        · simp at hk; subst hk; simp at hz
        · rfl

/-- The hypotheses of `C22_indices_partial` hold for a cell without an atom on a lattice point. -/
example : (Matrix.diagonal (fun _ => (10 : ℝ)) : Matrix (Fin 3) (Fin 3) ℝ).det ≠ 0 ∧
    Separated ⟨Matrix.diagonal (fun _ => 10), [⟨3, ![1, 0, 0], none⟩, ⟨14, ![3, 0, 0], none⟩]⟩ ∧
    ∀ t ∈ ([⟨3, ![1, 0, 0], none⟩, ⟨14, ![3, 0, 0], none⟩] : List (Site ℝ)),
      ¬ NearImage (Matrix.diagonal (fun _ => (10 : ℝ))) 0 t.pos := by
  refine ⟨by simp [Matrix.det_diagonal], ?_, ?_⟩
  · intro i j t u hij ht hu
    have hi := (List.getElem?_eq_some_iff.1 ht).1
    have hj := (List.getElem?_eq_some_iff.1 hu).1
    simp only [List.length_cons, List.length_nil] at hi hj
    interval_cases i <;> interval_cases j <;> simp at hij ht hu <;> subst ht <;> subst hu
    · exact not_near_of _ _ 0 (by norm_num)
    · exact not_near_of _ _ 0 (by norm_num)
  · intro t ht
    simp only [List.mem_cons, List.not_mem_nil, or_false] at ht
    rcases ht with rfl | rfl
    · exact not_near_of _ _ 0 (by norm_num)
    · exact not_near_of _ _ 0 (by norm_num)

end MaterSDK
