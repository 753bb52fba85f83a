import Verif.Lemmas.Crystal

/-! # C179: environment matrices depend only on the crystal -/

namespace MaterSDK

open Classical

/-- One direction of C179. -/
theorem same_crystal_half (A A' : ArgSort) (s S s' S' : Struct ℝ) (hL : s.lattice.det ≠ 0)
    (hL' : s'.lattice.det ≠ 0) (hsep : Separated s) (hsep' : Separated s') (hne : s.sites ≠ [])
    (hne' : s'.sites ≠ []) (rcut rs : ℝ) (hrc : 0 ≤ rcut) (hrs : rs < rcut) (sc sc' : Fin 3 → ℤ)
    (m m' : Fin 3 → ℕ) (h : ∀ i, sc i = 2 * (m i : ℤ) + 1) (h' : ∀ i, sc' i = 2 * (m' i : ℤ) + 1)
    (hS : s.makeSupercell sc true = .ok S) (hS' : s'.makeSupercell sc' true = .ok S')
    (hr : Reaches s m rcut) (hr' : Reaches s' m' rcut) (hcr : crystal s = crystal s')
    (cz nz : ℕ) (hnz : 0 < nz) (width : ℕ)
    (hw : ∀ c ∈ s.sites, c.z = cz → (nbrsOf S c.pos rcut nz).length ≤ width) :
    ∃ (table table' : List (List NbrEntry)) (rows rows' : List (List (Fin 4 → ℝ))),
      neighborTable A s rcut sc = .ok table ∧ neighborTable A' s' rcut sc' = .ok table' ∧
      getTildeR rcut rs table cz nz width = .ok rows ∧
      getTildeR rcut rs table' cz nz width = .ok rows' ∧
      (∀ c' ∈ s'.sites, c'.z = cz → (nbrsOf S' c'.pos rcut nz).length ≤ width) ∧
      ∀ (i' : ℕ) (c' : Site ℝ), (s'.reformat_.sites.filter (fun c => c.z = cz))[i']? = some c' →
        ∃ (i : ℕ) (c : Site ℝ) (k : Fin 3 → ℤ) (row row' : List (Fin 4 → ℝ)),
          (s.reformat_.sites.filter (fun c => c.z = cz))[i]? = some c ∧
          c'.pos = c.pos + ∑ a, (k a : ℝ) • s.lattice a ∧
          rows[i]? = some row ∧ rows'[i']? = some row' ∧ row'.Perm row ∧
          row'.map (fun x => x 0) = row.map (fun x => x 0) := by
  have hw' : ∀ c' ∈ s'.sites, c'.z = cz → (nbrsOf S' c'.pos rcut nz).length ≤ width := by
    intro c' hc' hz'
    obtain ⟨c, hc, hz, k, hk⟩ := crystal_partner s s' hcr c' hc'
    have := (relNbrs_perm s S s' S' hL hL' hsep hsep' sc sc' m m' h h' hS hS' rcut hr hr' hcr c c' hc hc'
      k hk nz).length_eq
    unfold relNbrs at this
    rw [List.length_map, List.length_map] at this
    rw [← this]
    exact hw c hc (hz.trans hz')
  obtain ⟨table, rows, g1, g2, g3⟩ :=
    env_rel A s S hL hsep hne rcut rs hrc hrs sc m h hS cz nz hnz width hw
  obtain ⟨table', rows', g1', g2', g3'⟩ :=
    env_rel A' s' S' hL' hsep' hne' rcut rs hrc hrs sc' m' h' hS' cz nz hnz width hw'
  refine ⟨table, table', rows, rows', g1, g1', g2, g2', hw', ?_⟩
  intro i' c' hi'
  obtain ⟨hc', hz'⟩ := centres_mem (List.mem_of_getElem? hi')
  obtain ⟨c, hc, hz, k, hk⟩ := crystal_partner s s' hcr c' hc'
  have hcm : c ∈ s.reformat_.sites.filter (fun c => decide (c.z = cz)) := by
    rw [List.mem_filter]
    exact ⟨(sortByKey_perm _ _).mem_iff.2 hc, by simp [hz, hz']⟩
  obtain ⟨i, hi⟩ := List.getElem?_of_mem hcm
  obtain ⟨l1, e1⟩ := List.getElem?_eq_some_iff.1 hi
  obtain ⟨l1', e1'⟩ := List.getElem?_eq_some_iff.1 hi'
  have l2 : i < rows.length := by rw [← g3.length_eq]; exact l1
  have l2' : i' < rows'.length := by rw [← g3'.length_eq]; exact l1'
  obtain ⟨qs, q1, q2, q3⟩ := g3.get l1 l2
  obtain ⟨qs', q1', q2', q3'⟩ := g3'.get l1' l2'
  simp only [List.get_eq_getElem, e1, e1'] at q1 q3 q1' q3'
  obtain ⟨r1, r2⟩ := relRows_eq rcut rs width _ _ qs' qs
    (relNbrs_perm s S s' S' hL hL' hsep hsep' sc sc' m m' h h' hS hS' rcut hr hr' hcr c c' hc hc'
      k hk nz).symm q1' q1 q2' q2
  refine ⟨i, c, k, _, _, hi, hk, List.getElem?_eq_getElem l2, List.getElem?_eq_getElem l2', ?_, ?_⟩
  · rw [q3, q3']; exact r1
  · rw [q3, q3']; exact r2

/-- C179: two structures that describe the same crystal, in whatever cell, with whatever periodic images
and in whatever order their atoms are stored, have the same environment matrices, if both supercells
reach far enough: for every centre in one there is an image of it in the other whose row has the same
weights in the same order and the same entries up to the order of neighbours at equal distance.
Missing: supercells that do not reach far enough, see `C179_violated_stored_image`. -/
theorem C179_same_crystal_partial (A A' : ArgSort) (s S s' S' : Struct ℝ) (hL : s.lattice.det ≠ 0)
    (hL' : s'.lattice.det ≠ 0) (hsep : Separated s) (hsep' : Separated s') (hne : s.sites ≠ [])
    (hne' : s'.sites ≠ []) (rcut rs : ℝ) (hrc : 0 ≤ rcut) (hrs : rs < rcut) (sc sc' : Fin 3 → ℤ)
    (m m' : Fin 3 → ℕ) (h : ∀ i, sc i = 2 * (m i : ℤ) + 1) (h' : ∀ i, sc' i = 2 * (m' i : ℤ) + 1)
    (hS : s.makeSupercell sc true = .ok S) (hS' : s'.makeSupercell sc' true = .ok S')
    (hr : Reaches s m rcut) (hr' : Reaches s' m' rcut) (hcr : crystal s = crystal s')
    (cz nz : ℕ) (hnz : 0 < nz) (width : ℕ)
    (hw : ∀ c ∈ s.sites, c.z = cz → (nbrsOf S c.pos rcut nz).length ≤ width) :
    ∃ (table table' : List (List NbrEntry)) (rows rows' : List (List (Fin 4 → ℝ))),
      neighborTable A s rcut sc = .ok table ∧ neighborTable A' s' rcut sc' = .ok table' ∧
      getTildeR rcut rs table cz nz width = .ok rows ∧
      getTildeR rcut rs table' cz nz width = .ok rows' ∧
      (∀ (i' : ℕ) (c' : Site ℝ), (s'.reformat_.sites.filter (fun c => c.z = cz))[i']? = some c' →
        ∃ (i : ℕ) (c : Site ℝ) (k : Fin 3 → ℤ) (row row' : List (Fin 4 → ℝ)),
          (s.reformat_.sites.filter (fun c => c.z = cz))[i]? = some c ∧
          c'.pos = c.pos + ∑ a, (k a : ℝ) • s.lattice a ∧
          rows[i]? = some row ∧ rows'[i']? = some row' ∧ row'.Perm row ∧
          row'.map (fun x => x 0) = row.map (fun x => x 0)) ∧
      ∀ (i : ℕ) (c : Site ℝ), (s.reformat_.sites.filter (fun c => c.z = cz))[i]? = some c →
        ∃ (i' : ℕ) (c' : Site ℝ) (k : Fin 3 → ℤ) (row row' : List (Fin 4 → ℝ)),
          (s'.reformat_.sites.filter (fun c => c.z = cz))[i']? = some c' ∧
          c.pos = c'.pos + ∑ a, (k a : ℝ) • s'.lattice a ∧
          rows[i]? = some row ∧ rows'[i']? = some row' ∧ row.Perm row' ∧
          row.map (fun x => x 0) = row'.map (fun x => x 0) := by
  obtain ⟨table, table', rows, rows', g1, g2, g3, g4, g5, g6⟩ := same_crystal_half A A' s S s' S' hL hL'
    hsep hsep' hne hne' rcut rs hrc hrs sc sc' m m' h h' hS hS' hr hr' hcr cz nz hnz width hw
  obtain ⟨tb, tb', rw1, rw2, f1, f2, f3, f4, _, f6⟩ := same_crystal_half A' A s' S' s S hL' hL
    hsep' hsep hne' hne rcut rs hrc hrs sc' sc m' m h' h hS' hS hr' hr hcr.symm cz nz hnz width g5
  rw [g2] at f1; cases f1
  rw [g1] at f2; cases f2
  rw [g4] at f3; cases f3
  rw [g3] at f4; cases f4
  refine ⟨table, table', rows, rows', g1, g2, g3, g4, g6, ?_⟩
  intro i c hi
  obtain ⟨i', c', k, row', row, e1, e2, e3, e4, e5, e6⟩ := f6 i c hi
  exact ⟨i', c', k, row, row', e1, e2, e4, e3, e5, e6⟩

/-- A Li atom at the origin and a Si atom stored at (1 + 10 k, 0, 0), in a cubic cell of edge 10. -/
noncomputable def imageCell (k : ℤ) : Struct ℝ :=
  ⟨Matrix.diagonal (fun _ => 10), [⟨3, 0, none⟩, ⟨14, ![1 + 10 * k, 0, 0], none⟩]⟩

theorem imageCell_det (k : ℤ) : (imageCell k).lattice.det ≠ 0 := by
  simp [imageCell, Matrix.det_diagonal]

theorem imageCell_shift (k : ℤ) (f : Vec ℝ) : ∑ i, f i • (imageCell k).lattice i = fun i => 10 * f i := by
  funext j
  simp only [imageCell, Finset.sum_apply, Pi.smul_apply, Matrix.diagonal_apply, smul_eq_mul, mul_ite,
    mul_zero, Finset.sum_ite_eq', Finset.mem_univ, if_true]
  ring

theorem imageCell_separated (k : ℤ) : Separated (imageCell k) := by
  have key : ∀ (x : ℝ) (b : Bool), x = 1 + 10 * k → ∀ (n : ℤ) (e : ℝ), |e| ≤ 1 / 10 ^ 10 →
      (if b then x else -x) = 10 * (n + e) → False := by
    rintro x b rfl n e he hx
    rw [abs_le] at he
    have e1 : (1 : ℝ) / 10 ^ 10 ≤ 1 / 100 := by norm_num
    cases b with
    | true =>
      simp only [if_true] at hx
      have h1 : ((k - n : ℤ) : ℝ) < 0 := by push_cast; linarith [he.2]
      have h2 : (-1 : ℝ) < ((k - n : ℤ) : ℝ) := by push_cast; linarith [he.1]
      have h3 : k - n < 0 := by exact_mod_cast h1
      have h4 : -1 < k - n := by exact_mod_cast h2
      omega
    | false =>
      simp only [Bool.false_eq_true, if_false] at hx
      have h1 : ((k + n : ℤ) : ℝ) < 0 := by push_cast; linarith [he.1]
      have h2 : (-1 : ℝ) < ((k + n : ℤ) : ℝ) := by push_cast; linarith [he.2]
      have h3 : k + n < 0 := by exact_mod_cast h1
      have h4 : -1 < k + n := by exact_mod_cast h2
      omega
  intro i j t u hij ht hu hn
  have hi := (List.getElem?_eq_some_iff.1 ht).1
  have hj := (List.getElem?_eq_some_iff.1 hu).1
  simp only [imageCell, List.length_cons, List.length_nil] at hi hj
  simp only [imageCell] at ht hu hn
  obtain ⟨n, e, he, hp⟩ := diag_near hn 0
  interval_cases i <;> interval_cases j <;> simp at hij ht hu <;> subst ht <;> subst hu
  · exact key _ false rfl n e he (by simpa using hp)
  · exact key _ true rfl n e he (by simpa using hp)

theorem imageCell_crystal (k l : ℤ) : crystal (imageCell k) ⊆ crystal (imageCell l) := by
  rintro x ⟨t, ht, n, rfl⟩
  have e1 := imageCell_shift k
  have e2 := imageCell_shift l
  rw [e1 (fun i => (n i : ℝ))]
  simp only [imageCell, List.mem_cons, List.not_mem_nil, or_false] at ht
  rcases ht with rfl | rfl
  · exact ⟨⟨3, 0, none⟩, by simp [imageCell], n, by rw [e2 (fun i => (n i : ℝ))]⟩
  · refine ⟨⟨14, ![1 + 10 * l, 0, 0], none⟩, by simp [imageCell], n + ![k - l, 0, 0], ?_⟩
    rw [e2 (fun i => ((n + ![k - l, 0, 0]) i : ℝ))]
    congr 1
    funext i
    fin_cases i
    · simp; ring
    · simp
    · simp

theorem imageCell_plane (k : ℤ) (i : Fin 3) : planeDist (imageCell k).lattice i = 10 := by
  have e1 : (1 : Fin 3) + 1 = 2 := rfl
  have e2 : (1 : Fin 3) + 2 = 0 := rfl
  have e3 : (2 : Fin 3) + 1 = 0 := rfl
  have e4 : (2 : Fin 3) + 2 = 1 := rfl
  have hs : Real.sqrt ((10 * 10) ^ 2) = 10 * 10 := Real.sqrt_sq (by norm_num)
  fin_cases i <;>
    simp [imageCell, planeDist, dist3, crossProduct, Matrix.det_diagonal, Fin.sum_univ_three, e1, e2, e3,
      e4, hs] <;> norm_num

/-- With factors 3 and cutoff 2 the supercell reaches far enough if Si is stored in the same cell as Li
or in a neighbouring one. -/
theorem imageCell_reaches (k : ℤ) (hk : |(1 : ℝ) + 10 * k| < 18) : Reaches (imageCell k) ![1, 1, 1] 2 := by
  have hm : ∀ i : Fin 3, (((![1, 1, 1] : Fin 3 → ℕ) i : ℕ) : ℝ) = 1 := by
    intro i; fin_cases i <;> simp
  have key : ∀ f : Vec ℝ, (∀ i, |f i| < 18 / 10) →
      ∀ i, 2 + |f i| * planeDist (imageCell k).lattice i
        < ((((![1, 1, 1] : Fin 3 → ℕ) i : ℕ) : ℝ) + 1) * planeDist (imageCell k).lattice i := by
    intro f hf i
    rw [imageCell_plane, hm]
    have := hf i
    linarith
  have ha : |((1 : ℝ) + 10 * k) / 10| < 18 / 10 := by
    rw [abs_div, abs_of_pos (by norm_num : (0 : ℝ) < 10)]
    linarith
  intro c hc t ht
  simp only [imageCell, List.mem_cons, List.not_mem_nil, or_false] at hc ht
  rcases hc with rfl | rfl <;> rcases ht with rfl | rfl
  · refine ⟨0, ?_, key _ (by simp)⟩
    rw [imageCell_shift]; funext i; simp
  · refine ⟨![(1 + 10 * k) / 10, 0, 0], ?_, key _ (by intro i; fin_cases i <;> simp <;> simpa using ha)⟩
    rw [imageCell_shift]; funext i; fin_cases i <;> simp; ring
  · refine ⟨![-((1 + 10 * k) / 10), 0, 0], ?_,
      key _ (by intro i; fin_cases i <;> simp <;> simpa using ha)⟩
    rw [imageCell_shift]; funext i; fin_cases i <;> simp; ring
  · refine ⟨0, ?_, key _ (by simp)⟩
    rw [imageCell_shift]; funext i; simp

/-- C179 fails if an atom is stored far from the others: both structures describe the same crystal, the
supercell has the size C19 asks for, but with Si stored five cells away from Li the environment
matrix of Li is zero, while it is not with Si stored next to it. -/
theorem C179_violated_stored_image (A : ArgSort) :
    ∃ (s s' : Struct ℝ) (table table' : List (List NbrEntry)) (width : ℕ)
      (rows rows' : List (List (Fin 4 → ℝ))),
      s.lattice.det ≠ 0 ∧ s'.lattice = s.lattice ∧ Separated s ∧ Separated s' ∧ crystal s = crystal s' ∧
      (∀ i, (2 : ℝ) ≤ ((![1, 1, 1] : Fin 3 → ℕ) i : ℝ) * planeDist s.lattice i) ∧
      neighborTable A s 2 ![3, 3, 3] = .ok table ∧ neighborTable A s' 2 ![3, 3, 3] = .ok table' ∧
      getTildeR 2 (1 / 2) table 3 14 width = .ok rows ∧ getTildeR 2 (1 / 2) table' 3 14 width = .ok rows' ∧
      (∃ row ∈ rows, ∃ x ∈ row, 0 < x 0) ∧ ∀ row ∈ rows', ∀ x ∈ row, x = 0 := by
  have hsc : ∀ i, (![3, 3, 3] : Fin 3 → ℤ) i = 2 * (((![1, 1, 1] : Fin 3 → ℕ) i : ℕ) : ℤ) + 1 := by decide
  have hm : ∀ i : Fin 3, (((![1, 1, 1] : Fin 3 → ℕ) i : ℕ) : ℝ) = 1 := by
    intro i; fin_cases i <;> simp
  have hS := fun k => makeSupercell_odd (imageCell k) ![1, 1, 1] hsc true
  generalize hS0 : (let S : Struct ℝ := ⟨Matrix.diagonal (fun i => ((![3, 3, 3] : Fin 3 → ℤ) i : ℝ)) *
    (imageCell 0).lattice, superSites (imageCell 0) ![1, 1, 1]⟩; if true then S.reformat_ else S) = S
  generalize hS5 : (let S : Struct ℝ := ⟨Matrix.diagonal (fun i => ((![3, 3, 3] : Fin 3 → ℤ) i : ℝ)) *
    (imageCell 5).lattice, superSites (imageCell 5) ![1, 1, 1]⟩; if true then S.reformat_ else S) = S'
  have hS' := hS 5
  have hS := hS 0
  rw [hS0] at hS
  rw [hS5] at hS'
  have hempty : ∀ c ∈ (imageCell 5).sites, c.z = 3 → nbrsOf S' c.pos 2 14 = [] := by
    intro c hc hz
    simp only [imageCell, List.mem_cons, List.not_mem_nil, or_false] at hc
    rcases hc with rfl | rfl
    · unfold nbrsOf
      rw [List.filter_eq_nil_iff]
      intro u hu
      obtain ⟨t, ht, n, hn, rfl⟩ := (superSites_mem _ S' _ _ hsc hS' u).1 hu
      simp only [decide_eq_true_eq, not_and, not_le]
      intro htz _
      simp only [imageCell, List.mem_cons, List.not_mem_nil, or_false] at ht
      rcases ht with rfl | rfl
      · simp at htz
      · rw [imageCell_shift 5 (fun i => (n i : ℝ))]
        have h0 := hn 0
        simp only [Matrix.cons_val_zero] at h0
        have h1 : (-1 : ℝ) ≤ n 0 := by exact_mod_cast (abs_le.1 h0).1
        unfold dist3
        apply Real.lt_sqrt_of_sq_lt
        rw [Fin.sum_univ_three]
        simp
        nlinarith [sq_nonneg (10 * (n 1 : ℝ)), sq_nonneg (10 * (n 2 : ℝ))]
    · simp at hz
  obtain ⟨table, rows, g1, g2, g3⟩ := env_rel A (imageCell 0) S (imageCell_det 0) (imageCell_separated 0)
    (by simp [imageCell]) 2 (1 / 2) (by norm_num) (by norm_num) ![3, 3, 3] ![1, 1, 1] hsc hS 3 14
    (by norm_num) S.sites.length (fun c _ _ => List.length_filter_le _ _)
  obtain ⟨table', rows', g1', g2', g3'⟩ := env_rel A (imageCell 5) S' (imageCell_det 5)
    (imageCell_separated 5) (by simp [imageCell]) 2 (1 / 2) (by norm_num) (by norm_num) ![3, 3, 3]
    ![1, 1, 1] hsc hS' 3 14 (by norm_num) S.sites.length
    (fun c hc hz => by rw [hempty c hc hz]; simp)
  refine ⟨imageCell 0, imageCell 5, table, table', S.sites.length, rows, rows', imageCell_det 0, rfl,
    imageCell_separated 0, imageCell_separated 5,
    Set.Subset.antisymm (imageCell_crystal 0 5) (imageCell_crystal 5 0), ?_, g1, g1', g2, g2', ?_, ?_⟩
  · intro i
    rw [imageCell_plane, hm]
    norm_num
  · have hc : (⟨3, 0, none⟩ : Site ℝ) ∈ (imageCell 0).reformat_.sites.filter (fun c => decide (c.z = 3)) := by
      rw [List.mem_filter]
      exact ⟨(sortByKey_perm _ _).mem_iff.2 (by simp [imageCell]), by simp⟩
    obtain ⟨i, hi⟩ := List.getElem?_of_mem hc
    obtain ⟨l1, e1⟩ := List.getElem?_eq_some_iff.1 hi
    have l2 : i < rows.length := by rw [← g3.length_eq]; exact l1
    obtain ⟨qs, q1, _, q3⟩ := g3.get l1 l2
    simp only [List.get_eq_getElem, e1] at q1 q3
    have hd : dist3 (![1, 0, 0] : Vec ℝ) 0 = 1 := by simp [dist3, Fin.sum_univ_three]
    have hq : ![1, 0, 0] ∈ qs := by
      rw [q1.mem_iff, relNbrs_mem (imageCell 0) S (imageCell_det 0) _ _ hsc hS 2
        (imageCell_reaches 0 (by norm_num)) ⟨3, 0, none⟩ (by simp [imageCell])]
      refine ⟨⟨⟨14, ![1 + 10 * (0 : ℤ), 0, 0], none⟩, by simp [imageCell], 0, by simp⟩, ?_, ?_⟩ <;>
        rw [hd] <;> norm_num
    refine ⟨_, List.getElem_mem l2, relRow 2 (1 / 2) ![1, 0, 0], ?_, ?_⟩
    · rw [q3]
      exact List.mem_append_left _ (List.mem_map.2 ⟨_, hq, rfl⟩)
    · simp only [relRow, hd, Matrix.cons_val_zero]
      exact ((C24_weight 2 (1 / 2) (by norm_num)).1 1 (by norm_num) (by norm_num)).1
  · intro row hrow x hx
    obtain ⟨i, l2, rfl⟩ := List.getElem_of_mem hrow
    have l1 : i < ((imageCell 5).reformat_.sites.filter (fun c => decide (c.z = 3))).length := by
      rw [g3'.length_eq]; exact l2
    obtain ⟨qs, q1, _, q3⟩ := g3'.get l1 l2
    obtain ⟨m1, m2⟩ := centres_mem (List.get_mem _ ⟨i, l1⟩)
    unfold relNbrs at q1
    rw [hempty _ m1 m2, List.map_nil] at q1
    rw [List.perm_nil.1 q1] at q3
    simp only [List.get_eq_getElem] at q3
    rw [q3] at hx
    simp only [List.map_nil, List.nil_append] at hx
    exact (List.mem_replicate.1 hx).2

/-- Si stored one cell to the left: the hypotheses of `C179_same_crystal_partial` hold. -/
example (A : ArgSort) : ∃ (table table' : List (List NbrEntry)) (width : ℕ)
    (rows rows' : List (List (Fin 4 → ℝ))),
    neighborTable A (imageCell 0) 2 ![3, 3, 3] = .ok table ∧
    neighborTable A (imageCell (-1)) 2 ![3, 3, 3] = .ok table' ∧
    getTildeR 2 (1 / 2) table 3 14 width = .ok rows ∧
    getTildeR 2 (1 / 2) table' 3 14 width = .ok rows' := by
  have hsc : ∀ i, (![3, 3, 3] : Fin 3 → ℤ) i = 2 * (((![1, 1, 1] : Fin 3 → ℕ) i : ℕ) : ℤ) + 1 := by decide
  obtain ⟨table, table', rows, rows', h1, h2, h3, h4, _⟩ := C179_same_crystal_partial A A (imageCell 0) _
    (imageCell (-1)) _ (imageCell_det 0) (imageCell_det _) (imageCell_separated 0) (imageCell_separated _)
    (by simp [imageCell]) (by simp [imageCell]) 2 (1 / 2) (by norm_num) (by norm_num) _ _ _ _ hsc hsc
    (makeSupercell_odd _ _ hsc true) (makeSupercell_odd _ _ hsc true)
    (imageCell_reaches 0 (by norm_num)) (imageCell_reaches (-1) (by norm_num))
    (Set.Subset.antisymm (imageCell_crystal 0 _) (imageCell_crystal _ 0)) 3 14 (by norm_num) _
    (fun c _ _ => List.length_filter_le _ _)
  exact ⟨table, table', _, rows, rows', h1, h2, h3, h4⟩

end MaterSDK
