import Verif.Lemmas.InferProps

/-!
# C118-C120: input of the DeepPot-SE inference
-/

set_option linter.unusedSectionVars false

namespace MaterSDK

open Classical

/-! ## C118 -/

/-- C118, when no atom sits on a lattice point: the four arrays have one row per atom of the listed
elements (element by element) and as many columns as the widths add up to. In the row of an atom the
columns of a neighbour element hold, at the same place of all four arrays, one neighbour each, by
non-decreasing distance: its relative position, its normalised environment row and the derivative of
that row with respect to the position of the centre (for a neighbour inside the cutoff), and the 1-based
index of an atom of that element of which it is an image. The other columns hold zero, the normalised
zero row, zero and index 0. Missing: an atom on a lattice point, see `C118_padding_is_atom`. -/
theorem C118_aligned_partial (A : ArgSort) (s S : Struct ℝ) (hL : s.lattice.det ≠ 0)
    (hsep : Separated s) (hne : s.sites ≠ []) (hlat : ∀ t ∈ s.sites, ¬ NearImage s.lattice 0 t.pos)
    (rcut rs : ℝ) (hr : 0 ≤ rcut) (hrs : rs < rcut) (sc : Fin 3 → ℤ)
    (m : Fin 3 → ℕ) (h : ∀ i, sc i = 2 * (m i : ℤ) + 1) (hS : s.makeSupercell sc true = .ok S)
    (els ws : List ℕ) (davgs dstds : List (Fin 4 → ℝ)) (hels : els ≠ []) (hnd : els.Nodup)
    (hpos : ∀ e ∈ els, 0 < e) (hws : ws.length = els.length) (hw0 : ∀ w ∈ ws, 0 < w)
    (hda : davgs.length = els.length) (hds : dstds.length = els.length)
    (hwide : ∀ (k nz w : ℕ), els[k]? = some nz → ws[k]? = some w → ∀ c ∈ s.sites, c.z ∈ els →
      (nbrsOf S c.pos rcut nz).length ≤ w) :
    ∃ out, inferPreprocess A s rcut rs sc davgs dstds els els (ws.map (Nat.cast : ℕ → ℤ)) = .ok out ∧
      (out.rc.length = (centresOf s els).length ∧ out.tildeR.length = (centresOf s els).length ∧
        out.tildeRDeriv.length = (centresOf s els).length ∧
        out.listNeigh.length = (centresOf s els).length) ∧
      ((∀ row ∈ out.rc, row.length = ws.sum) ∧ (∀ row ∈ out.tildeR, row.length = ws.sum) ∧
        (∀ row ∈ out.tildeRDeriv, row.length = ws.sum) ∧
        (∀ row ∈ out.listNeigh, row.length = ws.sum)) ∧
      ∀ (a i k nz w : ℕ) (c : Site ℝ) (davg dstd : Fin 4 → ℝ), (centresOf s els)[a]? = some c →
        els[i]? = some c.z → els[k]? = some nz → ws[k]? = some w →
        davgs[i]? = some davg → dstds[i]? = some dstd →
        ∃ ts : List (Site ℝ), ts.Perm (nbrsOf S c.pos rcut nz) ∧
          ts.Pairwise (fun a b => dist3 a.pos c.pos ≤ dist3 b.pos c.pos) ∧
          (∀ (b : ℕ) (t : Site ℝ), ts[b]? = some t →
            cellAt out.rc a ((ws.take k).sum + b) = some (t.pos - c.pos) ∧
            (dist3 t.pos c.pos < rcut →
              cellAt out.tildeR a ((ws.take k).sum + b)
                = some (fun q => (envAt rcut rs t.pos c.pos q - davg q) / dstd q) ∧
              ∃ D, cellAt out.tildeRDeriv a ((ws.take k).sum + b) = some D ∧
                HasFDerivAt (fun x q => (envAt rcut rs t.pos x q - davg q) / dstd q)
                  D.mulVecLin.toContinuousLinearMap c.pos) ∧
            ∃ (q : ℕ) (u : Site ℝ), cellAt out.listNeigh a ((ws.take k).sum + b) = some (q + 1) ∧
              s.sites[q]? = some u ∧ u.z = nz ∧ IsImage s t.pos u) ∧
          (∀ b, ts.length ≤ b → b < w →
            cellAt out.rc a ((ws.take k).sum + b) = some 0 ∧
            cellAt out.tildeR a ((ws.take k).sum + b) = some (fun q => (0 - davg q) / dstd q) ∧
            cellAt out.tildeRDeriv a ((ws.take k).sum + b) = some 0 ∧
            cellAt out.listNeigh a ((ws.take k).sum + b) = some 0) := by
  obtain ⟨out, pad, o1, o2, _, o4, o5, o6⟩ := infer_spec A s S hL hsep hne rcut rs hr hrs.ne' sc m h hS
    els ws davgs dstds hels hnd hpos hws hw0 hda hds hwide
  have hpad : pad = 0 := by
    obtain ⟨pad', e1, e2, _⟩ := C16_zero_means_none s hL 0
    rw [o2] at e1
    cases e1
    exact e2.2 hlat
  refine ⟨out, o1, o4, o5, ?_⟩
  intro a i k nz w c davg dstd hc hi hk hw h1 h2
  obtain ⟨ts, M, t1, t2, _, _, t5, t6⟩ := o6 a i k nz w c davg dstd hc hi hk hw h1 h2
  refine ⟨ts, t1, t2, ?_, ?_⟩
  · intro b t hb
    obtain ⟨g1, g2, g3, g4⟩ := t5 b t hb
    refine ⟨g1, ?_, g4⟩
    intro hd
    have h0 : 0 < dist3 t.pos c.pos := by
      have := t1.mem_iff.1 (List.mem_of_getElem? hb)
      unfold nbrsOf at this
      rw [List.mem_filter] at this
      simp only [decide_eq_true_eq] at this
      exact this.2.2.1
    refine ⟨?_, _, g3, hasFDerivAt_normalized hrs t.pos c.pos nz h0 hd davg dstd⟩
    rw [g2, envRow_envAt hrs t.pos c.pos nz hd]
    rfl
  · intro b hb hbw
    obtain ⟨g1, g2, g3, g4⟩ := t6 b hb hbw
    refine ⟨g1, g2, g3, ?_⟩
    rw [g4, hpad]
    simp

/-- The width of an element. -/
def widthOf (els ws : List ℕ) (z : ℕ) : ℕ := ws[els.idxOf z]?.getD 0

/-- C118 when the centre elements are some of the neighbour elements: positions and indices have one block of
columns per neighbour element, environment rows and derivatives only one per centre element; within its block
every neighbour has the same place in all four arrays. So the four arrays agree as C118 says when the two lists
are equal (`C118_aligned_partial`), and disagree otherwise (`C118_violated_fewer_centres`). -/
theorem C118_subset_partial (A : ArgSort) (s S : Struct ℝ) (hL : s.lattice.det ≠ 0)
    (hsep : Separated s) (hne : s.sites ≠ []) (hlat : ∀ t ∈ s.sites, ¬ NearImage s.lattice 0 t.pos)
    (rcut rs : ℝ) (hr : 0 ≤ rcut) (hrs : rs < rcut) (sc : Fin 3 → ℤ)
    (m : Fin 3 → ℕ) (h : ∀ i, sc i = 2 * (m i : ℤ) + 1) (hS : s.makeSupercell sc true = .ok S)
    (cs els ws : List ℕ) (davgs dstds : List (Fin 4 → ℝ)) (hcs : cs ≠ []) (hsub : cs ⊆ els) (hndc : cs.Nodup)
    (hnd : els.Nodup) (hpos : ∀ e ∈ els, 0 < e) (hws : ws.length = els.length) (hw0 : ∀ w ∈ ws, 0 < w)
    (hda : davgs.length = cs.length) (hds : dstds.length = cs.length)
    (hwide : ∀ (k nz w : ℕ), els[k]? = some nz → ws[k]? = some w → ∀ c ∈ s.sites, c.z ∈ cs →
      (nbrsOf S c.pos rcut nz).length ≤ w) :
    ∃ out, inferPreprocess A s rcut rs sc davgs dstds cs els (ws.map (Nat.cast : ℕ → ℤ)) = .ok out ∧
      (out.rc.length = (centresOf s cs).length ∧ out.tildeR.length = (centresOf s cs).length ∧
        out.tildeRDeriv.length = (centresOf s cs).length ∧
        out.listNeigh.length = (centresOf s cs).length) ∧
      ((∀ row ∈ out.rc, row.length = ws.sum) ∧ (∀ row ∈ out.listNeigh, row.length = ws.sum) ∧
        (∀ row ∈ out.tildeR, row.length = (cs.map (widthOf els ws)).sum) ∧
        (∀ row ∈ out.tildeRDeriv, row.length = (cs.map (widthOf els ws)).sum)) ∧
      ∀ (a i k nz w : ℕ) (c : Site ℝ) (davg dstd : Fin 4 → ℝ), (centresOf s cs)[a]? = some c →
        cs[i]? = some c.z → els[k]? = some nz → ws[k]? = some w →
        davgs[i]? = some davg → dstds[i]? = some dstd →
        ∃ ts : List (Site ℝ), ts.Perm (nbrsOf S c.pos rcut nz) ∧
          ts.Pairwise (fun a b => dist3 a.pos c.pos ≤ dist3 b.pos c.pos) ∧
          (∀ (b : ℕ) (t : Site ℝ), ts[b]? = some t →
            cellAt out.rc a ((ws.take k).sum + b) = some (t.pos - c.pos) ∧
            (∃ (q : ℕ) (u : Site ℝ), cellAt out.listNeigh a ((ws.take k).sum + b) = some (q + 1) ∧
              s.sites[q]? = some u ∧ u.z = nz ∧ IsImage s t.pos u) ∧
            ∀ j : ℕ, cs[j]? = some nz → dist3 t.pos c.pos < rcut →
              cellAt out.tildeR a (((cs.take j).map (widthOf els ws)).sum + b)
                = some (fun q => (envAt rcut rs t.pos c.pos q - davg q) / dstd q) ∧
              ∃ D, cellAt out.tildeRDeriv a (((cs.take j).map (widthOf els ws)).sum + b) = some D ∧
                HasFDerivAt (fun x q => (envAt rcut rs t.pos x q - davg q) / dstd q)
                  D.mulVecLin.toContinuousLinearMap c.pos) ∧
          (∀ b, ts.length ≤ b → b < w →
            cellAt out.rc a ((ws.take k).sum + b) = some 0 ∧
            cellAt out.listNeigh a ((ws.take k).sum + b) = some 0 ∧
            ∀ j : ℕ, cs[j]? = some nz →
              cellAt out.tildeR a (((cs.take j).map (widthOf els ws)).sum + b)
                = some (fun q => (0 - davg q) / dstd q) ∧
              cellAt out.tildeRDeriv a (((cs.take j).map (widthOf els ws)).sum + b) = some 0) := by
  obtain ⟨out, pad, o1, o2, _, o4, o5, o6⟩ := infer_gen A s S hL hsep hne rcut rs hr hrs.ne' sc m h hS
    cs els ws (cs.map (widthOf els ws)) davgs dstds hcs hsub hndc hnd hpos hws hw0 (by simp)
    (by
      intro j k nz hj hk
      obtain ⟨hk', he⟩ := List.getElem?_eq_some_iff.1 hk
      have hix : els.idxOf nz = k := by rw [← he]; exact hnd.idxOf_getElem k hk'
      rw [List.getElem?_map, hj, List.getElem?_eq_getElem (by omega : k < ws.length)]
      simp only [widthOf, hix, Option.map_some, List.getElem?_eq_getElem (by omega : k < ws.length),
        Option.getD_some])
    hda hds hwide
  have hpad : pad = 0 := by
    obtain ⟨pad', e1, e2, _⟩ := C16_zero_means_none s hL 0
    rw [o2] at e1
    cases e1
    exact e2.2 hlat
  refine ⟨out, o1, o4, ⟨o5.1, o5.2.2.2, o5.2.1, o5.2.2.1⟩, ?_⟩
  intro a i k nz w c davg dstd hc hi hk hw h1 h2
  obtain ⟨ts, M, t1, t2, _, _, t5, t6⟩ := o6 a i k nz w c davg dstd hc hi hk hw h1 h2
  refine ⟨ts, t1, t2, ?_, ?_⟩
  · intro b t hb
    obtain ⟨g1, g2, g4⟩ := t5 b t hb
    refine ⟨g1, g4, ?_⟩
    intro j hj hd
    have h0 : 0 < dist3 t.pos c.pos := by
      have := t1.mem_iff.1 (List.mem_of_getElem? hb)
      unfold nbrsOf at this
      rw [List.mem_filter] at this
      simp only [decide_eq_true_eq] at this
      exact this.2.2.1
    have g2j := g2 j hj
    rw [← List.map_take] at g2j
    refine ⟨?_, _, g2j.2, hasFDerivAt_normalized hrs t.pos c.pos nz h0 hd davg dstd⟩
    rw [g2j.1, envRow_envAt hrs t.pos c.pos nz hd]
    rfl
  · intro b hb hbw
    obtain ⟨g1, g2, g4⟩ := t6 b hb hbw
    refine ⟨g1, ?_, ?_⟩
    · rw [g4, hpad]
      simp
    · intro j hj
      have g2j := g2 j hj
      rw [← List.map_take] at g2j
      exact g2j

/-- In C118_subset_partial, if a neighbour element is no centre element, the environment rows have fewer columns
than the positions and indices. -/
theorem C118_fewer_columns (cs els ws : List ℕ) (hsub : cs ⊆ els) (hndc : cs.Nodup)
    (hnd : els.Nodup) (hws : ws.length = els.length) (hw0 : ∀ w ∈ ws, 0 < w) (e : ℕ) (he : e ∈ els) (hec : e ∉ cs) :
    (cs.map (widthOf els ws)).sum < ws.sum := by
  have hmap : els.map (widthOf els ws) = ws := by
    apply List.ext_getElem?
    intro k
    rw [List.getElem?_map]
    by_cases hk : k < els.length
    · rw [List.getElem?_eq_getElem hk, List.getElem?_eq_getElem (by omega : k < ws.length)]
      simp only [Option.map_some, widthOf, hnd.idxOf_getElem k hk,
        List.getElem?_eq_getElem (by omega : k < ws.length), Option.getD_some]
    · rw [List.getElem?_eq_none (by omega), List.getElem?_eq_none (by omega)]; rfl
  conv_rhs => rw [← hmap]
  rw [← List.sum_toFinset _ hndc, ← List.sum_toFinset _ hnd]
  refine Finset.sum_lt_sum_of_subset (i := e) ?_ (by simpa using he) (by simpa using hec) ?_ (by simp)
  · intro x hx
    rw [List.mem_toFinset] at hx ⊢
    exact hsub hx
  · have hm : widthOf els ws e ∈ els.map (widthOf els ws) := List.mem_map.2 ⟨e, he, rfl⟩
    rw [hmap] at hm
    exact hw0 _ hm

/-- C118: when an atom of a listed element has more neighbours of some listed element than the width of
that element (whatever its sign), the preparation is refused. -/
theorem C118_too_small (A : ArgSort) (s S : Struct ℝ) (hL : s.lattice.det ≠ 0)
    (hsep : Separated s) (rcut rs : ℝ) (hr : 0 ≤ rcut) (sc : Fin 3 → ℤ)
    (m : Fin 3 → ℕ) (h : ∀ i, sc i = 2 * (m i : ℤ) + 1) (hS : s.makeSupercell sc true = .ok S)
    (els : List ℕ) (ws : List ℤ) (davgs dstds : List (Fin 4 → ℝ)) (hpos : ∀ e ∈ els, 0 < e)
    (hws : ws.length = els.length) (k nz : ℕ) (w : ℤ) (hk : els[k]? = some nz) (hw : ws[k]? = some w)
    (c : Site ℝ) (hc : c ∈ s.sites) (hcz : c.z ∈ els) (hbad : w < (nbrsOf S c.pos rcut nz).length) :
    inferPreprocess A s rcut rs sc davgs dstds els els ws = .error .assertionError := by
  obtain ⟨table, t1, t2, t3, t4⟩ := rows_of_structure A s S hL hsep rcut hr sc m h hS
  have htab : ¬ (table.isEmpty = true ∨ table.any List.isEmpty = true) := by
    rintro (h0 | h0)
    · rw [List.isEmpty_iff] at h0
      rw [h0] at t2
      rw [List.length_eq_zero_iff.1 t2.symm] at hc
      cases hc
    · obtain ⟨row, h1, h2⟩ := List.any_eq_true.1 h0
      exact t3 row h1 (List.isEmpty_iff.1 h2)
  have hex : ∀ cz nz, extractFeaturePair table cz nz = .ok (runningMax (table.map (fun r =>
      if centreIs cz r then (pairEntries r nz).length else 0)),
      (table.filter (centreIs cz)).map (fun r => pairEntries r nz ++ List.replicate
        (runningMax (table.map (fun r => if centreIs cz r then (pairEntries r nz).length else 0))
          - (pairEntries r nz).length) zeroEntry)) := by
    intro cz nz
    unfold extractFeaturePair
    rw [if_neg htab]
  unfold inferPreprocess
  rw [t1, ok_bind]
  unfold mkNormalizer
  split
  · rfl
  rw [ok_bind]
  unfold expandRcAll
  rw [assemble_assert (expandRc table) els ws hws (fun cz => (table.filter (centreIs cz)).length) ?_
    c.z k nz w hcz hk hw ?_]
  · rfl
  · intro cz _ k' nz' w' _ _
    unfold expandRc
    rw [hex, ok_bind]
    simp only
    split
    · exact Or.inl rfl
    · exact Or.inr ⟨_, rfl, by simp⟩
  · unfold expandRc
    rw [hex, ok_bind]
    simp only
    rw [if_pos]
    refine lt_of_lt_of_le hbad ?_
    have hcm : c ∈ s.sites.filter (fun u => decide (u.z = c.z)) := List.mem_filter.2 ⟨hc, by simp⟩
    obtain ⟨i, hi, hie⟩ := List.mem_iff_getElem.1 hcm
    have hi' := hi
    rw [(t4 _).length_eq] at hi'
    have hrow := (t4 _).get hi hi'
    simp only [List.get_eq_getElem, hie] at hrow
    obtain ⟨ts, g1, _, g3, _⟩ := row_entries S rcut _ _ hrow nz (hpos nz (List.mem_of_getElem? hk))
    rw [← g1.length_eq]
    have hl : ts.length = (pairEntries (table.filter (centreIs c.z))[i] nz).length := by
      rw [g3, List.length_map]
    rw [hl]
    have hm := List.mem_filter.1 (List.getElem_mem hi')
    exact_mod_cast le_runningMax (List.mem_map.2 ⟨_, hm.1, by rw [if_pos hm.2]⟩)

/-- C118: averages or deviations for another number of elements are refused. -/
theorem C118_stats_length (A : ArgSort) (s : Struct ℝ) (rcut rs : ℝ) (sc : Fin 3 → ℤ)
    (davgs dstds : List (Fin 4 → ℝ)) (centres nbrs : List ℕ) (widths : List ℤ)
    (hbad : davgs.length ≠ centres.length ∨ dstds.length ≠ centres.length) (out : InferInput) :
    inferPreprocess A s rcut rs sc davgs dstds centres nbrs widths ≠ .ok out := by
  intro h
  unfold inferPreprocess at h
  obtain ⟨table, _, h2⟩ := bind_eq_ok.1 h
  unfold mkNormalizer at h2
  rw [if_pos hbad] at h2
  cases h2

theorem originCell_nbrs :
    nbrsOf ⟨Matrix.diagonal (fun i => ((![1, 1, 1] : Fin 3 → ℤ) i : ℝ)) * originCell.lattice,
      [⟨3, 0, none⟩, ⟨3, ![2, 0, 0], none⟩, ⟨14, ![2, 1, 0], none⟩]⟩ 0 1 14 = [] ∧
    nbrsOf ⟨Matrix.diagonal (fun i => ((![1, 1, 1] : Fin 3 → ℤ) i : ℝ)) * originCell.lattice,
      [⟨3, 0, none⟩, ⟨3, ![2, 0, 0], none⟩, ⟨14, ![2, 1, 0], none⟩]⟩ ![2, 0, 0] 1 14
        = [⟨14, ![2, 1, 0], none⟩] := by
  have d1 : dist3 ![2, 1, 0] 0 = Real.sqrt 5 := by
    simp [dist3, Fin.sum_univ_three]; norm_num
  have d2 : dist3 ![2, 1, 0] ![2, 0, 0] = 1 := by simp [dist3, Fin.sum_univ_three]
  have d5 : ¬ Real.sqrt 5 ≤ 1 := by
    rw [not_le, Real.lt_sqrt (by norm_num)]; norm_num
  exact ⟨by simp [nbrsOf, d1, d5], by simp [nbrsOf, d2]⟩

/-- The width 0 is too small for the Li atom with one Si neighbour. -/
example (A : ArgSort) : inferPreprocess A originCell 1 (1 / 2) ![1, 1, 1] [0, 0] [1, 1] [3, 14] [3, 14]
    [3, 0] = .error .assertionError :=
  C118_too_small A originCell _ (by simp [originCell, Matrix.det_diagonal]) originCell_separated 1 (1 / 2)
    (by norm_num) ![1, 1, 1] ![0, 0, 0] (by decide) originCell_supercell [3, 14] [3, 0] [0, 0] [1, 1]
    (by simp) rfl 1 14 0 rfl rfl ⟨3, ![2, 0, 0], none⟩ (by simp [originCell]) (by simp)
    (by rw [originCell_nbrs.2]; simp)

/-! ### An atom on a lattice point -/

/-- C118 fails for an atom on a lattice point: the Li atom at the origin has no Si neighbour within the
cutoff, its relative position in the Si column is padding, yet the index there is 1 (the Li atom
itself). -/
theorem C118_padding_is_atom (A : ArgSort) :
    ∃ (s S : Struct ℝ) (out : InferInput), s.lattice.det ≠ 0 ∧ Separated s ∧
      s.makeSupercell ![1, 1, 1] true = .ok S ∧
      s.sites.map Site.seen = [(3, 0), (3, ![2, 0, 0]), (14, ![2, 1, 0])] ∧
      nbrsOf S 0 1 14 = [] ∧
      inferPreprocess A s 1 (1 / 2) ![1, 1, 1] [0, 0] [1, 1] [3, 14] [3, 14] [3, 3] = .ok out ∧
      cellAt out.rc 0 3 = some 0 ∧ cellAt out.listNeigh 0 3 = some 1 := by
  have hL : originCell.lattice.det ≠ 0 := by simp [originCell, Matrix.det_diagonal]
  obtain ⟨n1, n2⟩ := originCell_nbrs
  obtain ⟨out, pad, o1, o2, _, _, _, o6⟩ := infer_spec A originCell _ hL originCell_separated
    (by simp [originCell]) 1 (1 / 2) (by norm_num) (by norm_num) ![1, 1, 1] ![0, 0, 0] (by decide)
    originCell_supercell [3, 14] [3, 3] [0, 0] [1, 1] (by simp) (by simp) (by simp) rfl (by simp) rfl rfl
    (by
      intro k nz w _ hw c _ _
      have : w = 3 := by
        have := List.mem_of_getElem? hw
        simpa using this
      subst this
      exact (List.length_filter_le _ _).trans (by simp))
  have hpad : pad = 1 := by
    have := C16_image_maps_back originCell hL 0 ⟨3, 0, none⟩ rfl 0 (fun j u hj hu =>
      originCell_separated 0 j _ u (Ne.symm hj) rfl hu)
    simp only [Pi.zero_apply, Int.cast_zero, zero_smul, Finset.sum_const_zero, add_zero] at this
    rw [o2] at this
    cases this
    rfl
  refine ⟨originCell, _, out, hL, originCell_separated, originCell_supercell, rfl, n1,
    by simpa using o1, ?_⟩
  obtain ⟨ts, M, t1, _, t3, _, _, t6⟩ := o6 0 0 1 14 3 ⟨3, 0, none⟩ 0 1
    (by simp [centresOf, originCell]) rfl rfl rfl rfl rfl
  have hM : 1 ≤ M := by
    have := t3 ⟨3, ![2, 0, 0], none⟩ (by simp [originCell]) rfl
    rw [n2] at this
    simpa using this
  rw [n1] at t1
  obtain rfl := List.perm_nil.1 t1
  obtain ⟨g1, _, _, g4⟩ := t6 0 (by simp) (by norm_num)
  refine ⟨by simpa using g1, ?_⟩
  rw [if_pos (by omega), hpad] at g4
  simpa using g4

/-- One Li and one Si atom at distance 1, none of them on a lattice point. -/
noncomputable def bondCell : Struct ℝ :=
  ⟨Matrix.diagonal (fun _ => 10), [⟨3, ![2, 0, 0], none⟩, ⟨14, ![2, 1, 0], none⟩]⟩

theorem bondCell_separated : Separated bondCell := by
  intro i j t u hij ht hu
  have hi := (List.getElem?_eq_some_iff.1 ht).1
  have hj := (List.getElem?_eq_some_iff.1 hu).1
  simp only [bondCell, List.length_cons, List.length_nil] at hi hj
  simp only [bondCell] at ht hu ⊢
  interval_cases i <;> interval_cases j <;> simp at hij ht hu <;> subst ht <;> subst hu
  · exact not_near_of _ _ 1 (by norm_num)
  · exact not_near_of _ _ 1 (by norm_num)

theorem bondCell_lattice : ∀ t ∈ bondCell.sites, ¬ NearImage bondCell.lattice 0 t.pos := by
  intro t ht
  simp only [bondCell, List.mem_cons, List.not_mem_nil, or_false] at ht
  rcases ht with rfl | rfl
  · exact not_near_of _ _ 0 (by norm_num)
  · exact not_near_of _ _ 0 (by norm_num)

theorem bondCell_supercell : bondCell.makeSupercell ![1, 1, 1] true =
    .ok ⟨Matrix.diagonal (fun i => ((![1, 1, 1] : Fin 3 → ℤ) i : ℝ)) * bondCell.lattice,
      bondCell.sites⟩ := by
  rw [makeSupercell_odd bondCell ![0, 0, 0] (by decide)]
  have hsh : shiftsZ ![0, 0, 0] = [0] := by decide
  have hsites : superSites bondCell ![0, 0, 0] = bondCell.sites := by
    unfold superSites
    rw [hsh]
    simp [bondCell]
  simp only [if_true, Struct.reformat_, hsites]
  simp [sortByKey, bondCell]

/-- The hypotheses of C118 hold for `bondCell` with cutoff 2, and the Si neighbour of the Li atom stands
in column 2 (after the two columns for Li): relative position (0, 1, 0), index 2. -/
example (A : ArgSort) : ∃ out : InferInput,
    inferPreprocess A bondCell 2 (1 / 2) ![1, 1, 1] [0, 0] [1, 1] [3, 14] [3, 14] [2, 2] = .ok out ∧
    cellAt out.rc 0 2 = some ![0, 1, 0] ∧ cellAt out.listNeigh 0 2 = some 2 ∧
    cellAt out.listNeigh 0 3 = some 0 := by
  obtain ⟨out, o1, _, _, o4⟩ := C118_aligned_partial A bondCell _
    (by simp [bondCell, Matrix.det_diagonal]) bondCell_separated (by simp [bondCell]) bondCell_lattice
    2 (1 / 2) (by norm_num) (by norm_num) ![1, 1, 1] ![0, 0, 0] (by decide)
    bondCell_supercell [3, 14] [2, 2] [0, 0] [1, 1] (by simp) (by simp) (by simp) rfl (by simp) rfl rfl
    (by
      intro k nz w _ hw c _ _
      have : w = 2 := by
        have := List.mem_of_getElem? hw
        simpa using this
      subst this
      exact (List.length_filter_le _ _).trans (by simp [bondCell]))
  refine ⟨out, by simpa using o1, ?_⟩
  obtain ⟨ts, t1, _, t3, t4⟩ := o4 0 0 1 14 2 ⟨3, ![2, 0, 0], none⟩ 0 1
    (by simp [centresOf, bondCell]) rfl rfl rfl rfl rfl
  have d2 : dist3 ![2, 1, 0] ![2, 0, 0] = 1 := by simp [dist3, Fin.sum_univ_three]
  have hn : nbrsOf ⟨Matrix.diagonal (fun i => ((![1, 1, 1] : Fin 3 → ℤ) i : ℝ)) * bondCell.lattice,
      bondCell.sites⟩ ![2, 0, 0] 2 14 = [⟨14, ![2, 1, 0], none⟩] := by
    simp [nbrsOf, bondCell, d2]
  rw [hn] at t1
  obtain rfl := List.perm_singleton.1 t1
  obtain ⟨g1, _, q, u, g2, g3, g4, _⟩ := t3 0 _ rfl
  have e : (![2, 1, 0] - ![2, 0, 0] : Vec ℝ) = ![0, 1, 0] := by
    ext j; fin_cases j <;> norm_num
  simp only [e] at g1
  have hq := (List.getElem?_eq_some_iff.1 g3).1
  simp only [bondCell, List.length_cons, List.length_nil] at hq g3
  refine ⟨g1, ?_, (t4 1 (by simp) (by norm_num)).2.2.2⟩
  interval_cases q
  · simp at g3; subst g3; simp at g4
  · exact g2

/-- C118 fails when a neighbour element is no centre element. Li centres with Li and Si neighbours: one row, four
columns of positions, two of environment rows, so the row of the Si neighbour is missing. -/
theorem C118_violated_fewer_centres (A : ArgSort) : ∃ out : InferInput,
    inferPreprocess A bondCell 2 (1 / 2) ![1, 1, 1] [0] [1] [3] [3, 14] [2, 2] = .ok out ∧
    out.rc.length = 1 ∧ (∀ row ∈ out.rc, row.length = 4) ∧ ∀ row ∈ out.tildeR, row.length = 2 := by
  obtain ⟨out, o1, o2, o3, _⟩ := C118_subset_partial A bondCell _
    (by simp [bondCell, Matrix.det_diagonal]) bondCell_separated (by simp [bondCell]) bondCell_lattice
    2 (1 / 2) (by norm_num) (by norm_num) ![1, 1, 1] ![0, 0, 0] (by decide)
    bondCell_supercell [3] [3, 14] [2, 2] [0] [1] (by simp) (by simp) (by simp) (by simp) (by simp) rfl
    (by simp) rfl rfl
    (by
      intro k nz w _ hw c _ _
      have : w = 2 := by
        have := List.mem_of_getElem? hw
        simpa using this
      subst this
      exact (List.length_filter_le _ _).trans (by simp [bondCell]))
  exact ⟨out, by simpa using o1, by rw [o2.1]; simp [centresOf, bondCell], o3.1,
    by simpa [widthOf] using o3.2.2.1⟩

/-! ## C119 -/

/-- C119, when the atoms are sorted by atomic number, the elements are listed in ascending order and all
elements of the structure are listed: the entry `q + 1` of the neighbour list refers to row `q` of the
arrays, that is, row `q` belongs to the atom of which the neighbour is an image. Missing: unsorted
structures, see `C119_wrong_row`. -/
theorem C119_rows_partial (A : ArgSort) (s S : Struct ℝ) (hL : s.lattice.det ≠ 0)
    (hsep : Separated s) (hne : s.sites ≠ [])
    (rcut rs : ℝ) (hr : 0 ≤ rcut) (hrs : rs ≠ rcut) (sc : Fin 3 → ℤ)
    (m : Fin 3 → ℕ) (h : ∀ i, sc i = 2 * (m i : ℤ) + 1) (hS : s.makeSupercell sc true = .ok S)
    (els ws : List ℕ) (davgs dstds : List (Fin 4 → ℝ))
    (hsorted : s.sites.Pairwise (fun a b => a.z ≤ b.z)) (hasc : els.Pairwise (· < ·))
    (hall : ∀ t ∈ s.sites, t.z ∈ els)
    (hpos : ∀ e ∈ els, 0 < e) (hws : ws.length = els.length) (hw0 : ∀ w ∈ ws, 0 < w)
    (hda : davgs.length = els.length) (hds : dstds.length = els.length)
    (hwide : ∀ (k nz w : ℕ), els[k]? = some nz → ws[k]? = some w → ∀ c ∈ s.sites, c.z ∈ els →
      (nbrsOf S c.pos rcut nz).length ≤ w) :
    ∃ out, inferPreprocess A s rcut rs sc davgs dstds els els (ws.map (Nat.cast : ℕ → ℤ)) = .ok out ∧
      out.listNeigh.length = s.sites.length ∧ centresOf s els = s.sites ∧
      ∀ (a k nz : ℕ) (c : Site ℝ), (centresOf s els)[a]? = some c → els[k]? = some nz →
        ∃ ts : List (Site ℝ), ts.Perm (nbrsOf S c.pos rcut nz) ∧
          ∀ (b : ℕ) (t : Site ℝ), ts[b]? = some t →
            cellAt out.rc a ((ws.take k).sum + b) = some (t.pos - c.pos) ∧
            ∃ (q : ℕ) (u : Site ℝ), cellAt out.listNeigh a ((ws.take k).sum + b) = some (q + 1) ∧
              (centresOf s els)[q]? = some u ∧ u.z = nz ∧ IsImage s t.pos u := by
  have hels : els ≠ [] := by
    intro h0
    cases hs : s.sites with
    | nil => exact hne hs
    | cons t ts =>
      have := hall t (by rw [hs]; simp)
      rw [h0] at this
      cases this
  have hcs : centresOf s els = s.sites := centresOf_sorted s.sites hsorted els hasc hall
  obtain ⟨out, pad, o1, _, _, o4, _, o6⟩ := infer_spec A s S hL hsep hne rcut rs hr hrs.symm sc m h hS
    els ws davgs dstds hels (hasc.imp (fun h => h.ne)) hpos hws hw0 hda hds hwide
  refine ⟨out, o1, by rw [o4.2.2.2, hcs], hcs, ?_⟩
  intro a k nz c hc hk
  have hcm : c ∈ s.sites := by rw [hcs] at hc; exact List.mem_of_getElem? hc
  obtain ⟨i, hi⟩ := List.mem_iff_getElem?.1 (hall c hcm)
  have hil := (List.getElem?_eq_some_iff.1 hi).1
  have hkl := (List.getElem?_eq_some_iff.1 hk).1
  obtain ⟨ts, M, t1, _, _, _, t5, _⟩ := o6 a i k nz _ c _ _ hc hi hk
    (List.getElem?_eq_getElem (by omega)) (List.getElem?_eq_getElem (by omega))
    (List.getElem?_eq_getElem (by omega))
  refine ⟨ts, t1, ?_⟩
  intro b t hb
  obtain ⟨g1, _, _, g4⟩ := t5 b t hb
  rw [hcs]
  exact ⟨g1, g4⟩

/-- `bondCell` is sorted and [3, 14] is ascending and complete. -/
example : bondCell.sites.Pairwise (fun a b => a.z ≤ b.z) ∧ ([3, 14] : List ℕ).Pairwise (· < ·) ∧
    (∀ z, z ∈ [3, 14] ↔ ∃ t ∈ bondCell.sites, t.z = z) ∧
    centresOf bondCell [3, 14] = bondCell.sites := by
  refine ⟨by simp [bondCell], by simp, ?_, by simp [centresOf, bondCell]⟩
  intro z
  simp [bondCell, eq_comm]

/-- Two Si atoms listed before a Li atom next to the first of them. -/
noncomputable def mixedCell : Struct ℝ :=
  ⟨Matrix.diagonal (fun _ => 10), [⟨14, ![2, 1, 0], none⟩, ⟨14, ![6, 6, 6], none⟩, ⟨3, ![2, 0, 0], none⟩]⟩

theorem mixedCell_separated : Separated mixedCell := by
  intro i j t u hij ht hu
  have hi := (List.getElem?_eq_some_iff.1 ht).1
  have hj := (List.getElem?_eq_some_iff.1 hu).1
  simp only [mixedCell, List.length_cons, List.length_nil] at hi hj
  simp only [mixedCell] at ht hu ⊢
  interval_cases i <;> interval_cases j <;> simp at hij ht hu <;> subst ht <;> subst hu
  · exact not_near_of _ _ 0 (by norm_num)
  · exact not_near_of _ _ 1 (by norm_num)
  · exact not_near_of _ _ 0 (by norm_num)
  · exact not_near_of _ _ 0 (by norm_num)
  · exact not_near_of _ _ 1 (by norm_num)
  · exact not_near_of _ _ 0 (by norm_num)

theorem mixedCell_supercell : mixedCell.makeSupercell ![1, 1, 1] true =
    .ok ⟨Matrix.diagonal (fun i => ((![1, 1, 1] : Fin 3 → ℤ) i : ℝ)) * mixedCell.lattice,
      [⟨3, ![2, 0, 0], none⟩, ⟨14, ![2, 1, 0], none⟩, ⟨14, ![6, 6, 6], none⟩]⟩ := by
  rw [makeSupercell_odd mixedCell ![0, 0, 0] (by decide)]
  have hsh : shiftsZ ![0, 0, 0] = [0] := by decide
  have hsites : superSites mixedCell ![0, 0, 0]
      = [⟨14, ![2, 1, 0], none⟩, ⟨14, ![6, 6, 6], none⟩, ⟨3, ![2, 0, 0], none⟩] := by
    unfold superSites
    rw [hsh]
    simp [mixedCell]
  simp only [if_true, Struct.reformat_, hsites]
  simp [sortByKey]

/-- The arrays of `mixedCell`. -/
theorem mixedCell_infer (A : ArgSort) : ∃ out : InferInput,
    inferPreprocess A mixedCell 1 (1 / 2) ![1, 1, 1] [0, 0] [1, 1] [3, 14] [3, 14] [3, 3] = .ok out ∧
    out.natoms = mixedCell.getNatoms [] ∧ out.rc.length = 3 ∧
    cellAt out.rc 0 3 = some ![0, 1, 0] ∧ cellAt out.listNeigh 0 3 = some 1 := by
  have hL : mixedCell.lattice.det ≠ 0 := by simp [mixedCell, Matrix.det_diagonal]
  obtain ⟨out, pad, o1, _, o3, o4, _, o6⟩ := infer_spec A mixedCell _ hL mixedCell_separated
    (by simp [mixedCell]) 1 (1 / 2) (by norm_num) (by norm_num) ![1, 1, 1] ![0, 0, 0] (by decide)
    mixedCell_supercell [3, 14] [3, 3] [0, 0] [1, 1] (by simp) (by simp) (by simp) rfl (by simp) rfl rfl
    (by
      intro k nz w _ hw c _ _
      have : w = 3 := by
        have := List.mem_of_getElem? hw
        simpa using this
      subst this
      exact (List.length_filter_le _ _).trans (by simp))
  refine ⟨out, by simpa using o1, o3, by rw [o4.1]; simp [centresOf, mixedCell], ?_⟩
  obtain ⟨ts, M, t1, _, _, _, t5, _⟩ := o6 0 0 1 14 3 ⟨3, ![2, 0, 0], none⟩ 0 1
    (by simp [centresOf, mixedCell]) rfl rfl rfl rfl rfl
  have d2 : dist3 ![2, 1, 0] ![2, 0, 0] = 1 := by simp [dist3, Fin.sum_univ_three]
  have d3 : dist3 ![6, 6, 6] ![2, 0, 0] = Real.sqrt 88 := by
    simp [dist3, Fin.sum_univ_three]; norm_num
  have d4 : ¬ Real.sqrt 88 ≤ 1 := by
    rw [not_le, Real.lt_sqrt (by norm_num)]; norm_num
  have hn : nbrsOf ⟨Matrix.diagonal (fun i => ((![1, 1, 1] : Fin 3 → ℤ) i : ℝ)) * mixedCell.lattice,
      [⟨3, ![2, 0, 0], none⟩, ⟨14, ![2, 1, 0], none⟩, ⟨14, ![6, 6, 6], none⟩]⟩ ![2, 0, 0] 1 14
      = [⟨14, ![2, 1, 0], none⟩] := by
    simp [nbrsOf, d2, d3, d4]
  rw [hn] at t1
  obtain rfl := List.perm_singleton.1 t1
  obtain ⟨g1, _, _, q, u, g4, g5, g6, n, g7⟩ := t5 0 _ rfl
  have hq := (List.getElem?_eq_some_iff.1 g5).1
  refine ⟨?_, ?_⟩
  · have e : (![2, 1, 0] - ![2, 0, 0] : Vec ℝ) = ![0, 1, 0] := by
      ext j; fin_cases j <;> norm_num
    simp only [e] at g1
    exact g1
  · simp only [mixedCell, List.length_cons, List.length_nil] at hq g5
    interval_cases q
    · simpa using g4
    · exfalso
      simp at g5
      subst g5
      refine not_near_of ![2, 1, 0] ![6, 6, 6] 0 (by norm_num) ⟨n, 0, by simp, ?_⟩
      refine Eq.trans g7 ?_
      simp [mixedCell]
    · simp at g5; subst g5; simp at g6

/-- C119 fails for an unsorted structure: the Si neighbour of the Li atom (row 0) has index 1, but row 0
of the arrays belongs to the Li atom itself; the row of that Si atom is row 1. -/
theorem C119_wrong_row (A : ArgSort) : ∃ (s : Struct ℝ) (out : InferInput),
    s.lattice.det ≠ 0 ∧ Separated s ∧
    s.sites.map Site.seen = [(14, ![2, 1, 0]), (14, ![6, 6, 6]), (3, ![2, 0, 0])] ∧
    (centresOf s [3, 14]).map Site.seen = [(3, ![2, 0, 0]), (14, ![2, 1, 0]), (14, ![6, 6, 6])] ∧
    inferPreprocess A s 1 (1 / 2) ![1, 1, 1] [0, 0] [1, 1] [3, 14] [3, 14] [3, 3] = .ok out ∧
    cellAt out.rc 0 3 = some ![0, 1, 0] ∧ cellAt out.listNeigh 0 3 = some 1 := by
  obtain ⟨out, o1, _, _, o3, o4⟩ := mixedCell_infer A
  exact ⟨mixedCell, out, by simp [mixedCell, Matrix.det_diagonal], mixedCell_separated, rfl,
    by simp [centresOf, mixedCell, Site.seen], o1, o3, o4⟩

/-! ## C120 -/

/-- C120, when the atoms are sorted by atomic number and the elements are listed in ascending order
without a missing or an additional one: the list of atom counts handed to the network is the number of
rows, followed by the number of rows of every element block in the order of the blocks. Missing: other
structures, see `C120_wrong_counts` and `C120_absent_element`. -/
theorem C120_counts_partial (A : ArgSort) (s : Struct ℝ) (rcut rs : ℝ) (sc : Fin 3 → ℤ)
    (davgs dstds : List (Fin 4 → ℝ)) (els : List ℕ) (widths : List ℤ) (out : InferInput)
    (hout : inferPreprocess A s rcut rs sc davgs dstds els els widths = .ok out)
    (hsorted : s.sites.Pairwise (fun a b => a.z ≤ b.z)) (hasc : els.Pairwise (· < ·))
    (hall : ∀ z, z ∈ els ↔ ∃ t ∈ s.sites, t.z = z) :
    out.natoms = (centresOf s els).length ::
      els.map (fun e => (s.sites.filter (fun t => t.z = e)).length) := by
  have hn : out.natoms = s.getNatoms [] := by
    unfold inferPreprocess at hout
    obtain ⟨_, _, h⟩ := bind_eq_ok.1 hout
    obtain ⟨_, _, h⟩ := bind_eq_ok.1 h
    obtain ⟨_, _, h⟩ := bind_eq_ok.1 h
    obtain ⟨_, _, h⟩ := bind_eq_ok.1 h
    obtain ⟨_, _, h⟩ := bind_eq_ok.1 h
    rw [← Except.ok.inj h]
  have hk : counterKeys (s.sites.map Site.z) = els := by
    have h1 : (counterKeys (s.sites.map Site.z)).Pairwise (· < ·) :=
      counterKeys_sorted _ (by rw [List.pairwise_map]; exact hsorted)
    refine List.Perm.eq_of_pairwise' (h1.imp le_of_lt) (hasc.imp le_of_lt) ?_
    rw [List.perm_ext_iff_of_nodup (counterKeys_nodup _) (hasc.imp (fun h => h.ne))]
    intro a
    rw [mem_counterKeys, hall]
    simp
  rw [hn, show centresOf s els = s.sites from centresOf_sorted s.sites hsorted els hasc
    (fun t ht => (hall _).2 ⟨t, ht, rfl⟩)]
  simp only [Struct.getNatoms, List.isEmpty_nil, if_true, hk, List.cons.injEq, true_and]
  apply List.map_congr_left
  intro z _
  rw [List.count_eq_length_filter, List.filter_map, List.length_map]
  rfl

/-- C120 fails for an unsorted structure: one row for Li comes before two rows for Si, but the counts
say two and one. -/
theorem C120_wrong_counts (A : ArgSort) : ∃ (s : Struct ℝ) (out : InferInput),
    s.lattice.det ≠ 0 ∧ Separated s ∧ (∀ t ∈ s.sites, t.z ∈ [3, 14]) ∧
    inferPreprocess A s 1 (1 / 2) ![1, 1, 1] [0, 0] [1, 1] [3, 14] [3, 14] [3, 3] = .ok out ∧
    (centresOf s [3, 14]).map Site.z = [3, 14, 14] ∧ out.natoms = [3, 2, 1] := by
  obtain ⟨out, o1, o2, _, _, _⟩ := mixedCell_infer A
  refine ⟨mixedCell, out, by simp [mixedCell, Matrix.det_diagonal], mixedCell_separated,
    by simp [mixedCell], o1, by simp [centresOf, mixedCell], ?_⟩
  rw [o2]
  simp [Struct.getNatoms, mixedCell, counterKeys]

/-- C120 fails for a listed element without atoms: for every structure the number of counts is one more
than the number of elements that occur, whatever elements are listed. -/
theorem C120_absent_element (A : ArgSort) (s : Struct ℝ) (rcut rs : ℝ) (sc : Fin 3 → ℤ)
    (davgs dstds : List (Fin 4 → ℝ)) (centres nbrs : List ℕ) (widths : List ℤ) (out : InferInput)
    (hout : inferPreprocess A s rcut rs sc davgs dstds centres nbrs widths = .ok out) :
    out.natoms.length = 1 + (s.sites.map Site.z).toFinset.card ∧
    out.natoms[0]? = some s.sites.length := by
  have hn : out.natoms = s.getNatoms [] := by
    unfold inferPreprocess at hout
    obtain ⟨_, _, h⟩ := bind_eq_ok.1 hout
    obtain ⟨_, _, h⟩ := bind_eq_ok.1 h
    obtain ⟨_, _, h⟩ := bind_eq_ok.1 h
    obtain ⟨_, _, h⟩ := bind_eq_ok.1 h
    obtain ⟨_, _, h⟩ := bind_eq_ok.1 h
    rw [← Except.ok.inj h]
  rw [hn]
  refine ⟨?_, rfl⟩
  have hp : (counterKeys (s.sites.map Site.z)).toFinset = (s.sites.map Site.z).toFinset := by
    ext a
    rw [List.mem_toFinset, List.mem_toFinset, mem_counterKeys]
  rw [← hp, List.toFinset_card_of_nodup (counterKeys_nodup _)]
  simp [Struct.getNatoms, Nat.add_comm]

end MaterSDK
