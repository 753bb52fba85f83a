import Verif.Lemmas.NeighD
import Verif.Spec.NeighD
import Verif.Props.Neigh

/-!
# C208: the Python neighbour table in doubles

`M` bounds the coordinates in the supercell, `δ` is the change of a coordinate on its way through the fractional ones
of pymatgen.  Stored coordinates are off by at most `δ + 9 M 2⁻⁵³`, distances by at most `6 δ + 126 M 2⁻⁵³`.
-/

namespace MaterSDK

open Classical

/-- C208: in doubles the table has one row for each atom; the entries of a row before the zero filling are sorted by
the computed distance and belong one to one to atoms of the exact supercell, with the right element, the distance and
the position up to rounding; all atoms closer than the cutoff by the rounding error are among them and none that is
farther by it. -/
theorem C208_table_doubles (keep : Matrix (Fin 3) (Fin 3) ℝ → Vec ℝ → Vec ℝ) (A : ArgSort) (s : Struct ℝ) (r : ℝ)
    (sc : Fin 3 → ℤ) (m : Fin 3 → ℕ) (h : ∀ i, sc i = 2 * (m i : ℤ) + 1) (hm : ∀ i, m i ≤ 2 ^ 52)
    (M δ : ℝ) (hM : CoordsUpTo s m M) (hδ : 0 ≤ δ) (hδM : 2 * δ ≤ M)
    (hk : KeptWithin (keep (superLatticeD flR s.lattice sc)) (2 * M) δ) :
    ∃ (S : Struct ℝ) (table : List (List NbrEntry)) (W : ℕ),
      s.makeSupercell sc true = .ok S ∧ neighborTableD flR keep A s r sc = .ok table ∧
      table.length = s.sites.length ∧
      ∀ (i : ℕ) (c : Site ℝ), s.reformat_.sites[i]? = some c →
        ∃ (real : List NbrEntry) (k : ℕ) (atoms sub : List (Site ℝ)),
          table[i]? = some (real ++ List.replicate k zeroEntry) ∧ real.length + k = W ∧
          real.Pairwise (fun a b => a.2.1 ≤ b.2.1) ∧
          List.Forall₂ (fun (e : NbrEntry) (t : Site ℝ) => e.1 = t.z ∧
            |e.2.1 - dist3 t.pos c.pos| ≤ 6 * δ + 126 * (M * 2 ^ (-53 : ℤ)) ∧
            ∀ p, |e.2.2 p - t.pos p| ≤ δ + 9 * (M * 2 ^ (-53 : ℤ))) real atoms ∧
          atoms.Perm sub ∧
          (within S c.pos (r - (6 * δ + 126 * (M * 2 ^ (-53 : ℤ))))).Sublist sub ∧
          sub.Sublist (within S c.pos (r + (6 * δ + 126 * (M * 2 ^ (-53 : ℤ))))) := by
  have hτ : 6 * (δ + 9 * (uR * M)) + 72 * (uR * M) = 6 * δ + 126 * (M * 2 ^ (-53 : ℤ)) := by unfold uR; ring
  have hη : δ + 9 * (uR * M) = δ + 9 * (M * 2 ^ (-53 : ℤ)) := by unfold uR; ring
  rw [← hτ, ← hη]
  set η := δ + 9 * (uR * M) with hηd
  set τ := 6 * η + 72 * (uR * M) with hτd
  have hnear := superSorted_near (keep := keep) (sc := sc) hM hk
  obtain ⟨keys, S, h1, h2, _, h3⟩ := keys_sites s sc m h
  have hS := superSorted_exact keep s h h2
  obtain ⟨SD, h4, hSD⟩ := superSorted_stored keep s hm h
  obtain ⟨rows, h5, h6⟩ := forall₂_mapM_ok
    (f := nbrEntriesD flR A (SD.sites.map Site.pos) (SD.sites.map Site.z) r)
    (R := fun (c : Site ℝ) real => RowD S SD.sites.length r η τ c real) h3 (by
    rintro c k ⟨c', hc', hz, hp⟩
    unfold RowD
    rw [← hp]
    exact rowD_spec A hS hSD hnear hδ hδM r hc')
  set W := runningMax (rows.map List.length) with hW
  refine ⟨S, rows.map (fun r => (r ++ List.replicate ((SD.sites.map Site.z).length - r.length)
    zeroEntry).take W), W, h2, ?_, ?_, ?_⟩
  · unfold neighborTableD
    rw [h4, ok_bind, getKeyIdxsD_eq keep s hm h, h1, ok_bind]
    unfold keyNeighsInfoD
    rw [h5, ok_bind]
    rfl
  · rw [List.length_map, ← h6.length_eq]
    exact (sortByKey_perm _ _).length_eq
  · intro i c hc
    obtain ⟨hi, rfl⟩ := List.getElem?_eq_some_iff.1 hc
    have hi' : i < rows.length := by rw [← h6.length_eq]; exact hi
    obtain ⟨g1, g2, atoms, sub, g3, g4, g5, g6⟩ := h6.get hi hi'
    have hle : ∀ row ∈ rows, row.length ≤ W := fun row hr => le_runningMax (List.mem_map_of_mem hr)
    have g7 := hle _ (List.getElem_mem hi')
    have g8 : W ≤ SD.sites.length := by
      apply runningMax_le
      intro x hx
      obtain ⟨row, hr, rfl⟩ := List.mem_map.1 hx
      obtain ⟨j, hj, rfl⟩ := List.mem_iff_getElem.1 hr
      exact (h6.get (by rw [h6.length_eq]; exact hj) hj).2.1
    refine ⟨rows[i], W - rows[i].length, atoms, sub, ?_, by omega, g1, g3, g4, g5, g6⟩
    rw [List.getElem?_map, List.getElem?_eq_getElem hi']
    simp only [Option.map_some, Option.some.injEq]
    rw [List.length_map, List.take_append, List.take_of_length_le g7, List.take_replicate]
    congr 2
    omega

/-- C208: when no atom is as close to the cutoff as the rounding error, the neighbours found in doubles are exactly
the atoms within the cutoff. -/
theorem C208_same_atoms (keep : Matrix (Fin 3) (Fin 3) ℝ → Vec ℝ → Vec ℝ) (A : ArgSort) (s : Struct ℝ) (r : ℝ)
    (sc : Fin 3 → ℤ) (m : Fin 3 → ℕ) (h : ∀ i, sc i = 2 * (m i : ℤ) + 1) (hm : ∀ i, m i ≤ 2 ^ 52)
    (M δ : ℝ) (hM : CoordsUpTo s m M) (hδ : 0 ≤ δ) (hδM : 2 * δ ≤ M)
    (hk : KeptWithin (keep (superLatticeD flR s.lattice sc)) (2 * M) δ)
    (S : Struct ℝ) (hS : s.makeSupercell sc true = .ok S)
    (hgap : ∀ c ∈ s.sites, ∀ t ∈ S.sites, 6 * δ + 126 * (M * 2 ^ (-53 : ℤ)) < |dist3 t.pos c.pos - r|) :
    ∃ table : List (List NbrEntry), neighborTableD flR keep A s r sc = .ok table ∧
      ∀ (i : ℕ) (c : Site ℝ), s.reformat_.sites[i]? = some c →
        ∃ (real : List NbrEntry) (k : ℕ) (atoms : List (Site ℝ)),
          table[i]? = some (real ++ List.replicate k zeroEntry) ∧
          atoms.Perm (within S c.pos r) ∧
          List.Forall₂ (fun (e : NbrEntry) (t : Site ℝ) => e.1 = t.z ∧
            |e.2.1 - dist3 t.pos c.pos| ≤ 6 * δ + 126 * (M * 2 ^ (-53 : ℤ)) ∧
            ∀ p, |e.2.2 p - t.pos p| ≤ δ + 9 * (M * 2 ^ (-53 : ℤ))) real atoms := by
  obtain ⟨S', table, W, g1, g2, _, g3⟩ := C208_table_doubles keep A s r sc m h hm M δ hM hδ hδM hk
  rw [hS] at g1
  obtain rfl := Except.ok.inj g1
  refine ⟨table, g2, fun i c hc => ?_⟩
  obtain ⟨real, k, atoms, sub, f1, _, _, f4, f5, f6, f7⟩ := g3 i c hc
  have hcs : c ∈ s.sites := (sortByKey_perm _ _).mem_iff.1 (List.mem_of_getElem? hc)
  have hτ0 : 0 ≤ 6 * δ + 126 * (M * 2 ^ (-53 : ℤ)) := by
    have : 0 ≤ M := by linarith
    positivity
  set τ := 6 * δ + 126 * (M * 2 ^ (-53 : ℤ)) with hτ
  have e1 : within S c.pos (r - τ) = within S c.pos r := by
    unfold within
    refine List.filter_congr fun t ht => ?_
    rw [decide_eq_decide]
    have := lt_abs.1 (hgap c hcs t ht)
    constructor
    · intro h; linarith
    · intro h
      rcases this with h' | h' <;> linarith
  have e2 : within S c.pos (r + τ) = within S c.pos r := by
    unfold within
    refine List.filter_congr fun t ht => ?_
    rw [decide_eq_decide]
    have := lt_abs.1 (hgap c hcs t ht)
    constructor
    · intro h
      rcases this with h' | h' <;> linarith
    · intro h; linarith
  rw [e1] at f6
  rw [e2] at f7
  exact ⟨real, k, atoms, f1, f5.trans (List.Perm.of_eq (f7.antisymm f6)), f4⟩

/-- C208: with fractional coordinates in `[0,1)` and half-widths that cover the cutoff, every atom of the infinite
crystal that is closer than the cutoff by the rounding error has its entry in the row, and every entry before the zero
filling belongs to an atom of the crystal at most the rounding error beyond the cutoff. -/
theorem C208_crystal (keep : Matrix (Fin 3) (Fin 3) ℝ → Vec ℝ → Vec ℝ) (A : ArgSort) (s : Struct ℝ) (r : ℝ)
    (sc : Fin 3 → ℤ) (m : Fin 3 → ℕ) (h : ∀ i, sc i = 2 * (m i : ℤ) + 1) (hm : ∀ i, m i ≤ 2 ^ 52)
    (hL : s.lattice.det ≠ 0) (hr : ∀ i, r ≤ (m i : ℝ) * planeDist s.lattice i)
    (hfrac : ∀ t ∈ s.sites, ∃ f : Vec ℝ, (∀ i, 0 ≤ f i ∧ f i < 1) ∧ t.pos = ∑ i, f i • s.lattice i)
    (M δ : ℝ) (hM : CoordsUpTo s m M) (hδ : 0 ≤ δ) (hδM : 2 * δ ≤ M)
    (hk : KeptWithin (keep (superLatticeD flR s.lattice sc)) (2 * M) δ) :
    ∃ table : List (List NbrEntry), neighborTableD flR keep A s r sc = .ok table ∧
      ∀ (i : ℕ) (c : Site ℝ), s.reformat_.sites[i]? = some c →
        ∃ (real : List NbrEntry) (k : ℕ), table[i]? = some (real ++ List.replicate k zeroEntry) ∧
          (∀ t ∈ s.sites, ∀ (n : Fin 3 → ℤ) (x : Vec ℝ), x = t.pos + ∑ i, (n i : ℝ) • s.lattice i →
            dist3 x c.pos ≤ r - (6 * δ + 126 * (M * 2 ^ (-53 : ℤ))) →
            ∃ e ∈ real, e.1 = t.z ∧ |e.2.1 - dist3 x c.pos| ≤ 6 * δ + 126 * (M * 2 ^ (-53 : ℤ)) ∧
              ∀ p, |e.2.2 p - x p| ≤ δ + 9 * (M * 2 ^ (-53 : ℤ))) ∧
          (∀ e ∈ real, ∃ t ∈ s.sites, ∃ (n : Fin 3 → ℤ) (x : Vec ℝ), x = t.pos + ∑ i, (n i : ℝ) • s.lattice i ∧
            dist3 x c.pos ≤ r + (6 * δ + 126 * (M * 2 ^ (-53 : ℤ))) ∧
            e.1 = t.z ∧ |e.2.1 - dist3 x c.pos| ≤ 6 * δ + 126 * (M * 2 ^ (-53 : ℤ)) ∧
              ∀ p, |e.2.2 p - x p| ≤ δ + 9 * (M * 2 ^ (-53 : ℤ))) := by
  obtain ⟨S, table, W, g1, g2, _, g3⟩ := C208_table_doubles keep A s r sc m h hm M δ hM hδ hδM hk
  refine ⟨table, g2, fun i c hc => ?_⟩
  obtain ⟨real, k, atoms, sub, f1, _, _, f4, f5, f6, f7⟩ := g3 i c hc
  have hcs : c ∈ s.sites := (sortByKey_perm _ _).mem_iff.1 (List.mem_of_getElem? hc)
  have hτ0 : 0 ≤ 6 * δ + 126 * (M * 2 ^ (-53 : ℤ)) := by
    have : 0 ≤ M := by linarith
    positivity
  refine ⟨real, k, f1, ?_, ?_⟩
  · rintro t ht n x rfl hd
    obtain ⟨u, hu, hz, hp⟩ := C19_supercell_complete s S hL sc m h g1 r hr hfrac c t hcs ht n (by linarith)
    have hmem : u ∈ within S c.pos (r - (6 * δ + 126 * (M * 2 ^ (-53 : ℤ)))) := by
      unfold within
      rw [List.mem_filter]
      exact ⟨hu, by rw [hp]; simpa using hd⟩
    have hua := f5.mem_iff.2 (f6.subset hmem)
    obtain ⟨j, hj, rfl⟩ := List.mem_iff_getElem.1 hua
    have hj' : j < real.length := by rw [f4.length_eq]; exact hj
    have := f4.get hj' hj
    refine ⟨real[j], List.getElem_mem hj', ?_⟩
    rw [← hz, ← hp]
    exact this
  · intro e he
    obtain ⟨j, hj, rfl⟩ := List.mem_iff_getElem.1 he
    have hj' : j < atoms.length := by rw [← f4.length_eq]; exact hj
    have h1 := f4.get hj hj'
    have h2 := f7.subset (f5.mem_iff.1 (List.getElem_mem hj'))
    unfold within at h2
    rw [List.mem_filter] at h2
    obtain ⟨h2, h3⟩ := h2
    rw [superSorted_exact keep s h g1] at h2
    obtain ⟨b, hb, hb'⟩ := List.mem_map.1 h2
    have hb := (sortByKey_perm _ _).mem_iff.1 hb
    obtain ⟨n, _, hn⟩ := List.mem_flatMap.1 hb
    obtain ⟨t, ht, rfl⟩ := List.mem_map.1 hn
    refine ⟨t, ht, n, _, rfl, ?_, ?_⟩
    · have := of_decide_eq_true h3
      rw [← hb'] at this
      exact this
    · have h1' : _ ∧ _ := h1
      simp only [List.get_eq_getElem] at h1'
      rw [← hb'] at h1'
      exact h1'

/-- C208, the limit: the margin cannot be left out.  With all data exact doubles and coordinates kept as they are, an
atom exactly at the cutoff is in the exact table and missing from the one computed in doubles. -/
theorem C208_cutoff_missed (A : ArgSort) :
    (flR cutR = cutR ∧ ∀ t ∈ cutCell.sites, ∀ p, flR (t.pos p) = t.pos p) ∧
    ∃ exact table, neighborTable A cutCell cutR ![3, 3, 3] = .ok exact ∧
      neighborTableD flR (fun _ x => x) A cutCell cutR ![3, 3, 3] = .ok table ∧
      (∃ row, exact[0]? = some row ∧ ∃ e ∈ row, e.1 = 14) ∧
      ∀ row, table[0]? = some row → ∀ e ∈ row, e.1 ≠ 14 := by
  have hodd : ∀ i : Fin 3, (![3, 3, 3] : Fin 3 → ℤ) i = 2 * (((fun _ => 1 : Fin 3 → ℕ) i : ℕ) : ℤ) + 1 := by
    intro i; fin_cases i <;> rfl
  have h0 : cutCell.reformat_.sites[0]? = some ⟨8, ![15, 0, 0], none⟩ := by
    simp [cutCell, Struct.reformat_, sortByKey]
  have hpow : (0 : ℝ) < 2 ^ (-50 : ℤ) := by positivity
  have hpow1 : (2 : ℝ) ^ (-50 : ℤ) ≤ 1 / 1000 := by rw [zpow_neg]; norm_num
  refine ⟨⟨cutR_double, ?_⟩, ?_⟩
  · intro t ht p
    simp only [cutCell, List.mem_cons, List.not_mem_nil, or_false] at ht
    rcases ht with rfl | rfl
    · fin_cases p
      · have := flR_int 15 (by norm_num)
        simpa using this
      · simp [flR_zero]
      · simp [flR_zero]
    · fin_cases p
      · simpa using cutPos_double
      · simp [flR_zero]
      · simp [flR_zero]
  · obtain ⟨exact, g1, g2⟩ := C19_table_complete A cutCell (by simp [cutCell, Matrix.det_diagonal]) ![3, 3, 3]
      (fun _ => 1) hodd cutR (by
        intro i
        have e1 : (1 : Fin 3) + 1 = 2 := rfl
        have e2 : (1 : Fin 3) + 2 = 0 := rfl
        have e3 : (2 : Fin 3) + 1 = 0 := rfl
        have e4 : (2 : Fin 3) + 2 = 1 := rfl
        have hs : Real.sqrt ((16 * 16) ^ 2) = 16 * 16 := Real.sqrt_sq (by norm_num)
        have hc : cutR ≤ 2 := by unfold cutR; rw [zpow_neg]; norm_num
        have : planeDist cutCell.lattice i = 16 := by
          fin_cases i <;>
            simp [cutCell, planeDist, dist3, crossProduct, Matrix.det_diagonal, Fin.sum_univ_three, e1, e2, e3, e4,
              hs] <;> norm_num
        rw [this]
        push_cast
        linarith)
      (by
        intro t ht
        simp only [cutCell, List.mem_cons, List.not_mem_nil, or_false] at ht
        rcases ht with rfl | rfl
        · refine ⟨![15 / 16, 0, 0], ?_, ?_⟩
          · intro i; fin_cases i <;> norm_num
          · funext p
            fin_cases p <;> simp [cutCell, Fin.sum_univ_three]
        · refine ⟨![3 * 2 ^ (-50 : ℤ) / 16, 0, 0], ?_, ?_⟩
          · intro i
            fin_cases i
            · simp only [Fin.zero_eta, Matrix.cons_val_zero]
              constructor
              · positivity
              · linarith
            · norm_num
            · norm_num
          · funext p
            fin_cases p <;> simp [cutCell, Fin.sum_univ_three])
    obtain ⟨table, g3, g4⟩ := neighborTableD_rows (fun _ x => x) A cutCell cutR (m := fun _ => 1) (by norm_num) hodd
    refine ⟨exact, table, g1, g3, ?_, ?_⟩
    · obtain ⟨row, hrow, hmem⟩ := g2 0 ⟨8, ![15, 0, 0], none⟩ ⟨14, ![3 * 2 ^ (-50 : ℤ), 0, 0], none⟩ ![1, 0, 0] _ h0
        (by simp [cutCell]) rfl (by
          have e1 : (![3 * 2 ^ (-50 : ℤ), 0, 0] : Vec ℝ) + ∑ a, ((![1, 0, 0] : Fin 3 → ℤ) a : ℝ) • cutCell.lattice a
              = ![3 * 2 ^ (-50 : ℤ) + 16, 0, 0] := by
            have l0 : cutCell.lattice 0 0 = 16 := by simp [cutCell]
            have l1 : cutCell.lattice 0 1 = 0 := by simp [cutCell]
            have l2 : cutCell.lattice 0 2 = 0 := by simp [cutCell]
            funext p
            rw [Fin.sum_univ_three]
            fin_cases p <;> simp [l0, l1, l2]
          have e : dist3 ((![3 * 2 ^ (-50 : ℤ), 0, 0] : Vec ℝ) + ∑ a, ((![1, 0, 0] : Fin 3 → ℤ) a : ℝ) • cutCell.lattice a)
              ![15, 0, 0] = cutR := by
            have e2 : ∑ i, ((![3 * 2 ^ (-50 : ℤ) + 16, 0, 0] : Vec ℝ) i - (![15, 0, 0] : Vec ℝ) i) ^ 2
                = cutR ^ 2 := by
              rw [Fin.sum_univ_three]
              simp only [Matrix.cons_val_zero, Matrix.cons_val_one, Matrix.cons_val, cutR]
              ring
            rw [e1]
            unfold dist3
            rw [e2]
            exact Real.sqrt_sq (by unfold cutR; positivity)
          exact e.le)
      exact ⟨row, hrow, _, hmem, rfl⟩
    · intro row hrow e he hz
      have hlen : 0 < table.length := (List.getElem?_eq_some_iff.1 hrow).1
      obtain ⟨a, ha, ha1, ha2, ha3⟩ := g4.get (by rw [g4.length_eq]; exact hlen) hlen
      have hc : cutCell.reformat_.sites.get ⟨0, by rw [g4.length_eq]; exact hlen⟩ = ⟨8, ![15, 0, 0], none⟩ := by
        obtain ⟨_, h⟩ := List.getElem?_eq_some_iff.1 h0
        exact h
      have hr : table.get ⟨0, hlen⟩ = row := (List.getElem?_eq_some_iff.1 hrow).2
      rw [hc] at ha1 ha2
      rw [hr] at ha3
      -- the stored centre
      have hax : a.2.pos 0 = 15 := by
        obtain ⟨t, ht, h⟩ := List.mem_flatMap.1 ha
        obtain ⟨u, hu, rfl⟩ := List.mem_map.1 h
        rw [mem_shiftsZ] at ht
        simp only [cutCell, List.mem_cons, List.not_mem_nil, or_false] at hu
        rcases hu with rfl | rfl
        · have h1 := congrFun ha2 0
          have h2 : (15 : ℝ) + 16 * (t 0 : ℝ) = 15 := by
            have : (15 : ℝ) + (t 0 : ℝ) * 16 = 15 := by
              have l : ∀ k : Fin 3, cutCell.lattice k 0 = if k = 0 then 16 else 0 := by
                intro k
                fin_cases k <;> simp [cutCell]
              have h3 : (15 : ℝ) + ∑ k, (t k : ℝ) * cutCell.lattice k 0 = 15 := by
                have h4 : (15 : ℝ) + (∑ k, (t k : ℝ) • cutCell.lattice k) 0 = 15 := h1
                rwa [Finset.sum_apply] at h4
              simpa [l] using h3
            linarith
          show flR ((![15, 0, 0] : Vec ℝ) 0 + shiftVectorD flR cutCell.lattice (castVec t) 0) = 15
          rw [cut_shift t (by simpa using ht)]
          simp only [Matrix.cons_val_zero]
          rw [h2]
          have := flR_int 15 (by norm_num)
          simpa using this
        · simp [superPair] at ha1
      rcases ha3 e he with rfl | ⟨b, hb, rfl, hle⟩
      · simp [zeroEntry] at hz
      · obtain ⟨t, ht, h⟩ := List.mem_flatMap.1 hb
        obtain ⟨u, hu, rfl⟩ := List.mem_map.1 h
        rw [mem_shiftsZ] at ht
        simp only [cutCell, List.mem_cons, List.not_mem_nil, or_false] at hu
        rcases hu with rfl | rfl
        · simp [entryD, superPair] at hz
        · have hs := cut_shift t (by simpa using ht)
          set X : ℝ := flR (3 * 2 ^ (-50 : ℤ) + 16 * (t 0 : ℝ)) with hX
          have hX' : (superPair (fun _ x => x) cutCell ![3, 3, 3] t
              ⟨14, ![3 * 2 ^ (-50 : ℤ), 0, 0], none⟩).2.pos 0 = X := by
            show flR ((![3 * 2 ^ (-50 : ℤ), 0, 0] : Vec ℝ) 0 + shiftVectorD flR cutCell.lattice (castVec t) 0) = X
            rw [hs]
            rfl
          set v : Vec ℝ := fun q => flR ((superPair (fun _ x => x) cutCell ![3, 3, 3] t
              ⟨14, ![3 * 2 ^ (-50 : ℤ), 0, 0], none⟩).2.pos q - a.2.pos q) with hv
          have hv0 : v 0 = flR (X - 15) := by rw [hv]; simp only [hX', hax]
          have hle' : lengthD flR v ≤ cutR := hle
          have hn : |v 0| ≤ norm3 v := by
            unfold norm3
            rw [← Real.sqrt_sq_eq_abs]
            exact Real.sqrt_le_sqrt (by nlinarith [sq_nonneg (v 1), sq_nonneg (v 2)])
          have hnb := (normD_bounds v).1
          have hnb' : (1 - 3 * uR) * norm3 v ≤ lengthD flR v := hnb
          have hu0 : uR = 2 ^ (-50 : ℤ) / 8 := by unfold uR; rw [zpow_neg, zpow_neg]; norm_num
          have hbig : 1 + 4 * 2 ^ (-50 : ℤ) ≤ |v 0| := by
            have ht0 := abs_le.1 (ht 0)
            by_cases h1 : t 0 = 1
            · have hX1 : X = 16 + 2 ^ (-48 : ℤ) := by
                rw [hX, h1, ← cut_up]; norm_num
              have e : X - 15 = 1 + 4 * 2 ^ (-50 : ℤ) := by
                rw [hX1, zpow_neg, zpow_neg]; norm_num
              have e2 : flR (1 + 4 * 2 ^ (-50 : ℤ)) = 1 + 4 * 2 ^ (-50 : ℤ) := by
                have h := flR_int_mul (2 ^ 50 + 4) (by norm_num) (-50)
                have e : (((2 ^ 50 + 4 : ℤ) : ℝ)) * (2 : ℝ) ^ (-50 : ℤ) = 1 + 4 * 2 ^ (-50 : ℤ) := by
                  rw [zpow_neg]
                  norm_num
                rwa [e] at h
              rw [hv0, e, e2]
              exact le_abs_self _
            · have ht1 : (t 0 : ℝ) ≤ 0 := by
                have : t 0 ≤ 0 := by
                  have := ht0.2
                  push_cast at this
                  omega
                exact_mod_cast this
              have hX1 : X ≤ 1 := by
                have h1' : flR 1 = 1 := by simpa using flR_int 1 (by norm_num)
                rw [hX, ← h1']
                refine flR_mono ?_
                have : (3 * 2 ^ (-50 : ℤ) : ℝ) ≤ 1 := by rw [zpow_neg]; norm_num
                linarith
              have : v 0 ≤ -14 := by
                have h14 : flR (-14) = -14 := by
                  have := flR_int (-14) (by norm_num)
                  simpa using this
                rw [hv0, ← h14]
                exact flR_mono (by linarith)
              rw [abs_of_neg (by linarith)]
              have h5 : (1 + 4 * 2 ^ (-50 : ℤ) : ℝ) ≤ 14 := by rw [zpow_neg]; norm_num
              exact h5.trans (by linarith)
          have hn1 : 1 + 4 * 2 ^ (-50 : ℤ) ≤ norm3 v := hbig.trans hn
          have : (1 - 3 * uR) * (1 + 4 * 2 ^ (-50 : ℤ)) ≤ cutR :=
            (mul_le_mul_of_nonneg_left hn1 (by rw [hu0]; linarith)).trans (hnb'.trans hle')
          rw [hu0] at this
          unfold cutR at this
          nlinarith

/-- The hypotheses of C208 hold for that cell, coordinates up to 32 and a way of keeping coordinates that changes each
by `2⁻⁴⁰`. -/
example : CoordsUpTo cutCell (fun _ => 1) 32 ∧
    KeptWithin ((fun _ x p => x p + 2 ^ (-40 : ℤ) : Matrix (Fin 3) (Fin 3) ℝ → Vec ℝ → Vec ℝ)
      (superLatticeD flR cutCell.lattice ![3, 3, 3])) (2 * 32) (2 ^ (-40 : ℤ)) := by
  constructor
  · intro t ht p
    simp only [cutCell, List.mem_cons, List.not_mem_nil, or_false] at ht
    have hpow1 : (2 : ℝ) ^ (-50 : ℤ) ≤ 1 / 1000 := by rw [zpow_neg]; norm_num
    have hpow : (0 : ℝ) < 2 ^ (-50 : ℤ) := by positivity
    rcases ht with rfl | rfl
    · fin_cases p <;> simp [cutCell, Fin.sum_univ_three] <;> norm_num
    · fin_cases p
      · simp only [cutCell, Fin.sum_univ_three, Fin.zero_eta, Matrix.cons_val_zero]
        rw [abs_of_pos (by positivity)]
        simp
        simp at hpow1
        linarith
      · simp [cutCell, Fin.sum_univ_three]; norm_num
      · simp [cutCell, Fin.sum_univ_three]; norm_num
  · intro x _ p
    simp

end MaterSDK
