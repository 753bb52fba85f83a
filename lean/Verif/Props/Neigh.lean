import Verif.Lemmas.NeighAux
import Verif.Lemmas.Neigh
import Verif.Spec.Neigh
import Mathlib.Algebra.Order.Chebyshev
import Mathlib.Algebra.BigOperators.Fin
import Mathlib.Tactic.NormNum
import Mathlib.Tactic.IntervalCases

/-!
# C17-C21: neighbour tables and neighbour counts
-/

set_option linter.unusedSectionVars false

namespace MaterSDK



open Classical

/-! ## C17 -/

/-- C17: row `i` of the table lists exactly the supercell atoms within the cutoff of the `i`-th
centre, by non-decreasing distance, followed by zeros; all rows are as long as the fullest one. -/
theorem C17_table_exact (A : ArgSort) (s : Struct ℝ) (r : ℝ) (sc : Fin 3 → ℤ) (m : Fin 3 → ℕ)
    (h : ∀ i, sc i = 2 * (m i : ℤ) + 1) :
    ∃ (S : Struct ℝ) (table : List (List NbrEntry)) (W : ℕ),
      s.makeSupercell sc true = .ok S ∧ neighborTable A s r sc = .ok table ∧
      table.length = s.sites.length ∧
      (∀ (i : ℕ) (c : Site ℝ), s.reformat_.sites[i]? = some c →
        ∃ (real : List NbrEntry) (k : ℕ), table[i]? = some (real ++ List.replicate k (0, 0, 0)) ∧
          real.Perm ((within S c.pos r).map (fun t => (t.z, dist3 t.pos c.pos, t.pos))) ∧
          real.Pairwise (fun a b => a.2.1 ≤ b.2.1)) ∧
      (∀ row ∈ table, row.length = W) ∧
      (∀ c ∈ s.sites, (within S c.pos r).length ≤ W) ∧
      (s.sites ≠ [] → ∃ c ∈ s.sites, (within S c.pos r).length = W) := by
  obtain ⟨S, table, W, h1, h2, h3, h4⟩ := neighborTable_spec A s r sc m h
  refine ⟨S, table, W, h1, h2, ?_, ?_, ?_, ?_, h4⟩
  · rw [← h3.length_eq]
    exact (sortByKey_perm _ _).length_eq
  · intro i c hc
    obtain ⟨hi, rfl⟩ := List.getElem?_eq_some_iff.1 hc
    have hi' : i < table.length := by rw [← h3.length_eq]; exact hi
    obtain ⟨real, k, g1, _, g3, g4⟩ := h3.get hi hi'
    exact ⟨real, k, by rw [List.getElem?_eq_getElem hi']; exact congrArg some g1, g3, g4⟩
  · intro row hrow
    obtain ⟨i, hi, rfl⟩ := List.mem_iff_getElem.1 hrow
    have hi' : i < s.reformat_.sites.length := by rw [h3.length_eq]; exact hi
    obtain ⟨_, _, _, g2, _⟩ := h3.get hi' hi
    exact g2
  · intro c hc
    have hc' : c ∈ s.reformat_.sites := (sortByKey_perm _ _).mem_iff.2 hc
    obtain ⟨i, hi, rfl⟩ := List.mem_iff_getElem.1 hc'
    have hi' : i < table.length := by rw [← h3.length_eq]; exact hi
    obtain ⟨real, k, g1, g2, g3, _⟩ := h3.get hi hi'
    have g5 := g3.length_eq
    rw [List.length_map] at g5
    have g6 := congrArg List.length g1
    rw [List.length_append] at g6
    show (within S s.reformat_.sites[i].pos r).length ≤ W
    simp only [List.get_eq_getElem] at g5 g6 g2
    omega

/-- A concrete argsort: insertion sort of the indices by key. -/
noncomputable def insertionArgSort : ArgSort where
  run l := (List.range l.length).insertionSort (fun i j => l[i]?.getD 0 ≤ l[j]?.getD 0)
  perm l := List.perm_insertionSort _ _
  sorted l := by
    rw [List.pairwise_map]
    have : Std.Total (fun i j : ℕ => l[i]?.getD 0 ≤ l[j]?.getD 0) := ⟨fun a b => le_total _ _⟩
    have : IsTrans ℕ (fun i j : ℕ => l[i]?.getD 0 ≤ l[j]?.getD 0) := ⟨fun _ _ _ h1 h2 => le_trans h1 h2⟩
    exact List.pairwise_insertionSort _ _

/-- The contract of `ArgSort` can be met. -/
example : Nonempty ArgSort := ⟨insertionArgSort⟩

/-! ## C18 -/

/-- C18: without coincident atoms and with `r ≥ 0`, entry 0 of each row is the centre itself and
every other listed atom has positive distance. -/
theorem C18_first_entry_is_centre (A : ArgSort) (s : Struct ℝ) (r : ℝ) (hr : 0 ≤ r)
    (sc : Fin 3 → ℤ) (m : Fin 3 → ℕ) (h : ∀ i, sc i = 2 * (m i : ℤ) + 1) (S : Struct ℝ)
    (table : List (List NbrEntry)) (hS : s.makeSupercell sc true = .ok S)
    (hT : neighborTable A s r sc = .ok table) (hnd : (S.sites.map Site.pos).Nodup) :
    ∀ (i : ℕ) (c : Site ℝ), s.reformat_.sites[i]? = some c →
      ∃ (rest : List NbrEntry) (k : ℕ),
        table[i]? = some ((c.z, 0, c.pos) :: (rest ++ List.replicate k (0, 0, 0))) ∧
        rest.length + 1 = (within S c.pos r).length ∧ ∀ e ∈ rest, 0 < e.2.1 := by
  obtain ⟨keys, S', h1, h2, _, h3⟩ := keys_sites s sc m h
  rw [hS] at h2
  cases h2
  obtain ⟨S', table', W, g1, g2, _, g3, _⟩ := C17_table_exact A s r sc m h
  rw [hS] at g1
  rw [hT] at g2
  cases g1
  cases g2
  intro i c hc
  obtain ⟨real, k, f1, f2, f3⟩ := g3 i c hc
  obtain ⟨hi, rfl⟩ := List.getElem?_eq_some_iff.1 hc
  have hik : i < keys.length := by rw [← h3.length_eq]; exact hi
  obtain ⟨c', e1, e2, e3⟩ := h3.get hi hik
  simp only [List.get_eq_getElem] at e1 e2 e3
  generalize s.reformat_.sites[i] = c at *
  have hmem : (c.z, (0 : ℝ), c.pos) ∈ real := by
    rw [f2.mem_iff, List.mem_map]
    refine ⟨c', ?_, ?_⟩
    · unfold within
      rw [List.mem_filter]
      exact ⟨List.mem_of_getElem? e1, by rw [e3, dist3_self]; simpa using hr⟩
    · rw [e2, e3, dist3_self]
  have hdist : ∀ e ∈ real, e.2.1 = dist3 e.2.2 c.pos := by
    intro e he
    obtain ⟨t, _, rfl⟩ := List.mem_map.1 (f2.mem_iff.1 he)
    rfl
  have hposnd : (real.map (fun e => e.2.2)).Nodup := by
    have := f2.map (fun e => e.2.2)
    rw [this.nodup_iff, List.map_map]
    have : ((within S c.pos r).map Site.pos).Sublist (S.sites.map Site.pos) :=
      (List.filter_sublist).map _
    exact this.nodup hnd
  cases real with
  | nil => simp at hmem
  | cons e0 rest =>
    rw [List.pairwise_cons] at f3
    rw [List.map_cons, List.nodup_cons] at hposnd
    have h0 : e0.2.1 = 0 := by
      have hle : e0.2.1 ≤ 0 := by
        rcases List.mem_cons.1 hmem with he | he
        · rw [← he]
        · exact f3.1 _ he
      have hge : 0 ≤ e0.2.1 := by rw [hdist e0 (by simp)]; exact dist3_nonneg _ _
      linarith
    have hp0 : e0.2.2 = c.pos := by
      rw [hdist e0 (by simp), dist3_eq_zero] at h0
      exact h0
    have he0 : e0 = (c.z, 0, c.pos) := by
      rcases List.mem_cons.1 hmem with he | he
      · exact he.symm
      · exfalso
        apply hposnd.1
        rw [hp0]
        exact List.mem_map.2 ⟨_, he, rfl⟩
    refine ⟨rest, k, ?_, ?_, ?_⟩
    · rw [f1, he0]; rfl
    · have := f2.length_eq
      rw [List.length_map, List.length_cons] at this
      exact this
    · intro e he
      rw [hdist e (by simp [he]), dist3_pos]
      intro hp
      apply hposnd.1
      rw [hp0, ← hp]
      exact List.mem_map.2 ⟨e, he, rfl⟩

/-! ## C19 -/

/-- C19: if the fractional coordinates lie in `[0,1)` and each half-width times the plane distance
covers the cutoff, then every atom of the infinite crystal within the cutoff of a primitive atom is
in the supercell. -/
theorem C19_supercell_complete (s S : Struct ℝ) (hL : s.lattice.det ≠ 0) (sc : Fin 3 → ℤ)
    (m : Fin 3 → ℕ) (h : ∀ i, sc i = 2 * (m i : ℤ) + 1) (hS : s.makeSupercell sc true = .ok S)
    (r : ℝ) (hr : ∀ i, r ≤ (m i : ℝ) * planeDist s.lattice i)
    (hfrac : ∀ t ∈ s.sites, ∃ f : Vec ℝ, (∀ i, 0 ≤ f i ∧ f i < 1) ∧ t.pos = ∑ i, f i • s.lattice i)
    (c t : Site ℝ) (hc : c ∈ s.sites) (ht : t ∈ s.sites) (n : Fin 3 → ℤ)
    (hd : dist3 (t.pos + ∑ i, (n i : ℝ) • s.lattice i) c.pos ≤ r) :
    ∃ u ∈ S.sites, u.z = t.z ∧ u.pos = t.pos + ∑ i, (n i : ℝ) • s.lattice i := by
  obtain ⟨fc, hfc, ec⟩ := hfrac c hc
  obtain ⟨ft, hft, et⟩ := hfrac t ht
  have hn : ∀ i, |n i| ≤ (m i : ℤ) := by
    intro i
    obtain ⟨hp, hb⟩ := coeff_bound s.lattice hL (fun k => ft k + n k - fc k) i
    have e : dist3 (∑ k, (ft k + n k - fc k) • s.lattice k) 0
        = dist3 (t.pos + ∑ i, (n i : ℝ) • s.lattice i) c.pos := by
      unfold dist3
      congr 1
      apply Finset.sum_congr rfl
      intro j _
      congr 1
      rw [ec, et]
      simp only [sub_smul, add_smul, Finset.sum_sub_distrib, Finset.sum_add_distrib, Pi.zero_apply,
        Pi.sub_apply, Pi.add_apply]
      ring
    rw [e] at hb
    have h1 : |ft i + n i - fc i| * planeDist s.lattice i ≤ (m i : ℝ) * planeDist s.lattice i :=
      le_trans hb (le_trans hd (hr i))
    have h2 : |ft i + n i - fc i| ≤ m i := le_of_mul_le_mul_right h1 hp
    rw [abs_le] at h2
    have h3 := hfc i
    have h4 := hft i
    have h5 : (n i : ℝ) < m i + 1 := by linarith
    have h6 : -(m i : ℝ) - 1 < n i := by linarith
    have h7 : n i < (m i : ℤ) + 1 := by exact_mod_cast h5
    have h8 : -(m i : ℤ) - 1 < n i := by exact_mod_cast h6
    rw [abs_le]
    constructor <;> omega
  rw [makeSupercell_odd s m h] at hS
  cases hS
  refine ⟨⟨t.z, t.pos + ∑ i, (n i : ℝ) • s.lattice i, none⟩, ?_, rfl, rfl⟩
  simp only [if_true, Struct.reformat_]
  rw [(sortByKey_perm _ _).mem_iff]
  unfold superSites
  rw [List.mem_flatMap]
  exact ⟨n, (mem_shiftsZ m n).2 hn, List.mem_map.2 ⟨t, ht, rfl⟩⟩

/-! ## C20 -/

/-- C20: the reported number is the maximum over centres of the number of other atoms strictly
closer than the cutoff. -/
theorem C20_max_exact (s S : Struct ℝ) (r : ℝ) (hr : 0 < r) (sc : Fin 3 → ℤ) (m : Fin 3 → ℕ)
    (h : ∀ i, sc i = 2 * (m i : ℤ) + 1) (hS : s.makeSupercell sc true = .ok S)
    (hne : s.sites ≠ []) (hnd : (S.sites.map Site.pos).Nodup) :
    ∃ M : ℕ, maxNumNbrsReal s r sc = .ok (M : ℤ) ∧
      (∀ c ∈ s.sites, othersCloser S c.pos r ≤ M) ∧ (∃ c ∈ s.sites, othersCloser S c.pos r = M) := by
  obtain ⟨M, h1, h2, c, hc, h3⟩ := maxNum_spec s S r sc m h hS hne
  have hself : ∀ c ∈ s.sites, S.sites.countP (fun t => dist3 t.pos c.pos < r)
      = othersCloser S c.pos r + 1 := by
    intro c hc
    obtain ⟨c', g1, g2, g3⟩ := centre_mem s S sc m h hS c hc
    have := countP_strict_self S c' r hr hnd g1
    rw [g3] at this
    exact this
  have hM : 1 ≤ M := by rw [← h3, hself c hc]; omega
  refine ⟨M - 1, ?_, ?_, c, hc, ?_⟩
  · rw [h1]
    congr 1
    omega
  · intro d hd
    have := h2 d hd
    rw [hself d hd] at this
    omega
  · have := hself c hc
    omega

/-- C20, what holds of the bound on the neighbour table: when no supercell atom lies exactly on the
cutoff sphere of a centre, every row lists at most `M` atoms besides the centre. Missing: atoms
exactly at the cutoff distance. -/
theorem C20_bounds_table_partial (A : ArgSort) (s S : Struct ℝ) (r : ℝ) (sc : Fin 3 → ℤ)
    (m : Fin 3 → ℕ) (h : ∀ i, sc i = 2 * (m i : ℤ) + 1) (hS : s.makeSupercell sc true = .ok S)
    (table : List (List NbrEntry)) (hT : neighborTable A s r sc = .ok table)
    (M : ℤ) (hM : maxNumNbrsReal s r sc = .ok M)
    (hgen : ∀ c ∈ s.sites, ∀ t ∈ S.sites, dist3 t.pos c.pos ≠ r) :
    ∀ row ∈ table, (row.length : ℤ) ≤ M + 1 := by
  intro row hrow
  obtain ⟨S', table', W, g1, g2, g3, _, g5, _, g6⟩ := C17_table_exact A s r sc m h
  rw [hS] at g1
  rw [hT] at g2
  cases g1
  cases g2
  have hne : s.sites ≠ [] := by
    intro h0
    rw [h0, List.length_nil, List.length_eq_zero_iff] at g3
    rw [g3] at hrow
    simp at hrow
  obtain ⟨M', h1, h2, _⟩ := maxNum_spec s S r sc m h hS hne
  rw [hM] at h1
  cases h1
  obtain ⟨c, hc, hW⟩ := g6 hne
  rw [g5 row hrow, ← hW]
  have h3 := h2 c hc
  have h4 : (within S c.pos r).length = S.sites.countP (fun t => dist3 t.pos c.pos < r) := by
    unfold within
    rw [← List.countP_eq_length_filter]
    apply List.countP_congr
    intro t ht
    have := hgen c hc t ht
    simp only [decide_eq_true_eq]
    constructor
    · intro hle; exact lt_of_le_of_ne hle this
    · exact le_of_lt
  rw [h4]
  omega

/-- C20 fails for atoms exactly at the cutoff: the reported maximum is 0, yet the neighbour table
(with the same arguments) lists two neighbours besides the centre. -/
theorem C20_bound_violated :
    ∃ (s : Struct ℝ) (r : ℝ) (sc : Fin 3 → ℤ), maxNumNbrsReal s r sc = .ok 0 ∧
      ∀ A : ArgSort, ∃ table, neighborTable A s r sc = .ok table ∧ ∀ row ∈ table, row.length = 3 := by
  obtain ⟨d1, d2, d3⟩ := cubic_dist
  have hodd : ∀ i, (![3, 1, 1] : Fin 3 → ℤ) i = 2 * ((![1, 0, 0] : Fin 3 → ℕ) i : ℤ) + 1 := by decide
  refine ⟨cubicCell, 1, ![3, 1, 1], ?_, ?_⟩
  · obtain ⟨M, h1, _, c, hc, h3⟩ := maxNum_spec cubicCell _ 1 _ _ hodd cubic_supercell (by simp [cubicCell])
    simp only [cubicCell, List.mem_singleton] at hc
    subst hc
    simp [d1, d2, d3] at h3
    rw [h1, ← h3]
    rfl
  · intro A
    obtain ⟨S, table, W, g1, g2, _, _, g5, _, g6⟩ := C17_table_exact A cubicCell 1 _ _ hodd
    rw [cubic_supercell] at g1
    cases g1
    obtain ⟨c, hc, hW⟩ := g6 (by simp [cubicCell])
    simp only [cubicCell, List.mem_singleton] at hc
    subst hc
    refine ⟨table, g2, fun row hrow => ?_⟩
    rw [g5 row hrow, ← hW]
    simp [within, d1, d2, d3]

/-- The hypotheses of C18, C20 and C21 hold for this cell: no coincident atoms; nothing at distance 3/2. -/
example : (([⟨14, 0, none⟩, ⟨14, ![-1, 0, 0], none⟩, ⟨14, ![1, 0, 0], none⟩] : List (Site ℝ)).map
    Site.pos).Nodup := by
  simp only [List.map_cons, List.map_nil, List.nodup_cons, List.mem_cons, List.not_mem_nil, or_false,
    not_or, not_false_eq_true, List.nodup_nil, and_true]
  refine ⟨⟨?_, ?_⟩, ?_⟩ <;> intro h <;> have := congrFun h 0 <;> norm_num at this

/-! ## C21 -/

/-- C21: for each requested element the maximum over centres of the number of other atoms of that
element strictly inside the cutoff; at most the all-element maximum `M`; the entries add up to at
least `M` when all elements present are requested. -/
theorem C21_element_maxima (s S : Struct ℝ) (r : ℝ) (hr : 0 < r) (els : List ℕ) (sc : Fin 3 → ℤ)
    (m : Fin 3 → ℕ) (h : ∀ i, sc i = 2 * (m i : ℤ) + 1) (hS : s.makeSupercell sc true = .ok S)
    (hne : s.sites ≠ []) (hnd : (S.sites.map Site.pos).Nodup) :
    ∃ (d : List (ℕ × ℕ)) (M : ℕ), maxNumNbrsRealElement s r els sc = .ok d ∧
      maxNumNbrsReal s r sc = .ok (M : ℤ) ∧
      (d.map Prod.fst).Nodup ∧ (∀ e, e ∈ d.map Prod.fst ↔ e ∈ els) ∧
      (∀ e n, (e, n) ∈ d → (∀ c ∈ s.sites, othersCloserOf S c.pos r e ≤ n) ∧
        (∃ c ∈ s.sites, othersCloserOf S c.pos r e = n) ∧ n ≤ M) ∧
      ((∀ t ∈ s.sites, t.z ∈ els) → M ≤ (d.map Prod.snd).sum) := by
  obtain ⟨f, h1, h2⟩ := maxElement_spec s S r els sc m h hS hne hnd
  obtain ⟨M, g1, g2, c0, hc0, g3⟩ := C20_max_exact s S r hr sc m h hS hne hnd
  have hfst : ((counterKeys els).map (fun e => (e, f e))).map Prod.fst = counterKeys els := by
    rw [List.map_map]
    show List.map (fun e => e) _ = _
    simp
  refine ⟨_, M, h1, g1, ?_, ?_, ?_, ?_⟩
  · rw [hfst]; exact counterKeys_nodup _
  · intro e; rw [hfst]; exact mem_counterKeys _ _
  · intro e n hen
    obtain ⟨e', _, he⟩ := List.mem_map.1 hen
    cases he
    obtain ⟨k1, c, hc, k2⟩ := h2 e
    refine ⟨k1, ⟨c, hc, k2⟩, ?_⟩
    rw [← k2]
    exact (othersCloserOf_le S c.pos r e).trans (g2 c hc)
  · intro hel
    have helS : ∀ t ∈ S.sites, t.z ∈ counterKeys els := by
      intro t ht
      rw [mem_counterKeys]
      rw [makeSupercell_odd s m h] at hS
      cases hS
      simp only [if_true, Struct.reformat_] at ht
      rw [(sortByKey_perm _ _).mem_iff] at ht
      unfold superSites at ht
      obtain ⟨_, _, ht⟩ := List.mem_flatMap.1 ht
      obtain ⟨u, hu, rfl⟩ := List.mem_map.1 ht
      exact hel u hu
    rw [← g3]
    refine (othersCloser_sum S c0.pos r (counterKeys els) helS).trans ?_
    rw [List.map_map]
    apply List.sum_le_sum
    intro e _
    exact (h2 e).1 c0 hc0

/-- C19, seen from the table: under the same conditions each atom of the infinite crystal within the
cutoff of the `i`-th centre is listed in row `i`. -/
theorem C19_table_complete (A : ArgSort) (s : Struct ℝ) (hL : s.lattice.det ≠ 0) (sc : Fin 3 → ℤ)
    (m : Fin 3 → ℕ) (h : ∀ i, sc i = 2 * (m i : ℤ) + 1)
    (r : ℝ) (hr : ∀ i, r ≤ (m i : ℝ) * planeDist s.lattice i)
    (hfrac : ∀ t ∈ s.sites, ∃ f : Vec ℝ, (∀ i, 0 ≤ f i ∧ f i < 1) ∧ t.pos = ∑ i, f i • s.lattice i) :
    ∃ table, neighborTable A s r sc = .ok table ∧
      ∀ (i : ℕ) (c t : Site ℝ) (n : Fin 3 → ℤ) (p : Vec ℝ), s.reformat_.sites[i]? = some c →
        t ∈ s.sites → p = t.pos + ∑ a, (n a : ℝ) • s.lattice a → dist3 p c.pos ≤ r →
        ∃ row, table[i]? = some row ∧ (t.z, dist3 p c.pos, p) ∈ row := by
  obtain ⟨S, table, W, g1, g2, _, g4, _⟩ := C17_table_exact A s r sc m h
  refine ⟨table, g2, ?_⟩
  rintro i c t n p hc ht rfl hd
  obtain ⟨real, k, f1, f2, _⟩ := g4 i c hc
  have hcs : c ∈ s.sites := (sortByKey_perm _ _).mem_iff.1 (List.mem_of_getElem? hc)
  obtain ⟨u, hu, hz, hp⟩ := C19_supercell_complete s S hL sc m h g1 r hr hfrac c t hcs ht n hd
  refine ⟨_, f1, List.mem_append_left _ (f2.mem_iff.2 (List.mem_map.2 ⟨u, ?_, by rw [hz, hp]⟩))⟩
  unfold within
  rw [List.mem_filter]
  exact ⟨hu, by rw [hp]; simpa using hd⟩

/-- The hypotheses of C19 hold for a cubic cell of edge 10, cutoff 10 and factors 3. -/
example : ∀ i : Fin 3, (10 : ℝ) ≤ ((1 : ℕ) : ℝ) * planeDist (Matrix.diagonal (fun _ => (10 : ℝ))) i := by
  intro i
  have e1 : (1 : Fin 3) + 1 = 2 := rfl
  have e2 : (1 : Fin 3) + 2 = 0 := rfl
  have e3 : (2 : Fin 3) + 1 = 0 := rfl
  have e4 : (2 : Fin 3) + 2 = 1 := rfl
  have hs : Real.sqrt ((10 * 10) ^ 2) = 10 * 10 := Real.sqrt_sq (by norm_num)
  fin_cases i <;>
    simp [planeDist, dist3, crossProduct, Matrix.det_diagonal, Fin.sum_univ_three, e1, e2, e3, e4,
      hs] <;> norm_num

end MaterSDK
