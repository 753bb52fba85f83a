import Verif.Props.Neigh
import Verif.Spec.Neigh
import Mathlib.Algebra.Order.Chebyshev
import Mathlib.Algebra.BigOperators.Fin
import Mathlib.Tactic.NormNum
import Mathlib.Tactic.IntervalCases

/-! # Helper lemmas for `Props/NeighIndex.lean` -/

set_option linter.unusedSectionVars false

namespace MaterSDK
theorem mem_supercell (s S : Struct ℝ) (sc : Fin 3 → ℤ) (m : Fin 3 → ℕ)
    (h : ∀ i, sc i = 2 * (m i : ℤ) + 1) (hS : s.makeSupercell sc true = .ok S) (t : Site ℝ)
    (ht : t ∈ S.sites) :
    ∃ u ∈ s.sites, ∃ n : Fin 3 → ℤ, t.z = u.z ∧ t.pos = u.pos + ∑ i, (n i : ℝ) • s.lattice i := by
  rw [makeSupercell_odd s m h] at hS
  cases hS
  simp only [if_true, Struct.reformat_] at ht
  rw [(sortByKey_perm _ _).mem_iff] at ht
  unfold superSites at ht
  obtain ⟨n, _, ht⟩ := List.mem_flatMap.1 ht
  obtain ⟨u, hu, rfl⟩ := List.mem_map.1 ht
  exact ⟨u, hu, n, rfl, rfl⟩

theorem sum_smul_inj (L : Matrix (Fin 3) (Fin 3) ℝ) (hL : L.det ≠ 0) (n k : Fin 3 → ℤ)
    (h : ∑ i, (n i : ℝ) • L i = ∑ i, (k i : ℝ) • L i) : n = k := by
  have h1 : Matrix.vecMul (fun i => (n i : ℝ)) L = Matrix.vecMul (fun i => (k i : ℝ)) L := by
    funext j
    have := congrFun h j
    simpa [Matrix.vecMul, dotProduct, Finset.sum_apply] using this
  have h2 := Matrix.vecMul_injective_of_isUnit (Matrix.isUnit_iff_isUnit_det _ |>.2 (isUnit_iff_ne_zero.2 hL)) h1
  funext i
  have := congrFun h2 i
  exact_mod_cast this

/-- Separated atoms stay distinct in every odd supercell. -/
theorem supercell_nodup (s S : Struct ℝ) (hL : s.lattice.det ≠ 0) (hsep : Separated s)
    (sc : Fin 3 → ℤ) (m : Fin 3 → ℕ) (h : ∀ i, sc i = 2 * (m i : ℤ) + 1)
    (hS : s.makeSupercell sc true = .ok S) : (S.sites.map Site.pos).Nodup := by
  rw [makeSupercell_odd s m h] at hS
  cases hS
  simp only [if_true, Struct.reformat_]
  refine (((sortByKey_perm _ _).map Site.pos).nodup_iff).2 ?_
  unfold superSites
  rw [List.map_flatMap, List.nodup_flatMap]
  have key : ∀ (i j : ℕ) (hi : i < s.sites.length) (hj : j < s.sites.length) (n k : Fin 3 → ℤ),
      s.sites[i].pos + ∑ a, (n a : ℝ) • s.lattice a = s.sites[j].pos + ∑ a, (k a : ℝ) • s.lattice a →
      i = j ∧ n = k := by
    intro i j hi hj n k he
    have hij : i = j := by
      by_contra hne
      refine hsep i j _ _ hne (List.getElem?_eq_getElem hi) (List.getElem?_eq_getElem hj) ⟨k - n, 0, by simp, ?_⟩
      have : s.sites[i].pos = s.sites[j].pos + ∑ a, (k a : ℝ) • s.lattice a - ∑ a, (n a : ℝ) • s.lattice a := by
        rw [← he]; simp
      rw [this, add_sub_assoc, ← Finset.sum_sub_distrib]
      congr 1
      apply Finset.sum_congr rfl
      intro a _
      simp [sub_smul]
    subst hij
    exact ⟨rfl, sum_smul_inj _ hL _ _ (by simpa using he)⟩
  constructor
  · intro n _
    rw [List.map_map]
    rw [List.nodup_iff_injective_get]
    intro a b hab
    obtain ⟨a, ha⟩ := a
    obtain ⟨b, hb⟩ := b
    simp only [List.get_eq_getElem, List.getElem_map, Function.comp] at hab
    simp only [List.length_map] at ha hb
    simpa using (key a b ha hb n n hab).1
  · refine (shiftsZ_nodup m).imp ?_
    intro n k hnk
    simp only [Function.onFun]
    rw [List.disjoint_iff_ne]
    rintro p hp q hq rfl
    simp only [List.mem_map, exists_exists_and_eq_and] at hp hq
    obtain ⟨t, ht, rfl⟩ := hp
    obtain ⟨u, hu, he⟩ := hq
    obtain ⟨i, hi, rfl⟩ := List.mem_iff_getElem.1 ht
    obtain ⟨j, hj, rfl⟩ := List.mem_iff_getElem.1 hu
    exact hnk ((key j i hj hi k n he).2.symm)

theorem row_split (A : ArgSort) (s S : Struct ℝ) (r : ℝ) (hr : 0 ≤ r) (sc : Fin 3 → ℤ)
    (m : Fin 3 → ℕ) (h : ∀ i, sc i = 2 * (m i : ℤ) + 1) (hS : s.makeSupercell sc true = .ok S)
    (hnd : (S.sites.map Site.pos).Nodup) :
    ∃ table, neighborTable A s r sc = .ok table ∧
      List.Forall₂ (fun c row => ∃ (rest : List NbrEntry) (k : ℕ),
        row = (c.z, 0, c.pos) :: (rest ++ List.replicate k (0, 0, 0)) ∧
        ((c.z, 0, c.pos) :: rest).Perm ((within S c.pos r).map (fun t => (t.z, dist3 t.pos c.pos, t.pos))) ∧
        rest.Pairwise (fun a b => a.2.1 ≤ b.2.1) ∧ ∀ e ∈ rest, 0 < e.2.1) s.reformat_.sites table := by
  obtain ⟨S', table, W, g1, g2, g3, g4, g5, _⟩ := C17_table_exact A s r sc m h
  rw [hS] at g1
  cases g1
  refine ⟨table, g2, ?_⟩
  have hC := C18_first_entry_is_centre A s r hr sc m h S table hS g2 hnd
  have hl : s.reformat_.sites.length = table.length := by
    rw [g3]; exact (sortByKey_perm _ _).length_eq
  rw [List.forall₂_iff_get]
  refine ⟨hl, fun i hi hi' => ?_⟩
  obtain ⟨real, k, f1, f2, f3⟩ := g4 i _ (List.getElem?_eq_getElem hi)
  obtain ⟨rest, k', f4, f5, f6⟩ := hC i _ (List.getElem?_eq_getElem hi)
  rw [List.getElem?_eq_getElem hi', Option.some.injEq] at f1 f4
  simp only [List.get_eq_getElem]
  have hlen := f2.length_eq
  rw [List.length_map, ← f5] at hlen
  rw [f1, ← List.cons_append] at f4
  obtain ⟨h1, h2⟩ := List.append_inj f4 (by simpa using hlen)
  refine ⟨rest, k, ?_, ?_, ?_, f6⟩
  · rw [f1, h1]; rfl
  · rw [← h1]; exact f2
  · rw [h1] at f3; exact (List.pairwise_cons.1 f3).2

theorem rowNbrs_spec (S : Struct ℝ) (c : Site ℝ) (r : ℝ) (nz : ℕ) (hnz : 0 < nz)
    (rest : List NbrEntry) (k : ℕ)
    (h1 : ((c.z, 0, c.pos) :: rest).Perm ((within S c.pos r).map (fun t => (t.z, dist3 t.pos c.pos, t.pos))))
    (h2 : rest.Pairwise (fun a b => a.2.1 ≤ b.2.1)) (h3 : ∀ e ∈ rest, 0 < e.2.1) :
    (rowNbrs ((c.z, 0, c.pos) :: (rest ++ List.replicate k (0, 0, 0))) nz).Perm
        ((nbrsOf S c.pos r nz).map Site.pos) ∧
      (rowNbrs ((c.z, 0, c.pos) :: (rest ++ List.replicate k (0, 0, 0))) nz).Pairwise
        (fun p q => dist3 p c.pos ≤ dist3 q c.pos) := by
  have hz : (List.replicate k ((0, 0, 0) : NbrEntry)).filter (fun e => e.1 = nz) = [] := by
    rw [List.filter_eq_nil_iff]
    intro e he
    rw [List.eq_of_mem_replicate he]
    simp; omega
  unfold rowNbrs
  rw [List.tail_cons, List.filter_append, hz, List.append_nil]
  constructor
  · have e1 : rest.filter (fun e => e.1 = nz)
        = ((c.z, 0, c.pos) :: rest).filter (fun e : NbrEntry => decide (e.1 = nz ∧ 0 < e.2.1)) := by
      rw [List.filter_cons_of_neg (by simp)]
      apply List.filter_congr
      intro e he
      simp [h3 e he]
    rw [e1]
    refine ((h1.filter _).map _).trans ?_
    rw [List.filter_map, List.map_map]
    unfold within nbrsOf
    rw [List.filter_filter]
    apply List.Perm.of_eq
    show List.map Site.pos _ = _
    congr 1
    apply List.filter_congr
    intro t _
    simp only [Function.comp, ← Bool.decide_and]
    apply decide_eq_decide.2
    tauto
  · rw [List.pairwise_map]
    refine ((h2.filter _).imp_of_mem ?_)
    intro a b ha hb hab
    have hd : ∀ e ∈ rest, e.2.1 = dist3 e.2.2 c.pos := by
      intro e he
      obtain ⟨t, _, rfl⟩ := List.mem_map.1 (h1.mem_iff.1 (List.mem_cons_of_mem _ he))
      rfl
    rw [← hd a (List.mem_of_mem_filter ha), ← hd b (List.mem_of_mem_filter hb)]
    exact hab

theorem forall₂_filter {α β : Type} {R : α → β → Prop} {p : α → Bool} {q : β → Bool} {as : List α}
    {bs : List β} (h : List.Forall₂ R as bs) (hpq : ∀ a b, R a b → p a = q b) :
    List.Forall₂ R (as.filter p) (bs.filter q) := by
  induction h with
  | nil => exact .nil
  | cons h1 _ ih =>
    rw [List.filter_cons, List.filter_cons, ← hpq _ _ h1]
    split
    · exact .cons h1 ih
    · exact ih

theorem nbrsIndices_spec (A : ArgSort) (s S : Struct ℝ) (hL : s.lattice.det ≠ 0) (hsep : Separated s)
    (hne : s.sites ≠ []) (r : ℝ) (hr : 0 ≤ r) (sc : Fin 3 → ℤ) (m : Fin 3 → ℕ)
    (h : ∀ i, sc i = 2 * (m i : ℤ) + 1) (hS : s.makeSupercell sc true = .ok S) (cz nz : ℕ)
    (hnz : 0 < nz) :
    ∃ (table : List (List NbrEntry)) (pad W : ℕ) (rows : List (List ℕ)),
      neighborTable A s r sc = .ok table ∧ s.getSiteIndex 0 = .ok pad ∧
      (∀ c ∈ s.sites, c.z = cz → (nbrsOf S c.pos r nz).length ≤ W) ∧
      ((∃ c ∈ s.sites, c.z = cz) → ∃ c ∈ s.sites, c.z = cz ∧ (nbrsOf S c.pos r nz).length = W) ∧
      List.Forall₂ (fun c row => ∃ (P : List (Vec ℝ)) (real : List ℕ),
          row = real ++ List.replicate (W - real.length) pad ∧
          P.Perm ((nbrsOf S c.pos r nz).map Site.pos) ∧
          P.Pairwise (fun p q => dist3 p c.pos ≤ dist3 q c.pos) ∧
          List.Forall₂ (fun p i => ∃ (k : ℕ) (t : Site ℝ) (n : Fin 3 → ℤ), i = k + 1 ∧
            s.sites[k]? = some t ∧ t.z = nz ∧ p = t.pos + ∑ a, (n a : ℝ) • s.lattice a) P real)
        (s.reformat_.sites.filter (fun c => c.z = cz)) rows ∧
      ∀ width, nbrsIndices s table cz nz width =
        if width = 0 then .ok rows
        else if rows ≠ [] ∧ width < W then .error .valueError
        else .ok (rows.map (fun l => l ++ List.replicate (width - W) 0)) := by
  obtain ⟨table, t1, t2⟩ := row_split A s S r hr sc m h hS (supercell_nodup s S hL hsep sc m h hS)
  obtain ⟨pad, hpad, _⟩ := C16_zero_means_none s hL 0
  have t3 : List.Forall₂ (fun c row => row.head?.map Prod.fst = some c.z ∧
      (rowNbrs row nz).Perm ((nbrsOf S c.pos r nz).map Site.pos) ∧
      (rowNbrs row nz).Pairwise (fun p q => dist3 p c.pos ≤ dist3 q c.pos)) s.reformat_.sites table := by
    refine t2.imp ?_
    rintro c row ⟨rest, k, rfl, g1, g2, g3⟩
    exact ⟨rfl, rowNbrs_spec S c r nz hnz rest k g1 g2 g3⟩
  have t4 := forall₂_filter (p := fun c : Site ℝ => decide (c.z = cz))
    (q := fun row : List NbrEntry => decide (row.head?.map Prod.fst = some cz)) t3 (by
      rintro c row ⟨g, _⟩
      rw [g]; simp)
  set centres := s.reformat_.sites.filter (fun c => decide (c.z = cz)) with hcentres
  set trows := table.filter (fun row => decide (row.head?.map Prod.fst = some cz)) with htrows
  have hmem : ∀ c, c ∈ centres ↔ c ∈ s.sites ∧ c.z = cz := by
    intro c
    rw [hcentres, List.mem_filter]
    simp [Struct.reformat_, (sortByKey_perm _ _).mem_iff]
  have hlens : trows.map (fun row => (rowNbrs row nz).length)
      = centres.map (fun c => (nbrsOf S c.pos r nz).length) := by
    symm
    rw [← List.forall₂_eq_eq_eq, List.forall₂_map_left_iff, List.forall₂_map_right_iff]
    refine t4.imp ?_
    rintro c row ⟨_, g, _⟩
    rw [g.length_eq, List.length_map]
  set W := runningMax (trows.map (fun row => (rowNbrs row nz).length)) with hW
  have hidx : ∀ t ∈ S.sites, t.z = nz → ∃ i, s.getSiteIndex t.pos = .ok i ∧
      ∃ (k : ℕ) (u : Site ℝ) (n : Fin 3 → ℤ), i = k + 1 ∧ s.sites[k]? = some u ∧ u.z = nz ∧
        t.pos = u.pos + ∑ a, (n a : ℝ) • s.lattice a := by
    intro t ht htz
    obtain ⟨u, hu, n, e1, e2⟩ := mem_supercell s S sc m h hS t ht
    obtain ⟨k, hk, rfl⟩ := List.mem_iff_getElem.1 hu
    refine ⟨k + 1, ?_, k, s.sites[k], n, rfl, List.getElem?_eq_getElem hk, by rw [← e1, htz], e2⟩
    rw [e2]
    exact C16_image_maps_back s hL k _ (List.getElem?_eq_getElem hk) n
      (fun j v hj hv => hsep k j _ v (Ne.symm hj) (List.getElem?_eq_getElem hk) hv)
  obtain ⟨rows, r1, r2⟩ := forall₂_mapM_ok (as := centres)
    (bs := trows.map (fun row => rowNbrs row nz ++ List.replicate (W - (rowNbrs row nz).length) (0 : Vec ℝ)))
    (f := fun l => l.mapM s.getSiteIndex)
    (Q := fun c l => ∃ P : List (Vec ℝ), l = P ++ List.replicate (W - P.length) 0 ∧
      P.Perm ((nbrsOf S c.pos r nz).map Site.pos) ∧
      P.Pairwise (fun p q => dist3 p c.pos ≤ dist3 q c.pos))
    (R := fun c row => ∃ (P : List (Vec ℝ)) (real : List ℕ),
          row = real ++ List.replicate (W - real.length) pad ∧
          P.Perm ((nbrsOf S c.pos r nz).map Site.pos) ∧
          P.Pairwise (fun p q => dist3 p c.pos ≤ dist3 q c.pos) ∧
          List.Forall₂ (fun p i => ∃ (k : ℕ) (t : Site ℝ) (n : Fin 3 → ℤ), i = k + 1 ∧
            s.sites[k]? = some t ∧ t.z = nz ∧ p = t.pos + ∑ a, (n a : ℝ) • s.lattice a) P real)
    (List.forall₂_map_right_iff.2 (t4.imp (fun c row g => ⟨_, rfl, g.2.1, g.2.2⟩)))
    (by
      rintro c l ⟨P, rfl, g1, g2⟩
      have hP : ∀ p ∈ P, ∃ i, s.getSiteIndex p = .ok i ∧
          ∃ (k : ℕ) (u : Site ℝ) (n : Fin 3 → ℤ), i = k + 1 ∧ s.sites[k]? = some u ∧ u.z = nz ∧
          p = u.pos + ∑ a, (n a : ℝ) • s.lattice a := by
        intro p hp
        obtain ⟨t, ht, rfl⟩ := List.mem_map.1 (g1.mem_iff.1 hp)
        unfold nbrsOf at ht
        rw [List.mem_filter] at ht
        simp only [decide_eq_true_eq] at ht
        exact hidx t ht.1 ht.2.1
      obtain ⟨real, e1, e2⟩ := forall₂_mapM_ok (as := P) (bs := P) (f := s.getSiteIndex)
        (Q := fun p q => p = q ∧ p ∈ P)
        (R := fun p i => ∃ (k : ℕ) (u : Site ℝ) (n : Fin 3 → ℤ), i = k + 1 ∧ s.sites[k]? = some u ∧
          u.z = nz ∧ p = u.pos + ∑ a, (n a : ℝ) • s.lattice a)
        (List.forall₂_same.2 (fun p hp => ⟨rfl, hp⟩)) (by rintro p q ⟨rfl, hp⟩; exact hP p hp)
      refine ⟨real ++ List.replicate (W - real.length) pad, ?_, P, real, rfl, g1, g2, e2⟩
      have e3 : (List.replicate (W - P.length) (0 : Vec ℝ)).mapM s.getSiteIndex
          = .ok (List.replicate (W - P.length) pad) := by
        rw [mapM_eq_ok, List.forall₂_iff_get]
        refine ⟨by simp, fun i hi hi' => ?_⟩
        simp only [List.get_eq_getElem, List.getElem_replicate, hpad]
      rw [List.mapM_append, e1, ok_bind, e3, ok_bind, e2.length_eq]
      rfl)
  refine ⟨table, pad, W, rows, t1, hpad, ?_, ?_, r2, ?_⟩
  · intro c hc hz
    rw [hW, hlens]
    exact le_runningMax (List.mem_map.2 ⟨c, (hmem c).2 ⟨hc, hz⟩, rfl⟩)
  · rintro ⟨c, hc, hz⟩
    have hne' : centres.map (fun c => (nbrsOf S c.pos r nz).length) ≠ [] :=
      List.ne_nil_of_mem (List.mem_map.2 ⟨c, (hmem c).2 ⟨hc, hz⟩, rfl⟩)
    obtain ⟨c', hc', he⟩ := List.mem_map.1 (runningMax_mem hne')
    exact ⟨c', ((hmem c').1 hc').1, ((hmem c').1 hc').2, by rw [he, hW, hlens]⟩
  · intro width
    unfold nbrsIndices
    have hte : table ≠ [] := by
      intro h0
      rw [h0] at t2
      have := t2.length_eq
      rw [Struct.reformat_, (sortByKey_perm _ _).length_eq] at this
      exact hne (List.length_eq_zero_iff.1 this)
    have hre : ∀ row ∈ table, row ≠ [] := by
      intro row hrow
      obtain ⟨i, hi, rfl⟩ := List.mem_iff_getElem.1 hrow
      obtain ⟨rest, k, g, _⟩ := t2.get (by rw [t2.length_eq]; exact hi) hi
      simp only [List.get_eq_getElem] at g
      rw [g]
      simp
    rw [if_neg (by simpa using hte), if_neg (by
      rw [List.any_eq_true]
      rintro ⟨row, h1, h2⟩
      exact hre row h1 (List.isEmpty_iff.1 h2))]
    simp only
    rw [← htrows, ← hW, r1, ok_bind]
    rfl

/-- Two Li atoms, one of them at the origin, and a Si atom next to the other, in a cubic cell of
edge 10. -/
noncomputable def originCell : Struct ℝ :=
  ⟨Matrix.diagonal (fun _ => 10), [⟨3, 0, none⟩, ⟨3, ![2, 0, 0], none⟩, ⟨14, ![2, 1, 0], none⟩]⟩

theorem diag_near {p q : Vec ℝ} (h : NearImage (Matrix.diagonal (fun _ => (10 : ℝ))) p q) (i : Fin 3) :
    ∃ (n : ℤ) (e : ℝ), |e| ≤ 1 / 10 ^ 10 ∧ p i - q i = 10 * (n + e) := by
  obtain ⟨n, e, he, hp⟩ := h
  refine ⟨n i, e i, he i, ?_⟩
  rw [hp]
  simp only [Pi.add_apply, Finset.sum_apply, Pi.smul_apply, Matrix.diagonal_apply, smul_eq_mul, mul_ite,
    mul_zero, Finset.sum_ite_eq', Finset.mem_univ, if_true]
  ring

theorem not_near_of (p q : Vec ℝ) (i : Fin 3) (h : 1 ≤ |p i - q i| ∧ |p i - q i| ≤ 9) :
    ¬ NearImage (Matrix.diagonal (fun _ => (10 : ℝ))) p q := by
  intro hn
  obtain ⟨n, e, he, hp⟩ := diag_near hn i
  rw [hp] at h
  obtain ⟨h1, h2⟩ := h
  rw [abs_le] at he h2
  have e1 : (1 : ℝ) / 10 ^ 10 ≤ 1 / 100 := by norm_num
  have hn1 : (n : ℝ) < 1 := by linarith [he.1, h2.2]
  have hn2 : (-1 : ℝ) < n := by linarith [he.2, h2.1]
  have hn3 : n < 1 := by exact_mod_cast hn1
  have hn4 : -1 < n := by exact_mod_cast hn2
  have hn0 : n = 0 := by omega
  rw [hn0] at h1
  rw [le_abs] at h1
  rcases h1 with h1 | h1 <;> push_cast at h1 <;> linarith [he.1, he.2]

theorem originCell_separated : Separated originCell := by
  intro i j t u hij ht hu
  have hi := (List.getElem?_eq_some_iff.1 ht).1
  have hj := (List.getElem?_eq_some_iff.1 hu).1
  simp only [originCell, List.length_cons, List.length_nil] at hi hj
  simp only [originCell] at ht hu ⊢
  interval_cases i <;> interval_cases j <;> simp at hij ht hu <;> subst ht <;> subst hu
  · exact not_near_of _ _ 0 (by norm_num)
  · exact not_near_of _ _ 0 (by norm_num)
  · exact not_near_of _ _ 0 (by norm_num)
  · exact not_near_of _ _ 1 (by norm_num)
  · exact not_near_of _ _ 0 (by norm_num)
  · exact not_near_of _ _ 1 (by norm_num)

theorem originCell_supercell : originCell.makeSupercell ![1, 1, 1] true =
    .ok ⟨Matrix.diagonal (fun i => ((![1, 1, 1] : Fin 3 → ℤ) i : ℝ)) * originCell.lattice,
      [⟨3, 0, none⟩, ⟨3, ![2, 0, 0], none⟩, ⟨14, ![2, 1, 0], none⟩]⟩ := by
  rw [makeSupercell_odd originCell ![0, 0, 0] (by decide)]
  have hsh : shiftsZ ![0, 0, 0] = [0] := by decide
  have hsites : superSites originCell ![0, 0, 0]
      = [⟨3, 0, none⟩, ⟨3, ![2, 0, 0], none⟩, ⟨14, ![2, 1, 0], none⟩] := by
    unfold superSites
    rw [hsh]
    simp [originCell]
  simp only [if_true, Struct.reformat_, hsites]
  rw [sortByKey_of_sorted]
  simp

end MaterSDK
