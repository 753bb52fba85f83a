import Verif.Spec.Crystal
import Verif.Lemmas.NeighIndex
import Verif.Props.DeepMD

/-! # Neighbours as points of the crystal -/

namespace MaterSDK

open Classical

theorem dist3_rel (p c : Vec ℝ) : dist3 p c = dist3 (p - c) 0 := by
  unfold dist3
  simp

theorem superSites_mem (s S : Struct ℝ) (sc : Fin 3 → ℤ) (m : Fin 3 → ℕ)
    (h : ∀ i, sc i = 2 * (m i : ℤ) + 1) (hS : s.makeSupercell sc true = .ok S) (u : Site ℝ) :
    u ∈ S.sites ↔ ∃ t ∈ s.sites, ∃ n : Fin 3 → ℤ, (∀ i, |n i| ≤ (m i : ℤ)) ∧
      u = ⟨t.z, t.pos + ∑ i, (n i : ℝ) • s.lattice i, none⟩ := by
  rw [makeSupercell_odd s m h] at hS
  cases hS
  simp only [if_true, Struct.reformat_]
  rw [(sortByKey_perm _ _).mem_iff]
  unfold superSites
  simp only [List.mem_flatMap, List.mem_map, mem_shiftsZ]
  constructor
  · rintro ⟨n, hn, t, ht, rfl⟩
    exact ⟨t, ht, n, hn, rfl⟩
  · rintro ⟨t, ht, n, hn, rfl⟩
    exact ⟨n, hn, t, ht, rfl⟩

/-- A supercell that reaches far enough has all atoms of the crystal around a primitive atom. -/
theorem reaches_complete (s S : Struct ℝ) (hL : s.lattice.det ≠ 0) (sc : Fin 3 → ℤ)
    (m : Fin 3 → ℕ) (h : ∀ i, sc i = 2 * (m i : ℤ) + 1) (hS : s.makeSupercell sc true = .ok S)
    (r : ℝ) (hr : Reaches s m r) (c : Site ℝ) (hc : c ∈ s.sites) (z : ℕ) (p : Vec ℝ)
    (hp : (z, p) ∈ crystal s) (hd : dist3 p c.pos ≤ r) : ∃ u ∈ S.sites, u.z = z ∧ u.pos = p := by
  obtain ⟨t, ht, n, he⟩ := hp
  obtain ⟨rfl, rfl⟩ := Prod.mk.inj he
  obtain ⟨f, hf, hlt⟩ := hr c hc t ht
  refine ⟨_, (superSites_mem s S sc m h hS _).2 ⟨t, ht, n, ?_, rfl⟩, rfl, rfl⟩
  intro i
  obtain ⟨hp, hb⟩ := coeff_bound s.lattice hL (fun k => f k + n k) i
  have e : ∑ k, (f k + n k) • s.lattice k = t.pos + ∑ i, (n i : ℝ) • s.lattice i - c.pos := by
    rw [add_sub_right_comm, hf, ← Finset.sum_add_distrib]
    simp only [add_smul]
  rw [e, ← dist3_rel] at hb
  have h1 : |(n i : ℝ)| * planeDist s.lattice i < ((m i : ℝ) + 1) * planeDist s.lattice i := by
    have h2 : |(n i : ℝ)| ≤ |f i + n i| + |f i| := by
      have := abs_sub (f i + n i) (f i)
      rwa [add_sub_cancel_left] at this
    have h3 : |(n i : ℝ)| * planeDist s.lattice i ≤ (|f i + n i| + |f i|) * planeDist s.lattice i :=
      mul_le_mul_of_nonneg_right h2 hp.le
    have := hlt i
    rw [add_mul] at h3
    linarith
  have h4 : |(n i : ℝ)| < (m i : ℝ) + 1 := lt_of_mul_lt_mul_right h1 hp.le
  have h5 : |n i| < (m i : ℤ) + 1 := by exact_mod_cast h4
  omega

theorem super_in_crystal (s S : Struct ℝ) (sc : Fin 3 → ℤ) (m : Fin 3 → ℕ)
    (h : ∀ i, sc i = 2 * (m i : ℤ) + 1) (hS : s.makeSupercell sc true = .ok S) (u : Site ℝ)
    (hu : u ∈ S.sites) : (u.z, u.pos) ∈ crystal s := by
  obtain ⟨t, ht, n, _, rfl⟩ := (superSites_mem s S sc m h hS u).1 hu
  exact ⟨t, ht, n, rfl⟩

/-- The crystal is invariant under its lattice vectors. -/
theorem crystal_shift (s : Struct ℝ) (z : ℕ) (p : Vec ℝ) (k : Fin 3 → ℤ) :
    (z, p + ∑ i, (k i : ℝ) • s.lattice i) ∈ crystal s ↔ (z, p) ∈ crystal s := by
  have key : ∀ (p : Vec ℝ) (k : Fin 3 → ℤ), (z, p) ∈ crystal s →
      (z, p + ∑ i, (k i : ℝ) • s.lattice i) ∈ crystal s := by
    rintro p k ⟨t, ht, n, he⟩
    obtain ⟨rfl, rfl⟩ := Prod.mk.inj he
    refine ⟨t, ht, fun i => n i + k i, ?_⟩
    simp only [Int.cast_add, add_smul, Finset.sum_add_distrib, add_assoc]
  refine ⟨fun hp => ?_, key p k⟩
  have := key _ (fun i => -k i) hp
  simpa [add_assoc, ← Finset.sum_add_distrib] using this

/-- The relative positions of the neighbours of one element. -/
noncomputable def relNbrs (S : Struct ℝ) (p : Vec ℝ) (r : ℝ) (e : ℕ) : List (Vec ℝ) :=
  (nbrsOf S p r e).map (fun t => t.pos - p)

theorem relNbrs_nodup (s S : Struct ℝ) (hL : s.lattice.det ≠ 0) (hsep : Separated s) (sc : Fin 3 → ℤ)
    (m : Fin 3 → ℕ) (h : ∀ i, sc i = 2 * (m i : ℤ) + 1) (hS : s.makeSupercell sc true = .ok S)
    (p : Vec ℝ) (r : ℝ) (e : ℕ) : (relNbrs S p r e).Nodup := by
  have h1 := supercell_nodup s S hL hsep sc m h hS
  have h2 : ((nbrsOf S p r e).map Site.pos).Nodup :=
    h1.sublist (List.filter_sublist.map _)
  have h3 : relNbrs S p r e = ((nbrsOf S p r e).map Site.pos).map (fun q => q - p) := by
    unfold relNbrs; rw [List.map_map]; rfl
  rw [h3]
  exact h2.map (fun a b hab => sub_left_injective hab)

theorem relNbrs_mem (s S : Struct ℝ) (hL : s.lattice.det ≠ 0) (sc : Fin 3 → ℤ)
    (m : Fin 3 → ℕ) (h : ∀ i, sc i = 2 * (m i : ℤ) + 1) (hS : s.makeSupercell sc true = .ok S)
    (r : ℝ) (hr : Reaches s m r) (c : Site ℝ) (hc : c ∈ s.sites) (e : ℕ) (q : Vec ℝ) :
    q ∈ relNbrs S c.pos r e ↔ (e, c.pos + q) ∈ crystal s ∧ 0 < dist3 q 0 ∧ dist3 q 0 ≤ r := by
  unfold relNbrs nbrsOf
  simp only [List.mem_map, List.mem_filter, decide_eq_true_eq]
  constructor
  · rintro ⟨u, ⟨hu, rfl, h1, h2⟩, rfl⟩
    rw [← dist3_rel, add_sub_cancel]
    exact ⟨super_in_crystal s S sc m h hS u hu, h1, h2⟩
  · rintro ⟨h1, h2, h3⟩
    have e1 : dist3 (c.pos + q) c.pos = dist3 q 0 := by rw [dist3_rel, add_sub_cancel_left]
    obtain ⟨u, hu, hz, hp⟩ := reaches_complete s S hL sc m h hS r hr c hc e _ h1 (by rw [e1]; exact h3)
    exact ⟨u, ⟨hu, hz, by rw [hp, e1]; exact ⟨h2, h3⟩⟩, by rw [hp, add_sub_cancel_left]⟩

/-- Equal crystals have equal neighbours around centres that differ by a lattice vector. -/
theorem relNbrs_perm (s S s' S' : Struct ℝ) (hL : s.lattice.det ≠ 0) (hL' : s'.lattice.det ≠ 0)
    (hsep : Separated s) (hsep' : Separated s') (sc sc' : Fin 3 → ℤ) (m m' : Fin 3 → ℕ)
    (h : ∀ i, sc i = 2 * (m i : ℤ) + 1) (h' : ∀ i, sc' i = 2 * (m' i : ℤ) + 1)
    (hS : s.makeSupercell sc true = .ok S) (hS' : s'.makeSupercell sc' true = .ok S') (r : ℝ)
    (hr : Reaches s m r) (hr' : Reaches s' m' r) (hcr : crystal s = crystal s') (c c' : Site ℝ)
    (hc : c ∈ s.sites) (hc' : c' ∈ s'.sites) (k : Fin 3 → ℤ)
    (hk : c'.pos = c.pos + ∑ i, (k i : ℝ) • s.lattice i) (e : ℕ) :
    (relNbrs S c.pos r e).Perm (relNbrs S' c'.pos r e) := by
  rw [List.perm_ext_iff_of_nodup (relNbrs_nodup s S hL hsep sc m h hS _ _ _)
    (relNbrs_nodup s' S' hL' hsep' sc' m' h' hS' _ _ _)]
  intro q
  rw [relNbrs_mem s S hL sc m h hS r hr c hc, relNbrs_mem s' S' hL' sc' m' h' hS' r hr' c' hc', ← hcr, hk,
    add_right_comm, crystal_shift]

/-- Every atom of the second description is an image of an atom of the first. -/
theorem crystal_partner (s s' : Struct ℝ) (hcr : crystal s = crystal s') (c' : Site ℝ)
    (hc' : c' ∈ s'.sites) : ∃ c ∈ s.sites, c.z = c'.z ∧
      ∃ k : Fin 3 → ℤ, c'.pos = c.pos + ∑ i, (k i : ℝ) • s.lattice i := by
  have : (c'.z, c'.pos) ∈ crystal s := by
    rw [hcr]
    exact ⟨c', hc', 0, by simp⟩
  obtain ⟨c, hc, k, he⟩ := this
  obtain ⟨e1, e2⟩ := Prod.mk.inj he
  exact ⟨c, hc, e1.symm, k, e2⟩

/-- The row of a neighbour at relative position `q`. -/
noncomputable def relRow (rcut rs : ℝ) (q : Vec ℝ) : Fin 4 → ℝ :=
  ![getS rcut rs (dist3 q 0), getS rcut rs (dist3 q 0) * q 0 / dist3 q 0,
    getS rcut rs (dist3 q 0) * q 1 / dist3 q 0, getS rcut rs (dist3 q 0) * q 2 / dist3 q 0]

/-- The environment matrix by relative positions. -/
theorem env_rel (A : ArgSort) (s S : Struct ℝ) (hL : s.lattice.det ≠ 0) (hsep : Separated s)
    (hne : s.sites ≠ []) (rcut rs : ℝ) (hr : 0 ≤ rcut) (hrs : rs < rcut) (sc : Fin 3 → ℤ)
    (m : Fin 3 → ℕ) (h : ∀ i, sc i = 2 * (m i : ℤ) + 1) (hS : s.makeSupercell sc true = .ok S)
    (cz nz : ℕ) (hnz : 0 < nz) (width : ℕ)
    (hw : ∀ c ∈ s.sites, c.z = cz → (nbrsOf S c.pos rcut nz).length ≤ width) :
    ∃ (table : List (List NbrEntry)) (rows : List (List (Fin 4 → ℝ))),
      neighborTable A s rcut sc = .ok table ∧ getTildeR rcut rs table cz nz width = .ok rows ∧
      List.Forall₂ (fun c row => ∃ qs : List (Vec ℝ), qs.Perm (relNbrs S c.pos rcut nz) ∧
          qs.Pairwise (fun a b => dist3 a 0 ≤ dist3 b 0) ∧
          row = qs.map (relRow rcut rs) ++ List.replicate (width - qs.length) 0)
        (s.reformat_.sites.filter (fun c => c.z = cz)) rows := by
  obtain ⟨table, rows, h1, h2, h3⟩ :=
    C26_structure A s S hL hsep hne rcut rs hr hrs sc m h hS cz nz hnz width hw
  refine ⟨table, rows, h1, h2, ?_⟩
  have hmem : ∀ c ∈ s.reformat_.sites.filter (fun c => decide (c.z = cz)), c ∈ s.sites ∧ c.z = cz :=
    fun c hc => centres_mem hc
  clear h1 h2
  generalize s.reformat_.sites.filter (fun c => decide (c.z = cz)) = centres at *
  induction h3 with
  | nil => exact .nil
  | @cons c row cs rows' e _ ih =>
    refine .cons ?_ (ih (fun c hc => hmem c (by simp [hc])))
    obtain ⟨hl, ts, t1, t2, t3, t4⟩ := e
    obtain ⟨hcs, hcz⟩ := hmem c (by simp)
    have hlen : ts.length ≤ width := by rw [t1.length_eq]; exact hw c hcs hcz
    refine ⟨ts.map (fun t => t.pos - c.pos), t1.map _, ?_, ?_⟩
    · rw [List.pairwise_map]
      simpa only [← dist3_rel] using t2
    · apply List.ext_getElem?
      intro i
      rw [List.map_map, List.length_map]
      by_cases hi : i < ts.length
      · rw [List.getElem?_append_left (by simpa using hi), t3 i _ (List.getElem?_eq_getElem hi)]
        simp [hi, relRow, ← dist3_rel]
      · rw [List.getElem?_append_right (by simpa using hi)]
        by_cases hi2 : i < width
        · rw [t4 i (by omega) hi2, List.getElem?_replicate, if_pos (by simp; omega)]
        · rw [List.getElem?_eq_none (by omega), List.getElem?_replicate, if_neg (by simp; omega)]

/-- Rows of centres with the same surroundings. -/
theorem relRows_eq (rcut rs : ℝ) (width : ℕ) (l l' qs qs' : List (Vec ℝ)) (hl : l.Perm l')
    (h1 : qs.Perm l) (h1' : qs'.Perm l') (h2 : qs.Pairwise (fun a b => dist3 a 0 ≤ dist3 b 0))
    (h2' : qs'.Pairwise (fun a b => dist3 a 0 ≤ dist3 b 0)) :
    (qs.map (relRow rcut rs) ++ List.replicate (width - qs.length) 0).Perm
      (qs'.map (relRow rcut rs) ++ List.replicate (width - qs'.length) 0) ∧
    (qs.map (relRow rcut rs) ++ List.replicate (width - qs.length) (0 : Fin 4 → ℝ)).map (fun x => x 0) =
      (qs'.map (relRow rcut rs) ++ List.replicate (width - qs'.length) (0 : Fin 4 → ℝ)).map (fun x => x 0) := by
  have hp : qs.Perm qs' := h1.trans (hl.trans h1'.symm)
  have hd : qs.map (fun q => dist3 q 0) = qs'.map (fun q => dist3 q 0) := by
    refine List.Perm.eq_of_pairwise (le := (· ≤ ·)) (fun a b _ _ => le_antisymm) ?_ ?_ (hp.map _)
    · rw [List.pairwise_map]; exact h2
    · rw [List.pairwise_map]; exact h2'
  have hw : ∀ l : List (Vec ℝ), (l.map (relRow rcut rs)).map (fun x => x 0)
      = (l.map (fun q => dist3 q 0)).map (getS rcut rs) := by
    intro l
    rw [List.map_map, List.map_map]
    rfl
  rw [hp.length_eq]
  refine ⟨(hp.map _).append_right _, ?_⟩
  rw [List.map_append, List.map_append, hw, hw, hd]

end MaterSDK
