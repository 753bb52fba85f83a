import Verif.Lemmas.FFInfer
import Verif.Lemmas.NeighIndex
import Verif.Props.DeepMD

/-!
# C177: features of a structure for inference
-/

namespace MaterSDK

open Classical

/-- C177: with a width for every element that is at least the number of neighbours of that element, the
result has exactly one entry per ordered pair of elements of the structure, under the key
`"centre_neighbour"`. The entry has one row per atom of the centre element, in the order of the sorted
structure; the row lists the neighbours of the neighbour element by distance and is filled up with
zeros to the width given for the neighbour element. The order in which python lists the set of
elements is arbitrary. -/
theorem C177_features (A : ArgSort) (s S : Struct ℝ) (hL : s.lattice.det ≠ 0) (hsep : Separated s)
    (hne : s.sites ≠ []) (hpos : ∀ t ∈ s.sites, 0 < t.z) (rcut rs : ℝ) (hr : 0 ≤ rcut) (hrs : rs < rcut)
    (sc : Fin 3 → ℤ) (m : Fin 3 → ℕ) (h : ∀ i, sc i = 2 * (m i : ℤ) + 1)
    (hS : s.makeSupercell sc true = .ok S) (order : List ℕ) (ho : order.Nodup)
    (hmem : ∀ z, z ∈ order ↔ ∃ t ∈ s.sites, t.z = z) (widths : List (ℕ × ℕ))
    (hk : (widths.map Prod.fst).Nodup) (hall : ∀ t ∈ s.sites, ∃ w, (t.z, w) ∈ widths)
    (hw : ∀ z w, (z, w) ∈ widths → ∀ c ∈ s.sites, (nbrsOf S c.pos rcut z).length ≤ w) :
    ∃ d : List (Str × List (List (Fin 4 → ℝ))),
      ffTildeR A s rcut rs sc order (widths.map (fun p => (p.1, (p.2 : ℤ)))) = .ok d ∧
      (d.map Prod.fst).Nodup ∧
      (∀ k, k ∈ d.map Prod.fst ↔ ∃ a ∈ s.sites, ∃ b ∈ s.sites, k = showNat a.z ++ ['_'] ++ showNat b.z) ∧
      ∀ (cz nz w : ℕ) (block : List (List (Fin 4 → ℝ))), (nz, w) ∈ widths →
        (showNat cz ++ ['_'] ++ showNat nz, block) ∈ d →
        List.Forall₂ (fun c row => row.length = w ∧
          ∃ ts : List (Site ℝ), ts.Perm (nbrsOf S c.pos rcut nz) ∧
            ts.Pairwise (fun a b => dist3 a.pos c.pos ≤ dist3 b.pos c.pos) ∧
            (∀ (i : ℕ) (t : Site ℝ), ts[i]? = some t →
              let r := dist3 t.pos c.pos
              let q := getS rcut rs r
              row[i]? = some ![q, q * (t.pos 0 - c.pos 0) / r, q * (t.pos 1 - c.pos 1) / r,
                q * (t.pos 2 - c.pos 2) / r]) ∧
            (∀ i, ts.length ≤ i → i < w → row[i]? = some 0))
          (s.reformat_.sites.filter (fun c => c.z = cz)) block := by
  obtain ⟨t0, ht0⟩ := List.exists_mem_of_ne_nil _ hne
  obtain ⟨table, _, _, htab, _⟩ := pair_sites A s S hL hsep hne rcut hr sc m h hS 0 t0.z (hpos _ ht0)
  have hk' : ((widths.map (fun p => (p.1, (p.2 : ℤ)))).map Prod.fst).Nodup := by
    rw [List.map_map]; exact hk
  have key : ∀ p : ℕ × ℕ, p ∈ order.product order → ∃ (w : ℕ) (b : List (List (Fin 4 → ℝ))),
      (p.2, w) ∈ widths ∧ getTildeR rcut rs table p.1 p.2 (w : ℤ) = .ok b ∧
        List.Forall₂ (fun c row => row.length = w ∧
          ∃ ts : List (Site ℝ), ts.Perm (nbrsOf S c.pos rcut p.2) ∧
            ts.Pairwise (fun a b => dist3 a.pos c.pos ≤ dist3 b.pos c.pos) ∧
            (∀ (i : ℕ) (t : Site ℝ), ts[i]? = some t →
              let r := dist3 t.pos c.pos
              let q := getS rcut rs r
              row[i]? = some ![q, q * (t.pos 0 - c.pos 0) / r, q * (t.pos 1 - c.pos 1) / r,
                q * (t.pos 2 - c.pos 2) / r]) ∧
            (∀ i, ts.length ≤ i → i < w → row[i]? = some 0))
          (s.reformat_.sites.filter (fun c => c.z = p.1)) b := by
    intro p hp
    obtain ⟨_, hp2⟩ := List.mem_product.1 hp
    obtain ⟨t, ht, htz⟩ := (hmem _).1 hp2
    obtain ⟨w, hw1⟩ := hall t ht
    rw [htz] at hw1
    obtain ⟨table', b, g1, g2, g3⟩ := C26_structure A s S hL hsep hne rcut rs hr hrs sc m h hS p.1 p.2
      (htz ▸ hpos t ht) w (fun c hc _ => hw _ _ hw1 c hc)
    rw [htab] at g1
    cases g1
    exact ⟨w, b, hw1, g2, g3⟩
  choose! wd blk b1 b2 b3 using key
  have hget : ∀ p ∈ order.product order,
      pyDictGet (widths.map (fun p => (p.1, (p.2 : ℤ)))) p.2 = .ok ((wd p : ℕ) : ℤ) := by
    intro p hp
    rw [pyDictGet_ok hk']
    exact List.mem_map.2 ⟨_, b1 p hp, rfl⟩
  have hfold := ff_fold rcut rs table _ blk (order.product order) (ho.product ho) []
    (by simp) (fun p hp => ⟨_, hget p hp, b2 p hp⟩)
  have hkeys : ∀ a b : ℕ, showNat a ++ ['_'] ++ showNat b = pairKey a b := by
    intro a b; simp [pairKey]
  refine ⟨_, by unfold ffTildeR; rw [htab, ok_bind]; exact hfold, ?_, ?_, ?_⟩
  · rw [List.nil_append, List.map_map]
    refine List.Nodup.map_on ?_ (ho.product ho)
    intro x _ y _ hxy
    obtain ⟨e1, e2⟩ := pairKey_inj hxy
    exact Prod.ext e1 e2
  · intro k
    simp only [List.nil_append, List.map_map, List.mem_map, Function.comp_def, hkeys]
    constructor
    · rintro ⟨p, hp, rfl⟩
      obtain ⟨h1, h2⟩ := List.mem_product.1 hp
      obtain ⟨a, ha, ha2⟩ := (hmem _).1 h1
      obtain ⟨b, hb, hb2⟩ := (hmem _).1 h2
      exact ⟨a, ha, b, hb, by rw [ha2, hb2]⟩
    · rintro ⟨a, ha, b, hb, rfl⟩
      exact ⟨(a.z, b.z), List.mem_product.2 ⟨(hmem _).2 ⟨a, ha, rfl⟩, (hmem _).2 ⟨b, hb, rfl⟩⟩, rfl⟩
  · intro cz nz w block hwm hin
    rw [hkeys, List.nil_append, List.mem_map] at hin
    obtain ⟨p, hp, he⟩ := hin
    obtain ⟨e1, e2⟩ := Prod.mk.inj he
    obtain ⟨rfl, rfl⟩ := pairKey_inj e1
    subst e2
    have : w = wd p := by
      have h1 := (pyDictGet_ok hk _ _).2 hwm
      rw [(pyDictGet_ok hk _ _).2 (b1 p hp)] at h1
      exact (Except.ok.inj h1).symm
    subst this
    exact b3 p hp

/-- C177: an element of the structure without a width is refused with a `KeyError`, if the widths that
are given suffice. -/
theorem C177_missing_element (A : ArgSort) (s S : Struct ℝ) (hL : s.lattice.det ≠ 0) (hsep : Separated s)
    (hne : s.sites ≠ []) (hpos : ∀ t ∈ s.sites, 0 < t.z) (rcut rs : ℝ) (hr : 0 ≤ rcut)
    (sc : Fin 3 → ℤ) (m : Fin 3 → ℕ) (h : ∀ i, sc i = 2 * (m i : ℤ) + 1)
    (hS : s.makeSupercell sc true = .ok S) (order : List ℕ)
    (hmem : ∀ z, z ∈ order ↔ ∃ t ∈ s.sites, t.z = z) (widths : List (ℕ × ℕ))
    (hk : (widths.map Prod.fst).Nodup)
    (hw : ∀ z w, (z, w) ∈ widths → ∀ c ∈ s.sites, (nbrsOf S c.pos rcut z).length ≤ w)
    (t : Site ℝ) (ht : t ∈ s.sites) (hmiss : ∀ w, (t.z, w) ∉ widths) :
    ffTildeR A s rcut rs sc order (widths.map (fun p => (p.1, (p.2 : ℤ)))) = .error .keyError := by
  obtain ⟨table, _, _, htab, _⟩ := pair_sites A s S hL hsep hne rcut hr sc m h hS 0 t.z (hpos _ ht)
  have hk' : ((widths.map (fun p => (p.1, (p.2 : ℤ)))).map Prod.fst).Nodup := by
    rw [List.map_map]; exact hk
  have hpair : ∀ p : ℕ × ℕ, p ∈ order.product order → ∃ (w : ℕ) (rows : List (List NbrEntry)),
      extractFeaturePair table p.1 p.2 = .ok (w, rows) ∧
      (w = 0 ∨ ∃ c ∈ s.sites, c.z = p.1 ∧ (nbrsOf S c.pos rcut p.2).length = w) := by
    intro p hp
    obtain ⟨_, hp2⟩ := List.mem_product.1 hp
    obtain ⟨u, hu, huz⟩ := (hmem _).1 hp2
    obtain ⟨table', w, rows, g1, g2, _, g3, _⟩ := pair_sites A s S hL hsep hne rcut hr sc m h hS p.1 p.2
      (huz ▸ hpos u hu)
    rw [htab] at g1
    cases g1
    exact ⟨w, rows, g2, g3⟩
  have hbad : ∀ p ∈ order.product order, (∀ w, (p.2, w) ∉ widths) →
      ∀ d, ffPair rcut rs table (widths.map (fun p => (p.1, (p.2 : ℤ)))) d p = .error .keyError := by
    intro p hp hno d
    obtain ⟨w, rows, g1, _⟩ := hpair p hp
    unfold ffPair pairTildeR
    rw [g1, (pyDictGet_err _ _).2 (by
      intro v hv
      obtain ⟨q, hq, he⟩ := List.mem_map.1 hv
      obtain ⟨e1, _⟩ := Prod.mk.inj he
      exact hno q.2 (by rw [← e1]; exact hq))]
    rfl
  unfold ffTildeR
  rw [htab, ok_bind]
  apply ff_fold_error
  · intro p hp
    by_cases hex : ∃ w, (p.2, w) ∈ widths
    · left
      intro d
      obtain ⟨w, hw1⟩ := hex
      obtain ⟨w', rows, g1, g2⟩ := hpair p hp
      have hle : w' ≤ w := by
        rcases g2 with rfl | ⟨c, hc, _, g2⟩
        · omega
        · rw [← g2]; exact hw _ _ hw1 c hc
      rw [ffPair_some _ _ _ _ _ _ (w : ℤ) ((pyDictGet_ok hk' _ _).2 (List.mem_map.2 ⟨_, hw1, rfl⟩))]
      unfold getTildeR pairTildeR
      rw [g1]
      simp only [ok_bind]
      show ∃ d', (padWidth 0 (w', rows.map (List.map (envRow rcut rs))) (w : ℤ) >>= _) = Except.ok d'
      rw [padWidth_ok _ _ _ _ hle]
      exact ⟨_, rfl⟩
    · right
      exact hbad p hp (fun w hw1 => hex ⟨w, hw1⟩)
  · exact ⟨(t.z, t.z), List.mem_product.2 ⟨(hmem _).2 ⟨t, ht, rfl⟩, (hmem _).2 ⟨t, ht, rfl⟩⟩,
      hbad _ (List.mem_product.2 ⟨(hmem _).2 ⟨t, ht, rfl⟩, (hmem _).2 ⟨t, ht, rfl⟩⟩) hmiss⟩

/-- C177, rejected widths: if some atom has more neighbours of an element than the width given for it,
the call is refused with a `ValueError`. Missing: the width 0, for which see `C177_violated_width`. -/
theorem C177_too_small_partial (A : ArgSort) (s S : Struct ℝ) (hL : s.lattice.det ≠ 0)
    (hsep : Separated s) (hpos : ∀ t ∈ s.sites, 0 < t.z) (rcut rs : ℝ) (hr : 0 ≤ rcut)
    (sc : Fin 3 → ℤ) (m : Fin 3 → ℕ) (h : ∀ i, sc i = 2 * (m i : ℤ) + 1)
    (hS : s.makeSupercell sc true = .ok S) (order : List ℕ)
    (hmem : ∀ z, z ∈ order ↔ ∃ t ∈ s.sites, t.z = z) (widths : List (ℕ × ℤ))
    (hk : (widths.map Prod.fst).Nodup) (hall : ∀ t ∈ s.sites, ∃ w, (t.z, w) ∈ widths)
    (c b : Site ℝ) (hc : c ∈ s.sites) (hb : b ∈ s.sites) (w : ℤ) (hwb : (b.z, w) ∈ widths)
    (hsmall : w < (nbrsOf S c.pos rcut b.z).length) (h0 : w ≠ 0) :
    ffTildeR A s rcut rs sc order widths = .error .valueError := by
  have hne : s.sites ≠ [] := List.ne_nil_of_mem hc
  obtain ⟨table, _, _, htab, _⟩ := pair_sites A s S hL hsep hne rcut hr sc m h hS 0 b.z (hpos _ hb)
  unfold ffTildeR
  rw [htab, ok_bind]
  have hpb : (c.z, b.z) ∈ order.product order :=
    List.mem_product.2 ⟨(hmem _).2 ⟨c, hc, rfl⟩, (hmem _).2 ⟨b, hb, rfl⟩⟩
  apply ff_fold_error
  · intro p hp
    obtain ⟨_, hp2⟩ := List.mem_product.1 hp
    obtain ⟨u, hu, huz⟩ := (hmem _).1 hp2
    obtain ⟨table', w', rows, g1, g2, _, _, _⟩ := pair_sites A s S hL hsep hne rcut hr sc m h hS p.1 p.2
      (huz ▸ hpos u hu)
    rw [htab] at g1
    cases g1
    obtain ⟨v, hv⟩ := hall u hu
    rw [huz] at hv
    have hg := (pyDictGet_ok hk _ _).2 hv
    simp only [ffPair_some _ _ _ _ _ _ v hg]
    unfold getTildeR pairTildeR
    simp only [g2, ok_bind]
    show (∀ d, ∃ d', (padWidth 0 (w', rows.map (List.map (envRow rcut rs))) v >>= _) = Except.ok d') ∨
      ∀ d, (padWidth 0 (w', rows.map (List.map (envRow rcut rs))) v >>= _) = Except.error .valueError
    unfold padWidth
    split_ifs
    · exact .inr fun d => rfl
    · exact .inl fun d => ⟨_, rfl⟩
    · exact .inl fun d => ⟨_, rfl⟩
    · exact .inr fun d => rfl
  · refine ⟨_, hpb, fun d => ?_⟩
    obtain ⟨table', w', rows, g1, g2, g3, _, _⟩ := pair_sites A s S hL hsep hne rcut hr sc m h hS c.z b.z
      (hpos b hb)
    rw [htab] at g1
    cases g1
    rw [ffPair_some _ _ _ _ _ _ w ((pyDictGet_ok hk _ _).2 hwb)]
    have := g3 c hc rfl
    rw [C26_too_small rcut rs table c.z b.z w' rows g2 w (by omega), if_neg (by tauto)]
    rfl

theorem originCell_mem (z : ℕ) : z ∈ [3, 14] ↔ ∃ t ∈ originCell.sites, t.z = z := by
  simp [originCell, eq_comm]

theorem originCell_le_one (c : Site ℝ) (hc : c ∈ originCell.sites) (z : ℕ) :
    (nbrsOf ⟨Matrix.diagonal (fun i => ((![1, 1, 1] : Fin 3 → ℤ) i : ℝ)) * originCell.lattice,
      [⟨3, 0, none⟩, ⟨3, ![2, 0, 0], none⟩, ⟨14, ![2, 1, 0], none⟩]⟩ c.pos 1 z).length ≤ 1 := by
  have d1 : dist3 ![2, 1, 0] 0 = Real.sqrt 5 := by
    simp [dist3, Fin.sum_univ_three]; norm_num
  have d1' : dist3 0 ![2, 1, 0] = Real.sqrt 5 := by
    simp [dist3, Fin.sum_univ_three]; norm_num
  have d2 : dist3 ![2, 1, 0] ![2, 0, 0] = 1 := by simp [dist3, Fin.sum_univ_three]
  have d2' : dist3 ![2, 0, 0] ![2, 1, 0] = 1 := by simp [dist3, Fin.sum_univ_three]
  have d3 : dist3 ![2, 0, 0] 0 = 2 := by simp [dist3, Fin.sum_univ_three]
  have d3' : dist3 0 ![2, 0, 0] = 2 := by simp [dist3, Fin.sum_univ_three]
  have d0 : ∀ p, dist3 p p = 0 := by intro p; simp [dist3]
  have d5 : ¬ Real.sqrt 5 ≤ 1 := by
    rw [not_le, Real.lt_sqrt (by norm_num)]; norm_num
  simp only [originCell, List.mem_cons, List.not_mem_nil, or_false] at hc
  rcases hc with rfl | rfl | rfl
  · simp [nbrsOf, d0, d1, d3, d5]
  · simp [nbrsOf, d0, d2, d3', List.filter_cons]
    split <;> simp
  · simp [nbrsOf, d0, d1', d2', d5, List.filter_cons]
    split <;> simp

/-- The hypotheses of `C177_features` are met by a cell with three atoms. -/
example (A : ArgSort) : ∃ d, ffTildeR A originCell 1 (1 / 2) ![1, 1, 1] [14, 3] [(3, 1), (14, 2)] = .ok d ∧
    (d.map Prod.fst).Nodup ∧ chars% "3_14" ∈ d.map Prod.fst := by
  obtain ⟨d, h1, h2, h3, _⟩ := C177_features A originCell _ (by simp [originCell, Matrix.det_diagonal])
    originCell_separated (by simp [originCell]) (by simp [originCell]) 1 (1 / 2) (by norm_num)
    (by norm_num) ![1, 1, 1] ![0, 0, 0] (by decide) originCell_supercell [14, 3] (by decide)
    (by intro z; rw [← originCell_mem]; simp [or_comm]) [(3, 1), (14, 2)] (by decide)
    (by intro t ht; simp [originCell] at ht; rcases ht with rfl | rfl | rfl <;> simp)
    (by
      intro z w hw c hc
      have := originCell_le_one c hc z
      simp at hw
      omega)
  refine ⟨d, by simpa using h1, h2, (h3 _).2 ⟨⟨3, 0, none⟩, by simp [originCell], ⟨14, ![2, 1, 0], none⟩,
    by simp [originCell], ?_⟩⟩
  simp [showNat, digitChar]

/-- The width of Si is missing. -/
example (A : ArgSort) :
    ffTildeR A originCell 1 (1 / 2) ![1, 1, 1] [3, 14] [(3, 1)] = .error .keyError :=
  C177_missing_element A originCell _ (by simp [originCell, Matrix.det_diagonal])
    originCell_separated (by simp [originCell]) (by simp [originCell]) 1 (1 / 2) (by norm_num)
    ![1, 1, 1] ![0, 0, 0] (by decide) originCell_supercell [3, 14] originCell_mem [(3, 1)] (by decide)
    (by
      intro z w hw c hc
      have := originCell_le_one c hc z
      simp at hw
      omega) ⟨14, ![2, 1, 0], none⟩ (by simp [originCell]) (by simp)

/-- A negative width. -/
example (A : ArgSort) :
    ffTildeR A originCell 1 (1 / 2) ![1, 1, 1] [3, 14] [(3, 1), (14, -1)] = .error .valueError :=
  C177_too_small_partial A originCell _ (by simp [originCell, Matrix.det_diagonal])
    originCell_separated (by simp [originCell]) 1 (1 / 2) (by norm_num)
    ![1, 1, 1] ![0, 0, 0] (by decide) originCell_supercell [3, 14] originCell_mem _ (by decide)
    (by intro t ht; simp [originCell] at ht; rcases ht with rfl | rfl | rfl <;> simp)
    ⟨3, 0, none⟩ ⟨14, ![2, 1, 0], none⟩ (by simp [originCell]) (by simp [originCell]) (-1) (by simp)
    (by omega) (by omega)

/-- C177 fails for the width 0: the Li atom at (2,0,0) has a Si neighbour at distance 1, yet with the
width 0 for Si the call succeeds and the block has no columns. -/
theorem C177_violated_width (A : ArgSort) :
    ∃ (s S : Struct ℝ) (c : Site ℝ) (d : List (Str × List (List (Fin 4 → ℝ)))),
      s.lattice.det ≠ 0 ∧ Separated s ∧ s.makeSupercell ![1, 1, 1] true = .ok S ∧ c ∈ s.sites ∧ c.z = 3 ∧
      (nbrsOf S c.pos 1 14).length = 1 ∧
      ffTildeR A s 1 (1 / 2) ![1, 1, 1] [3, 14] [(3, 1), (14, 0)] = .ok d ∧
      (chars% "3_14", [[], []]) ∈ d := by
  have hL : originCell.lattice.det ≠ 0 := by simp [originCell, Matrix.det_diagonal]
  have hone : (nbrsOf ⟨Matrix.diagonal (fun i => ((![1, 1, 1] : Fin 3 → ℤ) i : ℝ)) * originCell.lattice,
      [⟨3, 0, none⟩, ⟨3, ![2, 0, 0], none⟩, ⟨14, ![2, 1, 0], none⟩]⟩ ![2, 0, 0] 1 14).length = 1 := by
    simp [nbrsOf, dist3, Fin.sum_univ_three]
  have hsp : ∀ cz nz : ℕ, 0 < nz → ∃ (table : List (List NbrEntry)) (w : ℕ) (rows : List (List NbrEntry)),
      neighborTable A originCell 1 ![1, 1, 1] = .ok table ∧
      extractFeaturePair table cz nz = .ok (w, rows) ∧ w ≤ 1 ∧
      (cz = 3 → nz = 14 → w = 1) ∧
      rows.length = (originCell.reformat_.sites.filter (fun c => c.z = cz)).length := by
    intro cz nz hnz
    obtain ⟨table, w, rows, g1, g2, g3, g4, g5⟩ := pair_sites A originCell _ hL originCell_separated
      (by simp [originCell]) 1 (by norm_num) ![1, 1, 1] ![0, 0, 0] (by decide) originCell_supercell cz nz
      hnz
    have hle : w ≤ 1 := by
      rcases g4 with rfl | ⟨c, hc, _, g4⟩
      · omega
      · rw [← g4]; exact originCell_le_one c hc nz
    refine ⟨table, w, rows, g1, g2, hle, ?_, g5.length_eq.symm⟩
    rintro rfl rfl
    have := g3 ⟨3, ![2, 0, 0], none⟩ (by simp [originCell]) rfl
    rw [hone] at this
    omega
  obtain ⟨table, _, _, htab, _⟩ := hsp 3 3 (by norm_num)
  have hblk : ∀ p : ℕ × ℕ, p ∈ [3, 14].product [3, 14] → ∃ (v : ℤ) (b : List (List (Fin 4 → ℝ))),
      pyDictGet [(3, (1 : ℤ)), (14, 0)] p.2 = .ok v ∧ getTildeR 1 (1 / 2) table p.1 p.2 v = .ok b ∧
      (p = (3, 14) → b = [[], []]) := by
    intro p hp
    have hp2 : p.2 = 3 ∨ p.2 = 14 := by
      have := (List.mem_product.1 hp).2
      simpa using this
    obtain ⟨table', w, rows, g1, g2, g3, g4, g5⟩ := hsp p.1 p.2 (by omega)
    rw [htab] at g1
    cases g1
    rcases hp2 with hp2 | hp2
    · refine ⟨1, _, by rw [hp2]; rfl, getTildeR_wide _ _ _ _ _ _ _ g2 1 g3, ?_⟩
      rintro rfl; simp at hp2
    · by_cases hw0 : w = 0
      · subst hw0
        refine ⟨0, _, by rw [hp2]; rfl, getTildeR_wide _ _ _ _ _ _ _ g2 0 le_rfl, ?_⟩
        rintro rfl
        exact absurd (g4 rfl rfl) (by omega)
      · refine ⟨0, rows.map (fun _ => []), by rw [hp2]; rfl, ?_, ?_⟩
        · rw [C26_too_small _ _ _ _ _ _ _ g2 0 (by omega), if_pos ⟨rfl, by omega⟩]
        · rintro rfl
          have hl : (originCell.reformat_.sites.filter (fun c => decide (c.z = 3))).length = 2 := by
            have hperm : originCell.reformat_.sites.Perm originCell.sites := sortByKey_perm _ _
            rw [(hperm.filter _).length_eq]
            simp [originCell]
          have : rows.length = 2 := g5.trans hl
          match rows, this with
          | [_, _], _ => rfl
  choose! v blk b1 b2 b3 using hblk
  have hfold := ff_fold _ _ table [(3, (1 : ℤ)), (14, 0)] blk ([3, 14].product [3, 14]) (by decide) []
    (by simp) (fun p hp => ⟨v p, b1 p hp, b2 p hp⟩)
  refine ⟨originCell, _, ⟨3, ![2, 0, 0], none⟩, _, hL, originCell_separated, originCell_supercell,
    by simp [originCell], rfl, hone, by unfold ffTildeR; rw [htab, ok_bind]; exact hfold, ?_⟩
  refine List.mem_append_right _ (List.mem_map.2 ⟨(3, 14), by decide, ?_⟩)
  rw [b3 (3, 14) (by decide) rfl]
  simp [pairKey, showNat, digitChar]

end MaterSDK
