import Verif.Model.Se4pwInput
import Verif.Lemmas.EnvStructure
import Verif.Lemmas.TildeRStruct
import Verif.Lemmas.SlotDeriv

/-! # From a structure through the neighbour list to the tables of `Se4pw` -/

namespace MaterSDK

open Classical

/-- Row, derivative block and relative position. -/
noncomputable def se4pwRel (rcut rs : ℝ) (q : Vec ℝ) : (Fin 4 → ℝ) × Matrix (Fin 4) (Fin 3) ℝ × Vec ℝ :=
  (cEnvRow rcut rs q, cSe4pwDeriv rcut rs q, q)

theorem flat3_storedAt (l : List (ℤ × Vec ℝ)) (k : ℕ) (a : ℤ × Vec ℝ) (h : l[k]? = some a) :
    StoredAt (l.flatMap (fun a => [a.2 0, a.2 1, a.2 2])) k a.2 := by
  have hu := fun j hj => flatMap_uniform_get l (fun a => [a.2 0, a.2 1, a.2 2]) 3 (fun _ _ => rfl) k j a h hj
  exact ⟨(hu 0 (by norm_num)).trans rfl, (hu 1 (by norm_num)).trans rfl, (hu 2 (by norm_num)).trans rfl⟩

theorem se4pw_core (A : ArgSort) (L : Fin 3 → Vec ℝ) (atoms : List (ℤ × Vec ℝ)) (rcut rs : ℝ)
    (pbc : Fin 3 → Bool) (sort : Bool) (hok : CellOk L atoms pbc) (hr : 0 < rcut)
    (hap : ApartImages L (atoms.map Prod.snd)) (umax : List ℕ)
    (hty : ∀ a ∈ atoms, 0 ≤ a.1 ∧ a.1 < umax.length)
    (hroom : ∀ (i : ℕ) (c : ℤ × Vec ℝ), atoms[i]? = some c → ∀ (t m : ℕ), umax[t]? = some m →
      ∀ l : List (ℕ × (Fin 3 → ℤ)), l.Nodup → (∀ e ∈ l, NearBy L pbc (atoms.map Prod.snd) rcut c.2 e ∧
        e ≠ (i, 0) ∧ (atoms[e.1]?).map Prod.fst = some (t : ℤ)) → l.length ≤ m) :
    ∃ N a out idx, NbrLists.make A (CStruct.make L atoms true) rcut pbc sort = .ok N ∧
      N.toSe4pw umax = .ok a ∧ se4pwGenerate a.slots a.ilist a.x rcut rs = .ok out ∧
      primIndices a.slots a.ilist = .ok idx ∧
      ∀ (i : ℕ) (c : ℤ × Vec ℝ), atoms[i]? = some c → ∃ imgs : List (ℕ × (Fin 3 → ℤ)), imgs.Nodup ∧
        (∀ e, e ∈ imgs ↔ NearBy L pbc (atoms.map Prod.snd) rcut c.2 e ∧ e ≠ (i, 0)) ∧
        flatRow out umax.sum i = typeBlocks (0, 0, 0) umax (imgs.map (fun e =>
          ((imageAtom L atoms e).1, se4pwRel rcut rs ((imageAtom L atoms e).2 - c.2)))) ∧
        flatRow idx umax.sum i = typeBlocks (-1) umax (imgs.map (fun e =>
          ((imageAtom L atoms e).1, (e.1 : ℤ)))) ∧
        RoomFor umax (imgs.map (fun e => ((imageAtom L atoms e).1, ()))) := by
  set s := CStruct.make L atoms true with hs
  have hsb : s.basis = L := rfl
  have hsa : s.atoms = atoms := rfl
  obtain ⟨N, h1, h2, h3, K, h4, h5, h6⟩ := lists_core A s rcut (fun _ => rcut / 2) pbc sort
    hok.nonsing hok.nonempty hok.inCell hok.dir hr (fun _ => by linarith)
    (default_bins s rcut pbc hok.nonsing hr hok.perp)
  have hat : N.bins.supercell.struct.atoms = (s.makeSupercell (oddScale s rcut pbc)).atoms := by
    rw [h3]; rfl
  set S := (s.makeSupercell (oddScale s rcut pbc)).atoms with hS
  set im := imageAt s (oddScale s rcut pbc) with him
  have himg : ∀ k < S.length, S[k]? = some (imageAtom L atoms (im k)) := by
    intro k hk
    obtain ⟨a, q1, q2, _⟩ := imageAt_get s _ (List.getElem?_eq_getElem hk)
    rw [List.getElem?_eq_getElem hk]
    refine congrArg some ?_
    refine q2.trans ?_
    unfold imageAtom
    rw [← hsa, q1]
    rfl
  -- the neighbours of a centre as images
  have hK : ∀ (i : ℕ) (c : ℤ × Vec ℝ), atoms[i]? = some c → ∃ ks : List ℕ, K[i]? = some ks ∧
      (∀ k ∈ ks, k < S.length) ∧ (ks.map im).Nodup ∧
      (∀ e, e ∈ ks.map im ↔ NearBy L pbc (atoms.map Prod.snd) rcut c.2 e ∧ e ≠ (i, 0)) := by
    intro i c hc
    obtain ⟨ks, g1, g2, g3, g4⟩ := h6 i c hc
    obtain ⟨k1, k2⟩ := images_spec s rcut pbc hok.nonsing hr hok.inCell c.2
      (hok.inCell c (List.mem_of_getElem? hc)) ks g2 g3
    have hci : (atoms.map Prod.snd)[i]? = some c.2 := by rw [List.getElem?_map, hc]; rfl
    refine ⟨ks, g1, ?_, k1, ?_⟩
    · intro k hk
      obtain ⟨a, ha, _⟩ := (g3 k).1 hk
      exact (List.getElem?_eq_some_iff.1 ha).1
    · intro e
      rw [him, k2]
      unfold NearBy
      constructor
      · rintro ⟨q1, a, q2, q3, q4⟩
        have : (atoms.map Prod.snd)[e.1]? = some a.2 := by
          rw [List.getElem?_map, ← hsa, q2]; rfl
        refine ⟨⟨q1, a.2, this, q3⟩, ?_⟩
        rintro rfl
        rw [hci] at this
        rw [← Option.some.inj this, hsb, imagePos_zero, dist3_sq_comp] at q4
        norm_num at q4
      · rintro ⟨⟨q1, p, q2, q3⟩, q4⟩
        have q5 := hap i e.1 c.2 p e.2 hci q2 q4
        rw [List.getElem?_map] at q2
        obtain ⟨a, ha, rfl⟩ := Option.map_eq_some_iff.1 q2
        exact ⟨q1, a, ha, q3, q5⟩
  have hlenK : K.length = atoms.length := by rw [h5, hsa]
  have hroomK : ∀ (i : ℕ) (c : ℤ × Vec ℝ) (ks : List ℕ), atoms[i]? = some c → K[i]? = some ks →
      RoomFor umax ((ks.map im).map (fun e => ((imageAtom L atoms e).1, ()))) := by
    intro i c ks hc hks
    obtain ⟨ks', g1, _, g3, g4⟩ := hK i c hc
    rw [hks] at g1; cases g1
    have hatom : ∀ e ∈ ks.map im, ∃ a, atoms[e.1]? = some a ∧ a ∈ atoms ∧ (imageAtom L atoms e).1 = a.1 := by
      intro e he
      obtain ⟨⟨_, p, hp, _⟩, _⟩ := (g4 e).1 he
      rw [List.getElem?_map] at hp
      obtain ⟨a, ha, _⟩ := Option.map_eq_some_iff.1 hp
      refine ⟨a, ha, List.mem_of_getElem? ha, ?_⟩
      unfold imageAtom
      rw [ha]
    refine ⟨?_, ?_⟩
    · intro q hq
      obtain ⟨e, he, rfl⟩ := List.mem_map.1 hq
      obtain ⟨a, _, ham, hz⟩ := hatom e he
      simp only [hz]
      exact hty a ham
    · intro t m hm
      rw [List.countP_map, List.countP_eq_length_filter]
      refine hroom i c hc t m hm _ (g3.filter _) ?_
      intro e he
      rw [List.mem_filter] at he
      obtain ⟨a, ha, _, hz⟩ := hatom e he.1
      refine ⟨((g4 e).1 he.1).1, ((g4 e).1 he.1).2, ?_⟩
      have := he.2
      simp only [Function.comp, decide_eq_true_eq] at this
      rw [ha, Option.map_some, ← hz, this]
  have hlen : ∀ ks ∈ K, ks.length ≤ umax.sum := by
    intro ks hm
    obtain ⟨i, hi⟩ := List.mem_iff_getElem?.1 hm
    have hlt : i < atoms.length := by rw [← hlenK]; exact (List.getElem?_eq_some_iff.1 hi).1
    have := room_length umax _ (hroomK i _ ks (List.getElem?_eq_getElem hlt) hi)
    simpa using this
  have hfit : N.lists.any (fun l => decide (umax.sum < l.length)) = false := by
    rw [List.any_eq_false]
    intro l hl
    rw [h4] at hl
    obtain ⟨ks, hks, rfl⟩ := List.mem_map.1 hl
    have := hlen ks hks
    simp only [List.length_map, decide_eq_true_eq]
    omega
  have hNlen : N.lists.length = atoms.length := by rw [h4, List.length_map, hlenK]
  have hto : ∃ a, N.toSe4pw umax = .ok a ∧
      a.slots.inum = (atoms.length : ℤ) ∧ a.slots.umax = umax.map (fun m : ℕ => (m : ℤ)) ∧
      a.slots.numneigh = N.lists.map (fun l => (l.length : ℤ)) ∧
      a.slots.firstneigh = N.lists.flatMap (fun l => l ++ List.replicate (umax.sum - l.length) 0) ∧
      a.slots.types = S.map Prod.fst ∧
      a.ilist = (List.range atoms.length).map (fun ii : ℕ =>
        (ii : ℤ) + N.bins.supercell.primIdx * N.bins.supercell.primNum) ∧
      a.x = S.flatMap (fun a => [a.2 0, a.2 1, a.2 2]) := by
    refine ⟨_, if_neg (by rw [hfit]; simp), ?_, rfl, rfl, rfl, ?_, ?_, ?_⟩
    · show (N.lists.length : ℤ) = _
      rw [hNlen]
    · show N.bins.supercell.struct.atoms.map Prod.fst = _
      rw [hat]
    · show (List.range N.lists.length).map _ = _
      rw [hNlen]
    · show N.bins.supercell.struct.atoms.flatMap _ = _
      rw [hat]
  obtain ⟨a, a1, a2, a3, a4, a5, a6, a7, a8⟩ := hto
  set ty : ℕ → ℤ := fun k => (imageAtom L atoms (im k)).1 with hty'
  set pos : ℕ → Vec ℝ := fun k => (S[k]?.map Prod.snd).getD 0 with hpos
  set base : ℕ := (primCellIdx (fun i => 2 * (halfWidth s rcut pbc i : ℤ) + 1)).toNat * s.atoms.length with hbase
  have hctr : ∀ (i : ℕ) (c : ℤ × Vec ℝ), atoms[i]? = some c → S[base + i]? = some c := by
    intro i c hc
    have hget := superAtoms_get s _ (superShifts_zero_odd (halfWidth s rcut pbc)) hc
    rw [imagePos_zero] at hget
    exact hget
  have hposI : ∀ k < S.length, pos k = (imageAtom L atoms (im k)).2 := by
    intro k hk
    simp only [hpos, himg k hk, Option.map_some, Option.getD_some]
  have hposC : ∀ (i : ℕ) (c : ℤ × Vec ℝ), atoms[i]? = some c → pos (base + i) = c.2 := by
    intro i c hc
    simp only [hpos, hctr i c hc, Option.map_some, Option.getD_some]
  have hnget : ∀ i < atoms.length, ∃ ks, K[i]? = some ks ∧ (K[i]?.getD []) = ks ∧ ∃ c, atoms[i]? = some c := by
    intro i hi
    obtain ⟨ks, g1, _⟩ := hK i _ (List.getElem?_eq_getElem hi)
    exact ⟨ks, g1, by rw [g1]; rfl, _, List.getElem?_eq_getElem hi⟩
  have hroomN : ∀ ii < atoms.length, RoomFor umax ((K[ii]?.getD []).map (fun k => (ty k, k))) := by
    intro ii hii
    obtain ⟨ks, g1, g2, c, hc⟩ := hnget ii hii
    rw [g2, ← roomFor_map (fun _ => ()), List.map_map]
    have := hroomK ii c ks hc g1
    rw [List.map_map] at this
    exact this
  obtain ⟨r1, r2⟩ := se4pw_ok a.slots umax atoms.length (fun ii => K[ii]?.getD []) a.ilist a.x rcut rs ty
    (fun ii => base + ii) pos ⟨a2, a3, by
      intro ii hii
      obtain ⟨ks, g1, g2, c, hc⟩ := hnget ii hii
      beta_reduce
      rw [g2]
      constructor
      · rw [a4, h4, List.map_map, List.getElem?_map, g1]
        simp
      · intro jj k hk
        have hj : jj < ks.length := (List.getElem?_eq_some_iff.1 hk).1
        have hle := hlen ks (List.mem_of_getElem? g1)
        rw [a5, flatMap_uniform_get N.lists _ umax.sum ?_ ii jj (ks.map (fun k : ℕ => (k : ℤ))) ?_ (by omega),
          List.getElem?_append_left (by simpa using hj), List.getElem?_map, hk]
        · rfl
        · intro l hl
          have := List.any_eq_false.1 hfit l hl
          simp only [decide_eq_true_eq] at this
          rw [List.length_append, List.length_replicate]
          omega
        · rw [h4, List.getElem?_map, g1]; rfl⟩
    (by
      intro ii hii k hk
      obtain ⟨ks, g1, g2, c, hc⟩ := hnget ii hii
      beta_reduce at hk
      rw [g2] at hk
      obtain ⟨ks', e1, e2, _⟩ := hK ii c hc
      rw [g1] at e1; cases e1
      rw [a6, List.getElem?_map, himg k (e2 k hk)]
      rfl)
    (by
      intro ii hii
      have hp : (0 : ℤ) ≤ primCellIdx (fun i => 2 * (halfWidth s rcut pbc i : ℤ) + 1) := by
        rw [primCellIdx_odd]; positivity
      rw [a7, List.getElem?_map, List.getElem?_range hii, Option.map_some]
      refine congrArg some ?_
      have e0 : oddScale s rcut pbc = fun i => 2 * (halfWidth s rcut pbc i : ℤ) + 1 := rfl
      rw [h3, hbase]
      simp only [CSupercell.make]
      rw [e0]
      push_cast
      rw [Int.toNat_of_nonneg hp]
      ring)
    (by
      intro ii hii
      obtain ⟨_, _, _, c, hc⟩ := hnget ii hii
      beta_reduce
      rw [a8, hposC ii c hc]
      exact flat3_storedAt S _ c (hctr ii c hc))
    (by
      intro ii hii k hk
      obtain ⟨ks, g1, g2, c, hc⟩ := hnget ii hii
      beta_reduce at hk
      rw [g2] at hk
      obtain ⟨ks', e1, e2, _⟩ := hK ii c hc
      rw [g1] at e1; cases e1
      rw [a8, hposI k (e2 k hk)]
      exact flat3_storedAt S k _ (himg k (e2 k hk)))
    hroomN
  refine ⟨N, a, _, _, h1, a1, r1, r2, ?_⟩
  intro i c hc
  have hi : i < atoms.length := (List.getElem?_eq_some_iff.1 hc).1
  obtain ⟨ks, g1, g2, g3, g4⟩ := hK i c hc
  refine ⟨ks.map im, g3, g4, ?_, ?_, hroomK i c ks hc g1⟩
  · rw [flatRow_flatMap (List.range atoms.length) _ umax.sum ?_ i i (List.getElem?_range hi), g1,
      Option.getD_some, List.map_map]
    · congr 1
      refine List.map_congr_left ?_
      intro k hk
      simp only [Function.comp, hposI k (g2 k hk), hposC i c hc, se4pwRel, hty']
    · intro ii hii
      refine typeBlocks_length _ _ _ ?_
      have := hroomN ii (List.mem_range.1 hii)
      rw [← roomFor_map (fun _ => ()), List.map_map] at this ⊢
      exact this
  · rw [flatRow_flatMap (List.range atoms.length) _ umax.sum ?_ i i (List.getElem?_range hi), g1,
      Option.getD_some, List.map_map]
    · rfl
    · intro ii hii
      refine typeBlocks_length _ _ _ ?_
      have := hroomN ii (List.mem_range.1 hii)
      rw [← roomFor_map (fun _ => ()), List.map_map] at this ⊢
      exact this

/-- The calls succeed. -/
theorem se4pw_table (A : ArgSort) (sort : Bool)
    (L : Fin 3 → Vec ℝ) {n : ℕ} (z : Fin n → ℤ) (umax : List ℕ) (hty : ∀ i, 0 ≤ z i ∧ z i < umax.length)
    (rcut rs : ℝ) (hr : 0 < rcut) (x : Fin n → Vec ℝ) (hx : x ∈ envPositions L z umax rcut) :
    ∃ out idx, Se4pwTable A sort L z umax rcut rs x out idx := by
  have htya : ∀ a ∈ atomsAt z x, 0 ≤ a.1 ∧ a.1 < umax.length := by
    intro a ha
    obtain ⟨i, rfl⟩ := List.mem_ofFn.1 ha
    exact hty i
  obtain ⟨h1, h2, h3⟩ := hx
  obtain ⟨N, a, out, idx, g1, g2, g3, g4, _⟩ := se4pw_core A L (atomsAt z x) rcut rs (fun _ => true) sort h1 hr
    h2 umax htya (crystalRoom_nearBy L (atomsAt z x) rcut h2 umax h3)
  exact ⟨out, idx, N, a, g1, g2, g3, g4⟩

/-- The slots of a type of a centre in the tables of `Se4pw`. -/
theorem se4pw_slots (A : ArgSort) (sort : Bool)
    (L : Fin 3 → Vec ℝ) {n : ℕ} (z : Fin n → ℤ) (umax : List ℕ) (hty : ∀ i, 0 ≤ z i ∧ z i < umax.length)
    (rcut rs : ℝ) (hr : 0 < rcut) (x : Fin n → Vec ℝ) (out idx) (ht : Se4pwTable A sort L z umax rcut rs x out idx)
    (hx : x ∈ envPositions L z umax rcut) (i : Fin n) (k m : ℕ) (hk : umax[k]? = some m) :
    ∃ imgs : List (Fin n × (Fin 3 → ℤ)), imgs.Nodup ∧
      (∀ e, e ∈ imgs ↔ z e.1 = (k : ℤ) ∧ dist3 (imagePos L (x e.1) e.2) (x i) < rcut ∧ e ≠ (i, 0)) ∧
      imgs.length ≤ m ∧
      typeSlots umax k (flatRow out umax.sum i) =
        imgs.map (fun e => se4pwRel rcut rs (imagePos L (x e.1) e.2 - x i))
          ++ List.replicate (m - imgs.length) (0, 0, 0) ∧
      typeSlots umax k (flatRow idx umax.sum i) =
        imgs.map (fun e => ((e.1 : ℕ) : ℤ)) ++ List.replicate (m - imgs.length) (-1) := by
  have htya : ∀ a ∈ atomsAt z x, 0 ≤ a.1 ∧ a.1 < umax.length := by
    intro a ha
    obtain ⟨i, rfl⟩ := List.mem_ofFn.1 ha
    exact hty i
  obtain ⟨N, a, t1, t2, t3, t4⟩ := ht
  obtain ⟨h1, h2, h3⟩ := hx
  obtain ⟨N', a', out', idx', g1, g2, g3, g4, g5⟩ := se4pw_core A L (atomsAt z x) rcut rs (fun _ => true) sort h1 hr
    h2 umax htya (crystalRoom_nearBy L (atomsAt z x) rcut h2 umax h3)
  rw [t1] at g1; cases g1
  rw [t2] at g2; cases g2
  rw [t3] at g3
  rw [t4] at g4
  obtain rfl := Except.ok.inj g3
  obtain rfl := Except.ok.inj g4
  obtain ⟨I, i1, i2, i3, i4, i5⟩ := g5 i _ (atomsAt_get z x i)
  obtain ⟨J, rfl, j1, j2⟩ := fin_images L z x rcut i I i1 i2
  have hB : ∀ {β : Type} (f : ℤ × Vec ℝ → ℕ → β), (J.map (fun e => ((e.1 : ℕ), e.2))).map (fun e =>
        ((imageAtom L (atomsAt z x) e).1, f (imageAtom L (atomsAt z x) e) e.1))
      = J.map (fun e => (z e.1, f (z e.1, imagePos L (x e.1) e.2) e.1)) := by
    intro β f
    rw [List.map_map]
    refine List.map_congr_left ?_
    intro e _
    simp only [Function.comp, imageAtom, atomsAt_get]
  have hr1 := (roomFor_map (fun _ => ()) umax ((J.map (fun e => ((e.1 : ℕ), e.2))).map (fun e =>
          ((imageAtom L (atomsAt z x) e).1, se4pwRel rcut rs ((imageAtom L (atomsAt z x) e).2 - x i))))).1
    (by rw [List.map_map]; exact i5)
  have hr2 := (roomFor_map (fun _ => ()) umax ((J.map (fun e => ((e.1 : ℕ), e.2))).map (fun e =>
          ((imageAtom L (atomsAt z x) e).1, (e.1 : ℤ))))).1
    (by rw [List.map_map]; exact i5)
  refine ⟨J.filter (fun e => decide (z e.1 = (k : ℤ))), j1.filter _, ?_, ?_, ?_, ?_⟩
  · intro e
    rw [List.mem_filter, j2, decide_eq_true_eq]
    tauto
  · have := i5.2 k m hk
    rw [hB (fun _ _ => ()), List.countP_map, List.countP_eq_length_filter] at this
    exact this
  · rw [i3, typeSlots_typeBlocks _ _ _ hr1 k m hk, hB (fun q _ => se4pwRel rcut rs (q.2 - x i))]
    unfold typeBlock
    rw [List.filter_map, List.countP_map, List.map_map, List.countP_eq_length_filter]
    rfl
  · rw [i4, typeSlots_typeBlocks _ _ _ hr2 k m hk, hB (fun _ e => (e : ℤ))]
    unfold typeBlock
    rw [List.filter_map, List.countP_map, List.map_map, List.countP_eq_length_filter]
    rfl

/-- A linear function of a family, as the sum over its members. -/
theorem clm_pi_sum {n m : ℕ} {W : Type} [NormedAddCommGroup W] [NormedSpace ℝ W]
    (T : (Fin n → Fin m → W) →L[ℝ] ℝ) (w : Fin n → Fin m → W) :
    T w = ∑ i, ∑ k, T (ContinuousLinearMap.single ℝ (fun _ : Fin n => Fin m → W) i
      (ContinuousLinearMap.single ℝ (fun _ : Fin m => W) k (w i k))) := by
  conv_lhs => rw [← Finset.univ_sum_single w, map_sum]
  refine Finset.sum_congr rfl ?_
  intro i _
  conv_lhs => rw [← Finset.univ_sum_single (w i)]
  rw [← map_sum, ← map_sum]
  rfl

theorem norm3_le_two (v : Vec ℝ) : norm3 v ≤ 2 * ‖v‖ := by
  have h : ∀ i, v i ^ 2 ≤ ‖v‖ ^ 2 := by
    intro i
    rw [← sq_abs]
    have := norm_le_pi_norm v i
    rw [Real.norm_eq_abs] at this
    nlinarith [abs_nonneg (v i)]
  unfold norm3
  refine Real.sqrt_le_iff.2 ⟨by positivity, ?_⟩
  have h0 := h 0
  have h1 := h 1
  have h2 := h 2
  nlinarith [sq_nonneg ‖v‖]

theorem norm_le_norm3 (v : Vec ℝ) : ‖v‖ ≤ norm3 v := by
  refine (pi_norm_le_iff_of_nonneg (Real.sqrt_nonneg _)).2 ?_
  intro i
  rw [Real.norm_eq_abs]
  refine Real.abs_le_sqrt ?_
  fin_cases i <;> simp <;> nlinarith [sq_nonneg (v 0), sq_nonneg (v 1), sq_nonneg (v 2)]

/-- The derivative of a sum over slots by the deformation of the structure. -/
theorem strain_deriv {W : Type} [NormedAddCommGroup W] [NormedSpace ℝ W] (A : ArgSort)
    (L : Fin 3 → Vec ℝ) {n : ℕ} (z : Fin n → ℤ) (umax : List ℕ) (rcut rs : ℝ) (hr : 0 < rcut) (hlt : rs < rcut)
    (x : Fin n → Vec ℝ) (hx : x ∈ envPositions L z umax rcut) (i : Fin n) (k m : ℕ)
    (g : (Fin 4 → ℝ) → W) (g' : (Fin 4 → ℝ) → (Fin 4 → ℝ) →L[ℝ] W) (hg : ∀ y, HasFDerivAt g (g' y) y)
    (out : (Vec ℝ →L[ℝ] Vec ℝ) → List ((Fin 4 → ℝ) × Matrix (Fin 4) (Fin 3) ℝ × Vec ℝ))
    (hout : ∀ η ∈ envStrains L z umax rcut x, ∃ J : List (Fin n × (Fin 3 → ℤ)), J.Nodup ∧
      (∀ e, e ∈ J ↔ z e.1 = (k : ℤ) ∧
        dist3 (imagePos (strained η L) (strained η x e.1) e.2) (strained η x i) < rcut ∧ e ≠ (i, 0)) ∧
      J.length ≤ m ∧ typeSlots umax k (flatRow (out η) umax.sum i) =
        J.map (fun e => se4pwRel rcut rs (imagePos (strained η L) (strained η x e.1) e.2 - strained η x i))
          ++ List.replicate (m - J.length) (0, 0, 0)) :
    HasFDerivWithinAt (fun η => ((typeSlots umax k (flatRow (out η) umax.sum i)).map (fun s => g s.1)).sum)
      (((typeSlots umax k (flatRow (out 0) umax.sum i)).map (fun s =>
        (g' s.1).comp ((Matrix.mulVecLin (-s.2.1)).toContinuousLinearMap.comp
          (ContinuousLinearMap.apply ℝ (Vec ℝ) s.2.2)))).sum)
      (envStrains L z umax rcut x) 0 := by
  have h0L : strained (0 : Vec ℝ →L[ℝ] Vec ℝ) L = L := by funext i; simp [strained]
  have h0x : strained (0 : Vec ℝ →L[ℝ] Vec ℝ) x = x := by funext i; simp [strained]
  have h0 : (0 : Vec ℝ →L[ℝ] Vec ℝ) ∈ envStrains L z umax rcut x := by
    show strained 0 x ∈ envPositions (strained 0 L) z umax rcut
    rw [h0L, h0x]; exact hx
  let q : Fin n × (Fin 3 → ℤ) → Vec ℝ := fun e => imagePos L (x e.1) e.2 - x i
  let rr : Fin n × (Fin 3 → ℤ) → (Vec ℝ →L[ℝ] Vec ℝ) → Vec ℝ := fun e η => q e + η (q e)
  have hrr : ∀ η e, imagePos (strained η L) (strained η x e.1) e.2 - strained η x i = rr e η := by
    intro η e
    simp only [imagePos, strained, rr, q, map_sub, map_add, map_sum, map_smul, smul_add, Finset.sum_add_distrib]
    abel
  have hd3 : ∀ p c : Vec ℝ, dist3 p c = norm3 (p - c) := by
    intro p c
    unfold norm3 dist3
    simp [Fin.sum_univ_three]
  have hdist : ∀ η e, dist3 (imagePos (strained η L) (strained η x e.1) e.2) (strained η x i) = norm3 (rr e η) := by
    intro η e
    rw [hd3, hrr]
  obtain ⟨E0, e1, e2⟩ := imgs_list A L (atomsAt z x) (rcut + 1) (by linarith) hx.1 hx.2.1 i _ (atomsAt_get z x i)
  obtain ⟨E1, _, hE1d, hE1⟩ := fin_images L z x (rcut + 1) i E0 e1 e2
  obtain ⟨E, hEd⟩ : ∃ E, E = E1.filter (fun e => decide (z e.1 = (k : ℤ))) := ⟨_, rfl⟩
  have hEmem : ∀ e, e ∈ E ↔ z e.1 = (k : ℤ) ∧ norm3 (q e) < rcut + 1 ∧ e ≠ (i, 0) := by
    intro e
    rw [hEd, List.mem_filter, hE1, decide_eq_true_eq, hd3]
    tauto
  have hEnd : E.Nodup := by
    rw [hEd]
    exact hE1d.filter _
  have hrr0 : ∀ e, rr e 0 = q e := fun e => by simp [rr]
  have hfin : ∀ η ∈ envStrains L z umax rcut x, (∀ e, norm3 (rr e η) < rcut → norm3 (q e) < rcut + 1) →
      ∃ J : List (Fin n × (Fin 3 → ℤ)), J.Nodup ∧ (∀ e, e ∈ J ↔ e ∈ E ∧ norm3 (rr e η) < rcut) ∧
      J.length ≤ m ∧ typeSlots umax k (flatRow (out η) umax.sum i) =
        J.map (fun e => se4pwRel rcut rs (rr e η)) ++ List.replicate (m - J.length) (0, 0, 0) := by
    intro η hη hnear
    obtain ⟨J, j1, j2, j3, j4⟩ := hout η hη
    refine ⟨J, j1, ?_, j3, ?_⟩
    · intro e
      rw [j2, hEmem, hdist]
      constructor
      · rintro ⟨b1, b2, b3⟩
        exact ⟨⟨b1, hnear e b2, b3⟩, b2⟩
      · rintro ⟨⟨b1, _, b3⟩, b2⟩
        exact ⟨b1, b2, b3⟩
    · rw [j4]
      congr 1
      refine List.map_congr_left ?_
      intro e _
      rw [hrr]
  obtain ⟨imgs, a1, a2, a3, a4⟩ := hfin 0 h0 (fun e he => by rw [hrr0] at he; linarith)
  have hder := slots_deriv_gen (envStrains L z umax rcut x) 0 h0 rcut rs hlt rr
    (fun e => ContinuousLinearMap.apply ℝ (Vec ℝ) (q e)) E hEnd
    (fun e _ => by
      have : HasFDerivAt (fun η : Vec ℝ →L[ℝ] Vec ℝ => (ContinuousLinearMap.apply ℝ (Vec ℝ) (q e)) η)
          (ContinuousLinearMap.apply ℝ (Vec ℝ) (q e)) 0 := ContinuousLinearMap.hasFDerivAt _
      exact this.const_add (q e))
    (fun e he => by
      rw [hrr0]
      intro h
      have := imagePos_inj L _ hx.2.1 e.1 i (x e.1) (x i) e.2 0 (atomsAt_pos z x _) (atomsAt_pos z x _)
        (by rw [imagePos_zero]; exact sub_eq_zero.1 h)
      rw [Prod.mk.injEq] at this
      exact ((hEmem e).1 he).2.2 (Prod.ext (Fin.ext this.1) this.2))
    m g g' hg (fun η => ((typeSlots umax k (flatRow (out η) umax.sum i)).map (fun s => g s.1)).sum)
    (by
      have hsmall : ∀ᶠ η in nhdsWithin (0 : Vec ℝ →L[ℝ] Vec ℝ) (envStrains L z umax rcut x),
          2 * ‖η‖ * (rcut + 1) < 1 := by
        have hc : Continuous (fun η : Vec ℝ →L[ℝ] Vec ℝ => 2 * ‖η‖ * (rcut + 1)) := by fun_prop
        exact nhdsWithin_le_nhds (hc.continuousAt.eventually_lt continuousAt_const (by simp))
      filter_upwards [hsmall, self_mem_nhdsWithin] with η hs hη
      obtain ⟨J, j1, j2, j3, j4⟩ := hfin η hη (by
        intro e he
        by_contra hge
        rw [not_lt] at hge
        have t1 : norm3 (q e) ≤ norm3 (rr e η) + norm3 (η (q e)) := by
          have := dist3_triangle (q e) (-(η (q e))) 0
          rw [hd3, hd3, hd3] at this
          have hneg : norm3 (-(η (q e)) - 0) = norm3 (η (q e)) := by
            unfold norm3; simp
          rw [sub_neg_eq_add, sub_zero, hneg] at this
          exact this
        have t2 := norm3_le_two (η (q e))
        have t3 := η.le_opNorm (q e)
        have t4 := norm_le_norm3 (q e)
        have t5 : ‖η‖ * ‖q e‖ ≤ ‖η‖ * norm3 (q e) := mul_le_mul_of_nonneg_left t4 (norm_nonneg _)
        have t6 : 2 * ‖η‖ < 1 := by nlinarith [norm_nonneg η]
        nlinarith [norm_nonneg η])
      refine ⟨J, j1, j2, j3, ?_⟩
      rw [j4, List.map_append, List.sum_append, List.map_replicate, List.sum_replicate, List.map_map]
      rfl)
    imgs a1 a2
  refine HasFDerivWithinAt.congr_fderiv hder ?_
  rw [a4, List.map_append, List.sum_append, List.map_replicate, List.sum_replicate, List.map_map]
  have hz : (g' ((0, 0, 0) : (Fin 4 → ℝ) × Matrix (Fin 4) (Fin 3) ℝ × Vec ℝ).1).comp
      ((Matrix.mulVecLin (-((0, 0, 0) : (Fin 4 → ℝ) × Matrix (Fin 4) (Fin 3) ℝ × Vec ℝ).2.1)).toContinuousLinearMap.comp
        (ContinuousLinearMap.apply ℝ (Vec ℝ) ((0, 0, 0) : (Fin 4 → ℝ) × Matrix (Fin 4) (Fin 3) ℝ × Vec ℝ).2.2)) = 0 := by
    ext
    simp
  rw [hz, smul_zero, add_zero]
  congr 1
  refine List.map_congr_left ?_
  intro e _
  simp only [Function.comp, se4pwRel, se4pwDeriv_neg, neg_neg, hrr0]

end MaterSDK
