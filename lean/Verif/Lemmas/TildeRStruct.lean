import Verif.Lemmas.TildeRStack
import Verif.Lemmas.CellListAux

/-! # The neighbour list as the source of `PairTildeR` and `TildeR` -/

namespace MaterSDK

open Classical

theorem reads_of_describes {p : LmpIn} {sites : List Centre} (h : p.Describes sites) : p.src.Reads sites := by
  obtain ⟨h0, h1⟩ := h
  refine ⟨by show p.inum.toNat = _; rw [h0]; rfl, ?_⟩
  intro ii s hs
  obtain ⟨i, fl, e1, e2, e3, e4, e5, e6⟩ := h1 ii s hs
  choose! g hg using e6
  have hnb : p.src.nbrs ii = .ok ((List.range s.nbrs.length).map (fun jj =>
      ((g jj (s.nbrs[jj]?.getD (0, 0)) : ℕ) : ℤ))) := by
    show (cGet p.numneigh (ii : ℤ) >>= _) = _
    rw [cGet_nat e4, ok_bind, Int.toNat_natCast]
    refine mapM_map_ok ?_
    intro jj hjj
    rw [cGet_nat e5, ok_bind]
    have hq := List.getElem?_eq_getElem (List.mem_range.1 hjj)
    rw [hq]
    exact cGet_nat (hg jj _ hq).1
  refine ⟨(i : ℤ), _, cGet_nat e1, cGet_nat e2, cGet_nat e3, hnb, ?_⟩
  rw [List.forall₂_iff_get]
  refine ⟨by simp, ?_⟩
  intro jj h1 h2
  have hq := List.getElem?_eq_getElem h2
  obtain ⟨_, q2, q3⟩ := hg jj _ hq
  simp only [List.get_eq_getElem, List.getElem_map, List.getElem_range, hq, Option.getD_some]
  exact ⟨cGet_nat q2, cGet_nat q3⟩

theorem makeWith_rcut {A : ArgSort} {s : CStruct} {rcut : ℝ} {size : Vec ℝ} {pbc : Fin 3 → Bool} {sort : Bool}
    {N : NbrLists} (h : NbrLists.makeWith A s rcut size pbc sort = .ok N) : N.bins.rcut = rcut := by
  unfold NbrLists.makeWith at h
  obtain ⟨B, hB, h⟩ := bind_eq_ok.1 h
  have hr : B.rcut = rcut := by
    unfold BinList.make at hB
    split_ifs at hB
    obtain ⟨hn, _, hB⟩ := bind_eq_ok.1 hB
    rw [← Except.ok.inj hB]
  unfold NbrLists.build at h
  obtain ⟨l, _, h⟩ := bind_eq_ok.1 h
  split_ifs at h
  · obtain ⟨l', _, h⟩ := bind_eq_ok.1 h
    rw [← Except.ok.inj h]
    exact hr
  · rw [← Except.ok.inj h]
    exact hr

theorem nbr_reads_lists (A : ArgSort) (L : Fin 3 → Vec ℝ) (atoms : List (ℤ × Vec ℝ)) (rcut : ℝ)
    (pbc : Fin 3 → Bool) (sort : Bool) (hok : CellOk L atoms pbc) (hr : 0 < rcut)
    (hap : ApartImages L (atoms.map Prod.snd)) :
    ∃ N, NbrLists.make A (CStruct.make L atoms true) rcut pbc sort = .ok N ∧ N.bins.rcut = rcut ∧
      ∃ I, I = listedImages (CStruct.make L atoms true) rcut pbc N.lists ∧ ListsImages L pbc atoms rcut sort I ∧ N.src.Reads (crystalCentres L atoms I) ∧
        (∀ cz, N.numCentresOf cz = .ok (atoms.countP (fun a => decide (a.1 = cz)))) ∧
        (∀ nz, N.maxNbrsOf nz = .ok (runningMax (I.map (fun imgs =>
          (imgs.map (imageAtom L atoms)).countP (fun q => decide (q.1 = nz)))))) ∧
        ∀ cz nz, N.maxNumOf cz nz = .ok (runningMax ((crystalCentres L atoms I).map (fun s =>
          if s.z = cz then s.nbrs.countP (fun q => decide (q.1 = nz)) else 0))) := by
  set s := CStruct.make L atoms true with hs
  have hsb : s.basis = L := rfl
  have hsa : s.atoms = atoms := rfl
  obtain ⟨N, h1, h2, h3, K, h4, h5, h6⟩ := lists_core A s rcut (fun _ => rcut / 2) pbc sort
    hok.nonsing hok.nonempty hok.inCell hok.dir hr (fun _ => by linarith)
    (default_bins s rcut pbc hok.nonsing hr hok.perp)
  have hin : ∀ ks ∈ K, ∀ k ∈ ks, k < (s.makeSupercell (oddScale s rcut pbc)).atoms.length := by
    intro ks hks k hk
    obtain ⟨i, hi⟩ := List.mem_iff_getElem?.1 hks
    have hlt : i < s.atoms.length := by
      rw [← h5]; exact (List.getElem?_eq_some_iff.1 hi).1
    obtain ⟨ks', g1, _, g3, _⟩ := h6 i _ (List.getElem?_eq_getElem hlt)
    rw [hi] at g1
    cases g1
    obtain ⟨a, ha, _⟩ := (g3 k).1 hk
    exact (List.getElem?_eq_some_iff.1 ha).1
  have hat : N.bins.supercell.struct.atoms = (s.makeSupercell (oddScale s rcut pbc)).atoms := by
    rw [h3]; rfl
  -- an atom of the supercell is an image
  have himg : ∀ k < (s.makeSupercell (oddScale s rcut pbc)).atoms.length,
      (s.makeSupercell (oddScale s rcut pbc)).atoms[k]?
        = some (imageAtom L atoms (imageAt s (oddScale s rcut pbc) k)) := by
    intro k hk
    obtain ⟨a, q1, q2, _⟩ := imageAt_get s _ (List.getElem?_eq_getElem hk)
    rw [List.getElem?_eq_getElem hk, q2]
    unfold imageAtom
    rw [← hsa, q1]
    rfl
  have hz : ∃ t, (superShifts (oddScale s rcut pbc))[0]? = some t := by
    have := superShifts_zero_odd (halfWidth s rcut pbc)
    have e : (fun i => 2 * (halfWidth s rcut pbc i : ℤ) + 1) = oddScale s rcut pbc := rfl
    rw [e] at this
    have hl := (List.getElem?_eq_some_iff.1 this).1
    exact ⟨_, List.getElem?_eq_getElem (by omega)⟩
  obtain ⟨t0, ht0⟩ := hz
  refine ⟨N, h1, makeWith_rcut h1, K.map (fun ks => ks.map (imageAt s (oddScale s rcut pbc))), by
    rw [h4]
    simp [listedImages, Function.comp_def],
    ⟨by rw [List.length_map, h5, hsa], ?_⟩, ⟨?_, ?_⟩, ?_, ?_, ?_⟩
  · intro i c hc
    obtain ⟨ks, g1, g2, g3, g4⟩ := h6 i c hc
    obtain ⟨k1, k2⟩ := images_spec s rcut pbc hok.nonsing hr hok.inCell c.2
      (hok.inCell c (List.mem_of_getElem? hc)) ks g2 g3
    have hci : (atoms.map Prod.snd)[i]? = some c.2 := by rw [List.getElem?_map, hc]; rfl
    refine ⟨_, by rw [List.getElem?_map, g1]; rfl, k1, ?_, ?_⟩
    · intro e
      rw [k2]
      unfold NearBy
      constructor
      · rintro ⟨q1, a, q2, q3, q4⟩
        have : (atoms.map Prod.snd)[e.1]? = some a.2 := by
          rw [List.getElem?_map, ← hsa, q2]; rfl
        refine ⟨⟨q1, a.2, this, q3⟩, ?_⟩
        rintro rfl
        rw [hci] at this
        rw [← Option.some.inj this, hsb, imagePos_zero, dist3_sq_comp] at q4
        norm_num at q4
      · rintro ⟨⟨q1, p, q2, q3⟩, q4⟩
        have q5 := hap i e.1 c.2 p e.2 hci q2 q4
        rw [List.getElem?_map] at q2
        obtain ⟨a, ha, rfl⟩ := Option.map_eq_some_iff.1 q2
        exact ⟨q1, a, ha, q3, q5⟩
    · intro hsort
      have := g4 hsort
      rw [List.pairwise_map] at this
      rw [List.pairwise_map]
      refine List.Pairwise.imp_of_mem ?_ this
      intro k k' hk hk' hle
      have hmem := List.mem_of_getElem? g1
      unfold atomDist at hle
      rw [himg k (hin ks hmem k hk), himg k' (hin ks hmem k' hk')] at hle
      exact hle
  · show N.lists.length = _
    unfold crystalCentres
    rw [h4, List.length_map, List.length_map, List.length_zip, List.length_map, h5, hsa, Nat.min_self]
  · intro ii c hc
    unfold crystalCentres at hc
    rw [List.getElem?_map] at hc
    obtain ⟨x, hx, rfl⟩ := Option.map_eq_some_iff.1 hc
    rw [List.getElem?_zip_eq_some] at hx
    obtain ⟨hx1, hx2⟩ := hx
    rw [List.getElem?_map] at hx2
    obtain ⟨ks, hks, hx2⟩ := Option.map_eq_some_iff.1 hx2
    have hz := superShifts_zero_odd (halfWidth s rcut pbc)
    have hget := superAtoms_get s _ hz hx1
    rw [imagePos_zero] at hget
    have hp : (0 : ℤ) ≤ primCellIdx (fun i => 2 * (halfWidth s rcut pbc i : ℤ) + 1) := by
      rw [primCellIdx_odd]; positivity
    have e : ((ii : ℤ) + N.bins.supercell.primIdx * N.bins.supercell.primNum)
        = (((primCellIdx (fun i => 2 * (halfWidth s rcut pbc i : ℤ) + 1)).toNat * s.atoms.length + ii : ℕ) : ℤ) := by
      have e0 : oddScale s rcut pbc = fun i => 2 * (halfWidth s rcut pbc i : ℤ) + 1 := rfl
      rw [h3]
      simp only [CSupercell.make]
      rw [e0]
      push_cast
      rw [Int.toNat_of_nonneg hp]
      ring
    have hcg := cGet_nat hget
    have hmem := List.mem_of_getElem? hks
    refine ⟨_, ks.map (fun k : ℕ => (k : ℤ)), rfl, ?_, ?_, ?_, ?_⟩
    · show (cGet N.bins.supercell.struct.atoms _ >>= _) = _
      rw [e, hat]
      exact (congrArg (· >>= _) hcg).trans rfl
    · show (cGet N.bins.supercell.struct.atoms _ >>= _) = _
      rw [e, hat]
      exact (congrArg (· >>= _) hcg).trans rfl
    · show cGet N.lists (ii : ℤ) = _
      rw [h4]
      exact cGet_nat (by rw [List.getElem?_map, hks]; rfl)
    · rw [← hx2, List.map_map, List.forall₂_map_left_iff, List.forall₂_map_right_iff, List.forall₂_same]
      intro k hk
      have hk' := cGet_nat (himg k (hin ks hmem k hk))
      constructor
      · show (cGet N.bins.supercell.struct.atoms _ >>= _) = _
        rw [hat]
        exact (congrArg (· >>= _) hk').trans rfl
      · show (cGet N.bins.supercell.struct.atoms _ >>= _) = _
        rw [hat]
        exact (congrArg (· >>= _) hk').trans rfl
  · intro cz
    unfold NbrLists.numCentresOf
    have hlen : N.lists.length = atoms.length := by rw [h4, List.length_map, h5, hsa]
    rw [hlen, mapM_map_ok (g := fun ii => ((atoms[ii]?).map Prod.fst).getD 0), ok_bind]
    · refine congrArg Except.ok ?_
      have : (List.range atoms.length).map (fun ii => ((atoms[ii]?).map Prod.fst).getD 0)
          = atoms.map Prod.fst := by
        refine List.ext_getElem? ?_
        intro k
        rw [List.getElem?_map, List.getElem?_map]
        rcases Nat.lt_or_ge k atoms.length with hk | hk
        · rw [List.getElem?_range hk, Option.map_some, List.getElem?_eq_getElem hk]
          rfl
        · rw [List.getElem?_eq_none (by simpa using hk), List.getElem?_eq_none hk]
          rfl
      rw [this, List.count, List.countP_map]
      refine List.countP_congr ?_
      intro a _
      simp
    · intro ii hii
      have hg := List.getElem?_eq_getElem (List.mem_range.1 hii)
      have := superAtoms_get s _ ht0 (by rw [hsa]; exact hg)
      rw [zero_mul, zero_add] at this
      rw [hat, hg]
      exact (congrArg (· >>= _) (cGet_nat this)).trans rfl
  · intro nz
    unfold NbrLists.maxNbrsOf
    rw [h4, List.mapM_map, mapM_map_ok (g := fun ks => ((ks.map (imageAt s (oddScale s rcut pbc))).map
      (imageAtom L atoms)).countP (fun q => decide (q.1 = nz))), ok_bind, List.map_map]
    · rfl
    · intro ks hks
      rw [Function.comp_apply, countOf_spec N s _ hat nz ks (hin ks hks)]
      refine congrArg Except.ok ?_
      rw [List.countP_map, List.countP_map, List.countP_map]
      refine List.countP_congr ?_
      intro k hk
      obtain ⟨a, q1, q2, _⟩ := imageAt_get s _ (List.getElem?_eq_getElem (hin ks hks k hk))
      have q1' := q1
      rw [hsa] at q1'
      simp [Function.comp, imageAtom, q1, q1']
  · intro cz nz
    unfold NbrLists.maxNumOf
    have hcnt : ∀ ks ∈ K, N.countOf nz (ks.map (fun k : ℕ => (k : ℤ)))
        = .ok (((ks.map (imageAt s (oddScale s rcut pbc))).map (imageAtom L atoms)).countP
          (fun q => decide (q.1 = nz))) := by
      intro ks hks
      rw [countOf_spec N s _ hat nz ks (hin ks hks)]
      refine congrArg Except.ok ?_
      rw [List.countP_map, List.countP_map, List.countP_map]
      refine List.countP_congr ?_
      intro k hk
      obtain ⟨a, q1, q2, _⟩ := imageAt_get s _ (List.getElem?_eq_getElem (hin ks hks k hk))
      have q1' := q1
      rw [hsa] at q1'
      simp [Function.comp, imageAtom, q1, q1']
    rw [(mapM_eq_ok (l' := (crystalCentres L atoms (K.map (fun ks => ks.map
      (imageAt s (oddScale s rcut pbc))))).map (fun s =>
        if s.z = cz then s.nbrs.countP (fun q => decide (q.1 = nz)) else 0))).2]
    · rfl
    · rw [List.forall₂_iff_get]
      have hl5 : K.length = atoms.length := by rw [h5, hsa]
      refine ⟨by simp [crystalCentres, h4, hl5], ?_⟩
      intro i hi1 hi2
      have hiK : i < K.length := by simpa [h4] using hi1
      have hia : i < atoms.length := by omega
      have hget := superAtoms_get s _ ht0 (by rw [hsa]; exact List.getElem?_eq_getElem hia)
      rw [zero_mul, zero_add] at hget
      simp only [List.get_eq_getElem, List.getElem_zipIdx, Nat.zero_add, hat, crystalCentres,
        List.getElem_map, List.getElem_zip, h4]
      rw [cGet_nat hget, ok_bind]
      show (if atoms[i].1 = cz then _ else _) = _
      split_ifs
      · exact hcnt _ (List.getElem_mem hiK)
      · rfl

/-- The neighbour list of a structure presents every atom of the cell with its periodic images. -/
theorem nbr_reads (A : ArgSort) (L : Fin 3 → Vec ℝ) (atoms : List (ℤ × Vec ℝ)) (rcut : ℝ)
    (pbc : Fin 3 → Bool) (sort : Bool) (hok : CellOk L atoms pbc) (hr : 0 < rcut)
    (hap : ApartImages L (atoms.map Prod.snd)) :
    ∃ N, NbrLists.make A (CStruct.make L atoms true) rcut pbc sort = .ok N ∧ N.bins.rcut = rcut ∧
      ∃ I, ListsImages L pbc atoms rcut sort I ∧ N.src.Reads (crystalCentres L atoms I) ∧
        (∀ cz, N.numCentresOf cz = .ok (atoms.countP (fun a => decide (a.1 = cz)))) ∧
        (∀ nz, N.maxNbrsOf nz = .ok (runningMax (I.map (fun imgs =>
          (imgs.map (imageAtom L atoms)).countP (fun q => decide (q.1 = nz)))))) ∧
        ∀ cz nz, N.maxNumOf cz nz = .ok (runningMax ((crystalCentres L atoms I).map (fun s =>
          if s.z = cz then s.nbrs.countP (fun q => decide (q.1 = nz)) else 0))) := by
  obtain ⟨N, h1, h2, I, _, h⟩ := nbr_reads_lists A L atoms rcut pbc sort hok hr hap
  exact ⟨N, h1, h2, I, h⟩

theorem cGet_map {α β : Type} (f : α → β) (l : List α) (i : ℤ) :
    cGet (l.map f) i = (cGet l i >>= fun a => .ok (f a)) := by
  unfold cGet
  split_ifs
  · rfl
  · rw [List.getElem?_map]
    cases l[i.toNat]? <;> rfl

/-- The arrays taken from a neighbour list present the same centres. -/
theorem toLmp_reads {N : NbrLists} {sites : List Centre} (h : N.src.Reads sites) :
    N.toLmp.src.Reads sites := by
  obtain ⟨h0, h1⟩ := h
  refine ⟨?_, ?_⟩
  · show ((N.lists.length : ℕ) : ℤ).toNat = _
    rw [Int.toNat_natCast]
    exact h0
  · intro ii s hs
    obtain ⟨i, l, e1, e2, e3, e4, e5⟩ := h1 ii s hs
    have hlen : ii < N.lists.length := by
      have : N.lists.length = sites.length := h0
      rw [this]
      exact (List.getElem?_eq_some_iff.1 hs).1
    have hl : N.lists[ii]? = some l := by
      have hg := List.getElem?_eq_getElem hlen
      have h' : cGet N.lists (ii : ℤ) = .ok l := e4
      rw [cGet_nat hg] at h'
      rw [hg, Except.ok.inj h']
    have hty : ∀ k, N.toLmp.src.ty k = N.src.ty k := fun k => cGet_map _ _ _
    have hpos : ∀ k, N.toLmp.src.pos k = N.src.pos k := fun k => cGet_map _ _ _
    refine ⟨i, l, ?_, by rw [hty]; exact e2, by rw [hpos]; exact e3, ?_, ?_⟩
    · have h' : Except.ok _ = Except.ok i := e1
      show cGet ((List.range N.lists.length).map _) (ii : ℤ) = _
      rw [cGet_nat (a := i)]
      rw [List.getElem?_map, List.getElem?_range hlen, Option.map_some, Except.ok.inj h']
    · show (cGet (N.lists.map _) (ii : ℤ) >>= _) = _
      rw [cGet_nat (a := (l.length : ℤ)) (by rw [List.getElem?_map, hl]; rfl), ok_bind, Int.toNat_natCast]
      rw [mapM_eq_ok, List.forall₂_iff_get]
      refine ⟨by simp, ?_⟩
      intro jj _ hj
      show (cGet N.lists (ii : ℤ) >>= _) = _
      rw [cGet_nat hl, ok_bind, List.get_eq_getElem, List.getElem_range]
      exact cGet_nat (List.getElem?_eq_getElem hj)
    · simp only [hty, hpos]
      exact e5

/-! ## The tables -/

theorem cTake_append {α : Type} (l extra : List α) : cTake (l ++ extra) l.length = .ok l := by
  unfold cTake
  rw [mapM_eq_ok, List.forall₂_iff_get]
  refine ⟨by simp, ?_⟩
  intro i _ hi
  rw [List.get_eq_getElem, List.getElem_range]
  refine cGet_nat ?_
  rw [List.getElem?_append_left hi, List.getElem?_eq_getElem hi]
  rfl

theorem tilde_stack_ok {α β : Type} (wrap : α → β) (zero : α) (val : Vec ℝ → α)
    (gen : ℤ → ℤ → ℕ → ℤ → Except CErr (List (List α))) (cz : List ℤ) (nzw : List (ℤ × ℕ))
    (sites : List Centre) (arr : List (List β))
    (hgen : ∀ c ∈ cz, ∀ e ∈ nzw, gen c e.1 (sites.countP (fun s => decide (s.z = c))) (e.2 : ℤ)
      = .ok (pairRows zero val c e.1 e.2 sites))
    (hroom : HasSlots cz nzw sites)
    (harr : arr.length = (cz.map (fun c => sites.countP (fun s => decide (s.z = c)))).sum)
    (hrow : ∀ row ∈ arr, row.length = (nzw.map Prod.snd).sum) :
    stackPairs wrap gen cz (nzw.map Prod.fst) (cz.map (fun c => sites.countP (fun s => decide (s.z = c))))
        (nzw.map (fun e => (e.2 : ℤ))) arr
      = .ok ((tildeTable zero (fun q c => val (q - c)) cz nzw sites).map (List.map wrap)) := by
  simp only [List.countP_eq_length_filter] at harr hgen ⊢
  have := stackPairs_ok wrap gen cz nzw (fun c => sites.filter (fun s => decide (s.z = c)))
    (fun e s => slotsOf zero (fun q => val (q - s.c)) s.nbrs e) arr
    (fun c hc e he => hgen c hc e he) ?_ harr hrow
  · rw [this]
    refine congrArg Except.ok ?_
    unfold tildeTable
    rw [List.map_flatMap]
    refine List.flatMap_congr ?_
    intro c _
    rw [List.map_map]
    rfl
  · intro c hc e he s hs
    rw [List.mem_filter, decide_eq_true_eq] at hs
    exact slotsOf_length _ _ _ _ (hroom s hs.1 (by rw [hs.2]; exact hc) e he)

theorem tilde_stack_err {α β : Type} (wrap : α → β) (zero : α) (val : Vec ℝ → α)
    (gen : ℤ → ℤ → ℕ → ℤ → Except CErr (List (List α))) (cz : List ℤ) (nzw : List (ℤ × ℕ))
    (sites : List Centre) (er : CErr) (arr : List (List β))
    (hgen : ∀ (c nz : ℤ) (w : ℕ), (∀ s ∈ sites, s.z = c → s.nbrs.countP (fun q => decide (q.1 = nz)) ≤ w) →
      gen c nz (sites.countP (fun s => decide (s.z = c))) (w : ℤ) = .ok (pairRows zero val c nz w sites))
    (hgen' : ∀ (c nz : ℤ) (w : ℕ),
      (∃ s ∈ sites, s.z = c ∧ w < s.nbrs.countP (fun q => decide (q.1 = nz))) →
      gen c nz (sites.countP (fun s => decide (s.z = c))) (w : ℤ) = .error er)
    (hroom : ¬ HasSlots cz nzw sites)
    (harr : arr.length = (cz.map (fun c => sites.countP (fun s => decide (s.z = c)))).sum)
    (hrow : ∀ row ∈ arr, row.length = (nzw.map Prod.snd).sum) :
    stackPairs wrap gen cz (nzw.map Prod.fst) (cz.map (fun c => sites.countP (fun s => decide (s.z = c))))
        (nzw.map (fun e => (e.2 : ℤ))) arr = .error er := by
  simp only [List.countP_eq_length_filter (p := fun s : Centre => _)] at harr ⊢
  refine stackPairs_err wrap gen cz nzw (fun c => sites.filter (fun s => decide (s.z = c)))
    (fun e s => slotsOf zero (fun q => val (q - s.c)) s.nbrs e) er arr ?_ ?_ harr hrow
  · intro c hc e he
    simp only [← List.countP_eq_length_filter]
    by_cases h : ∀ s ∈ sites, s.z = c → s.nbrs.countP (fun q => decide (q.1 = e.1)) ≤ e.2
    · refine Or.inl ⟨hgen c e.1 e.2 h, ?_⟩
      intro s hs
      rw [List.mem_filter, decide_eq_true_eq] at hs
      exact slotsOf_length _ _ _ _ (h s hs.1 hs.2)
    · push Not at h
      exact Or.inr (hgen' c e.1 e.2 h)
  · unfold HasSlots at hroom
    push Not at hroom
    obtain ⟨s, hs, hz, e, he, hw⟩ := hroom
    refine ⟨s.z, hz, e, he, ?_⟩
    simp only [← List.countP_eq_length_filter]
    exact hgen' s.z e.1 e.2 ⟨s, hs, rfl, hw⟩

theorem allocRows_shape {α : Type} (n w : ℕ) (a : α) :
    (allocRows (n : ℤ) (w : ℤ) a).length = n ∧ ∀ row ∈ allocRows (n : ℤ) (w : ℤ) a, row.length = w := by
  unfold allocRows
  refine ⟨by simp, ?_⟩
  intro row hrow
  rw [List.eq_of_mem_replicate hrow]
  simp

theorem cast_widths (nzw : List (ℤ × ℕ)) :
    (nzw.map (fun e => (e.2 : ℤ))).sum = (((nzw.map Prod.snd).sum : ℕ) : ℤ) := by
  rw [← map_cast_sum, List.map_map]
  rfl

/-- The function which fills a block in the member functions. -/
def pairMember {α : Type} (N : NbrLists) (val : Vec ℝ → α) (zero : α) (check : Bool) (c z : ℤ) (n : ℕ)
    (w : ℤ) : Except CErr (List (List α)) := do
  let r ← pairFill N.src c z val true (allocRows (n : ℤ) w zero)
  if check && decide (r.2 ≠ n) then .error .assertFail else return r.1

theorem pairMember_ok {α : Type} (N : NbrLists) (sites : List Centre) (hS : N.src.Reads sites)
    (val : Vec ℝ → α) (zero : α) (check : Bool) (c nz : ℤ) (w : ℕ)
    (hroom : ∀ s ∈ sites, s.z = c → s.nbrs.countP (fun q => decide (q.1 = nz)) ≤ w) :
    pairMember N val zero check c nz (sites.countP (fun s => decide (s.z = c))) (w : ℤ)
      = .ok (pairRows zero val c nz w sites) := by
  unfold pairMember
  rw [pairFill_ok _ _ hS _ _ _ _ _ hroom, ok_bind, if_neg (by simp)]
  rfl

theorem pairMember_oob {α : Type} (N : NbrLists) (sites : List Centre) (hS : N.src.Reads sites)
    (val : Vec ℝ → α) (zero : α) (check : Bool) (c nz : ℤ) (w : ℕ)
    (h : ∃ s ∈ sites, s.z = c ∧ w < s.nbrs.countP (fun q => decide (q.1 = nz))) :
    pairMember N val zero check c nz (sites.countP (fun s => decide (s.z = c))) (w : ℤ)
      = .error .outOfBounds := by
  unfold pairMember
  rw [pairFill_oob _ _ hS _ _ _ _ _ h, error_bind]

theorem PairTilde.generate_eq (P : PairTilde) :
    P.generate = pairMember P.nbr (cEnvRow P.nbr.bins.rcut P.rs) 0 true P.cz P.nz P.numC P.numN := by
  unfold PairTilde.generate pairMember
  congr 1
  funext r
  simp only [Bool.true_and, decide_eq_true_eq]

theorem PairTilde.deriv_eq (P : PairTilde) :
    P.deriv = pairMember P.nbr (cSe4pwDeriv P.nbr.bins.rcut P.rs) 0 false P.cz P.nz P.numC P.numN := by
  unfold PairTilde.deriv pairMember
  congr 1

/-- The values and derivatives of the member functions when there is room. -/
theorem tilde_member_ok (N : NbrLists) (sites : List Centre) (hS : N.src.Reads sites) (cz : List ℤ)
    (nzw : List (ℤ × ℕ)) (rs : ℝ) (hroom : HasSlots cz nzw sites) :
    (Tilde.mk N cz (nzw.map Prod.fst) (cz.map (fun c => sites.countP (fun s => decide (s.z = c))))
        (nzw.map (fun e => (e.2 : ℤ))) rs).generate
      = .ok ((tildeTable 0 (fun q c => cEnvRow N.bins.rcut rs (q - c)) cz nzw sites).map (List.map some)) ∧
    (Tilde.mk N cz (nzw.map Prod.fst) (cz.map (fun c => sites.countP (fun s => decide (s.z = c))))
        (nzw.map (fun e => (e.2 : ℤ))) rs).deriv
      = .ok (tildeTable 0 (fun q c => cSe4pwDeriv N.bins.rcut rs (q - c)) cz nzw sites) := by
  have hr : ∀ c ∈ cz, ∀ e ∈ nzw, ∀ s ∈ sites, s.z = c → s.nbrs.countP (fun q => decide (q.1 = e.1)) ≤ e.2 :=
    fun c hc e he s hs hz => hroom s hs (by rw [hz]; exact hc) e he
  constructor
  · unfold Tilde.generate
    simp only [PairTilde.generate_eq, cast_widths]
    refine tilde_stack_ok some 0 _ _ cz nzw sites _ ?_ hroom (allocRows_shape _ _ _).1 (allocRows_shape _ _ _).2
    intro c hc e he
    exact pairMember_ok N sites hS _ _ _ _ _ _ (hr c hc e he)
  · unfold Tilde.deriv
    simp only [PairTilde.deriv_eq, cast_widths]
    refine (tilde_stack_ok id 0 (cSe4pwDeriv N.bins.rcut rs) _ cz nzw sites _ ?_ hroom
      (allocRows_shape _ _ _).1 (allocRows_shape _ _ _).2).trans ?_
    · intro c hc e he
      exact pairMember_ok N sites hS _ _ _ _ _ _ (hr c hc e he)
    · simp

theorem tilde_member_oob (N : NbrLists) (sites : List Centre) (hS : N.src.Reads sites) (cz : List ℤ)
    (nzw : List (ℤ × ℕ)) (rs : ℝ) (hroom : ¬ HasSlots cz nzw sites) :
    (Tilde.mk N cz (nzw.map Prod.fst) (cz.map (fun c => sites.countP (fun s => decide (s.z = c))))
        (nzw.map (fun e => (e.2 : ℤ))) rs).generate = .error .outOfBounds ∧
    (Tilde.mk N cz (nzw.map Prod.fst) (cz.map (fun c => sites.countP (fun s => decide (s.z = c))))
        (nzw.map (fun e => (e.2 : ℤ))) rs).deriv = .error .outOfBounds := by
  constructor
  · unfold Tilde.generate
    simp only [PairTilde.generate_eq, cast_widths]
    exact tilde_stack_err some 0 (cEnvRow N.bins.rcut rs) _ cz nzw sites _ _
      (fun c nz w h => pairMember_ok N sites hS _ _ _ _ _ _ h)
      (fun c nz w h => pairMember_oob N sites hS _ _ _ _ _ _ h) hroom (allocRows_shape _ _ _).1
      (allocRows_shape _ _ _).2
  · unfold Tilde.deriv
    simp only [PairTilde.deriv_eq, cast_widths]
    exact tilde_stack_err id 0 (cSe4pwDeriv N.bins.rcut rs) _ cz nzw sites _ _
      (fun c nz w h => pairMember_ok N sites hS _ _ _ _ _ _ h)
      (fun c nz w h => pairMember_oob N sites hS _ _ _ _ _ _ h) hroom (allocRows_shape _ _ _).1
      (allocRows_shape _ _ _).2

theorem numCentres_list (S : PairSrc) (sites : List Centre) (hS : S.Reads sites) (cz : List ℤ) :
    cz.mapM S.numCentres = .ok (cz.map (fun c => sites.countP (fun s => decide (s.z = c)))) :=
  mapM_map_ok (fun c _ => numCentres_ok S sites hS c)

theorem cTake_widths (nzw : List (ℤ × ℕ)) (extra : List ℤ) :
    cTake (nzw.map (fun e => (e.2 : ℤ)) ++ extra) (nzw.map Prod.fst).length
      = .ok (nzw.map (fun e => (e.2 : ℤ))) := by
  have := cTake_append (nzw.map (fun e => (e.2 : ℤ))) extra
  rwa [List.length_map] at this ⊢

/-- The static functions when there is room. -/
theorem tilde_static_ok (p : LmpIn) (sites : List Centre) (hS : p.src.Reads sites) (cz : List ℤ)
    (nzw : List (ℤ × ℕ)) (extra : List ℤ) (rcut rs : ℝ) (hroom : HasSlots cz nzw sites) :
    tildeGenerateLmp p cz (nzw.map Prod.fst) (nzw.map (fun e => (e.2 : ℤ)) ++ extra) rcut rs
      = .ok ((tildeTable 0 (fun q c => cEnvRow rcut rs (q - c)) cz nzw sites).map (List.map some)) ∧
    tildeDerivLmp p cz (nzw.map Prod.fst) (nzw.map (fun e => (e.2 : ℤ)) ++ extra) rcut rs
      = .ok (tildeTable 0 (fun q c => cSe4pwDeriv rcut rs (q - c)) cz nzw sites) ∧
    (∀ arr, arr.length = (cz.map (fun c => sites.countP (fun s => decide (s.z = c)))).sum →
      (∀ row ∈ arr, row.length = (nzw.map Prod.snd).sum) →
      tildeGenerateInto arr p cz (nzw.map Prod.fst) (nzw.map (fun e => (e.2 : ℤ)) ++ extra) rcut rs
        = .ok (tildeTable 0 (fun q c => cEnvRow rcut rs (q - c)) cz nzw sites)) ∧
    (∀ arr, arr.length = (cz.map (fun c => sites.countP (fun s => decide (s.z = c)))).sum →
      (∀ row ∈ arr, row.length = (nzw.map Prod.snd).sum) →
      tildeDerivInto arr p cz (nzw.map Prod.fst) (nzw.map (fun e => (e.2 : ℤ)) ++ extra) rcut rs
        = .ok (tildeTable 0 (fun q c => cSe4pwDeriv rcut rs (q - c)) cz nzw sites)) := by
  have hr : ∀ c ∈ cz, ∀ e ∈ nzw, ∀ s ∈ sites, s.z = c → s.nbrs.countP (fun q => decide (q.1 = e.1)) ≤ e.2 :=
    fun c hc e he s hs hz => hroom s hs (by rw [hz]; exact hc) e he
  have hg : ∀ c ∈ cz, ∀ e ∈ nzw, pairGenerateLmp p c e.1 (e.2 : ℤ) rcut rs
      = .ok (pairRows 0 (cEnvRow rcut rs) c e.1 e.2 sites) :=
    fun c hc e he => pairLmp_ok p sites hS _ _ _ _ _ _ (hr c hc e he)
  have hd : ∀ c ∈ cz, ∀ e ∈ nzw, pairDerivLmp p c e.1 (e.2 : ℤ) rcut rs
      = .ok (pairRows 0 (cSe4pwDeriv rcut rs) c e.1 e.2 sites) :=
    fun c hc e he => pairLmp_ok p sites hS _ _ _ _ _ _ (hr c hc e he)
  refine ⟨?_, ?_, ?_, ?_⟩
  · unfold tildeGenerateLmp
    rw [numCentres_list _ _ hS, ok_bind, cTake_widths, ok_bind, cast_widths]
    exact tilde_stack_ok some 0 _ _ cz nzw sites _ hg hroom (allocRows_shape _ _ _).1 (allocRows_shape _ _ _).2
  · unfold tildeDerivLmp
    rw [numCentres_list _ _ hS, ok_bind, cTake_widths, ok_bind, cast_widths]
    refine (tilde_stack_ok id 0 _ _ cz nzw sites _ hd hroom (allocRows_shape _ _ _).1
      (allocRows_shape _ _ _).2).trans ?_
    simp
  · intro arr h1 h2
    unfold tildeGenerateInto
    rw [numCentres_list _ _ hS, ok_bind, cTake_widths, ok_bind]
    refine (tilde_stack_ok id 0 _ _ cz nzw sites _ hg hroom h1 h2).trans ?_
    simp
  · intro arr h1 h2
    unfold tildeDerivInto
    rw [numCentres_list _ _ hS, ok_bind, cTake_widths, ok_bind]
    refine (tilde_stack_ok id 0 _ _ cz nzw sites _ hd hroom h1 h2).trans ?_
    simp

theorem tilde_static_err (p : LmpIn) (sites : List Centre) (hS : p.src.Reads sites) (cz : List ℤ)
    (nzw : List (ℤ × ℕ)) (extra : List ℤ) (rcut rs : ℝ) (hroom : ¬ HasSlots cz nzw sites) :
    tildeGenerateLmp p cz (nzw.map Prod.fst) (nzw.map (fun e => (e.2 : ℤ)) ++ extra) rcut rs
      = .error .assertFail ∧
    tildeDerivLmp p cz (nzw.map Prod.fst) (nzw.map (fun e => (e.2 : ℤ)) ++ extra) rcut rs
      = .error .assertFail ∧
    (∀ arr, arr.length = (cz.map (fun c => sites.countP (fun s => decide (s.z = c)))).sum →
      (∀ row ∈ arr, row.length = (nzw.map Prod.snd).sum) →
      tildeGenerateInto arr p cz (nzw.map Prod.fst) (nzw.map (fun e => (e.2 : ℤ)) ++ extra) rcut rs
        = .error .assertFail) ∧
    (∀ arr, arr.length = (cz.map (fun c => sites.countP (fun s => decide (s.z = c)))).sum →
      (∀ row ∈ arr, row.length = (nzw.map Prod.snd).sum) →
      tildeDerivInto arr p cz (nzw.map Prod.fst) (nzw.map (fun e => (e.2 : ℤ)) ++ extra) rcut rs
        = .error .assertFail) := by
  have bad : ∀ {α : Type} (val : Vec ℝ → α) (zero : α) (atEnd : Bool) (c nz : ℤ) (w : ℕ),
      (∃ s ∈ sites, s.z = c ∧ w < s.nbrs.countP (fun q => decide (q.1 = nz))) →
      pairLmp p c nz (w : ℤ) val zero atEnd = .error .assertFail := by
    intro α val zero atEnd c nz w h
    obtain ⟨s, hs, hz, hw⟩ := h
    exact pairLmp_assert p sites hS _ _ _ _ _ _ ⟨s, hs, hz, by exact_mod_cast hw⟩
  have e1 : ∀ {β : Type} (wrap : (Fin 4 → ℝ) → β) (arr : List (List β)),
      arr.length = (cz.map (fun c => sites.countP (fun s => decide (s.z = c)))).sum →
      (∀ row ∈ arr, row.length = (nzw.map Prod.snd).sum) →
      stackPairs wrap (fun c z _ w => pairGenerateLmp p c z w rcut rs) cz (nzw.map Prod.fst)
        (cz.map (fun c => sites.countP (fun s => decide (s.z = c)))) (nzw.map (fun e => (e.2 : ℤ))) arr
        = .error .assertFail := fun wrap arr h1 h2 =>
    tilde_stack_err wrap 0 (cEnvRow rcut rs) _ cz nzw sites _ arr
      (fun c nz w h => pairLmp_ok p sites hS _ _ _ _ _ _ h) (fun c nz w h => bad _ _ _ c nz w h) hroom h1 h2
  have e2 : ∀ {β : Type} (wrap : Matrix (Fin 4) (Fin 3) ℝ → β) (arr : List (List β)),
      arr.length = (cz.map (fun c => sites.countP (fun s => decide (s.z = c)))).sum →
      (∀ row ∈ arr, row.length = (nzw.map Prod.snd).sum) →
      stackPairs wrap (fun c z _ w => pairDerivLmp p c z w rcut rs) cz (nzw.map Prod.fst)
        (cz.map (fun c => sites.countP (fun s => decide (s.z = c)))) (nzw.map (fun e => (e.2 : ℤ))) arr
        = .error .assertFail := fun wrap arr h1 h2 =>
    tilde_stack_err wrap 0 (cSe4pwDeriv rcut rs) _ cz nzw sites _ arr
      (fun c nz w h => pairLmp_ok p sites hS _ _ _ _ _ _ h) (fun c nz w h => bad _ _ _ c nz w h) hroom h1 h2
  refine ⟨?_, ?_, ?_, ?_⟩
  · unfold tildeGenerateLmp
    rw [numCentres_list _ _ hS, ok_bind, cTake_widths, ok_bind, cast_widths]
    exact e1 some _ (allocRows_shape _ _ _).1 (allocRows_shape _ _ _).2
  · unfold tildeDerivLmp
    rw [numCentres_list _ _ hS, ok_bind, cTake_widths, ok_bind, cast_widths]
    exact e2 id _ (allocRows_shape _ _ _).1 (allocRows_shape _ _ _).2
  · intro arr h1 h2
    unfold tildeGenerateInto
    rw [numCentres_list _ _ hS, ok_bind, cTake_widths, ok_bind]
    exact e1 id _ h1 h2
  · intro arr h1 h2
    unfold tildeDerivInto
    rw [numCentres_list _ _ hS, ok_bind, cTake_widths, ok_bind]
    exact e2 id _ h1 h2

end MaterSDK
