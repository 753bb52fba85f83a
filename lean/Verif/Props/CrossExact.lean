import Verif.Props.Cross
import Verif.Props.ExactFourth

/-! # C171: exactly when the Python and the C++ environment matrices agree -/

namespace MaterSDK

open Classical

/-- The images of one element in the C++ list are among the neighbours in the supercell that are nearer than
the cutoff; there is no assumption on atoms at the cutoff. -/
theorem crystal_sub_lt (s S : Struct ℝ) (hL : s.lattice.det ≠ 0) (sc : Fin 3 → ℤ)
    (m : Fin 3 → ℕ) (h : ∀ i, sc i = 2 * (m i : ℤ) + 1) (hS : s.makeSupercell sc true = .ok S)
    (r : ℝ) (hr : ∀ i, r ≤ (m i : ℝ) * planeDist s.lattice i)
    (hin : ∀ t ∈ s.sites, InCell s.lattice t.pos)
    (hap : ApartImages s.lattice (s.sites.map Site.pos))
    (i : ℕ) (c : Site ℝ) (hc : s.sites[i]? = some c) (imgs : List (ℕ × (Fin 3 → ℤ))) (hnd : imgs.Nodup)
    (himgs : ∀ e ∈ imgs, NearBy s.lattice (fun _ => true) (s.sites.map Site.pos) r c.pos e ∧ e ≠ (i, 0))
    (nz : ℕ) :
    (imgs.filter (fun e => decide ((s.sites[e.1]?).map Site.z = some nz))).length
      ≤ ((nbrsOf S c.pos r nz).filter (fun t => decide (dist3 t.pos c.pos < r))).length := by
  have hcm : c ∈ s.sites := List.mem_of_getElem? hc
  have hci : (s.sites.map Site.pos)[i]? = some c.pos := by rw [List.getElem?_map, hc]; rfl
  have hsite : ∀ e ∈ imgs, ∃ t, s.sites[e.1]? = some t ∧ dist3 (imagePos s.lattice t.pos e.2) c.pos < r ∧
      e ≠ (i, 0) ∧ posOfImage s e = imagePos s.lattice t.pos e.2 := by
    intro e he
    obtain ⟨⟨_, p, hp, hd⟩, hne⟩ := himgs e he
    rw [List.getElem?_map] at hp
    obtain ⟨t, ht, rfl⟩ := Option.map_eq_some_iff.1 hp
    exact ⟨t, ht, hd, hne, by simp only [posOfImage, ht]⟩
  have hn : ((imgs.filter (fun e => decide ((s.sites[e.1]?).map Site.z = some nz))).map (posOfImage s)).Nodup := by
    refine (hnd.filter _).map_on ?_
    intro e he f hf hef
    obtain ⟨t, ht, _, _, hpe⟩ := hsite e (List.mem_filter.1 he).1
    obtain ⟨u, hu, _, _, hpf⟩ := hsite f (List.mem_filter.1 hf).1
    rw [hpe, hpf] at hef
    by_contra hne
    have hne' : (f.1, f.2 - e.2) ≠ (e.1, 0) := by
      intro h0
      apply hne
      rw [Prod.mk.injEq, sub_eq_zero] at h0
      exact Prod.ext h0.1.symm h0.2.symm
    have := hap e.1 f.1 t.pos u.pos (f.2 - e.2) (by rw [List.getElem?_map, ht]; rfl)
      (by rw [List.getElem?_map, hu]; rfl) hne'
    have he0 : imagePos s.lattice u.pos (f.2 - e.2) = t.pos := by
      have h1 : imagePos s.lattice u.pos (f.2 - e.2)
          = imagePos s.lattice u.pos f.2 - ∑ a, (e.2 a : ℝ) • s.lattice a := by
        unfold imagePos
        simp only [Pi.sub_apply, Int.cast_sub, sub_smul, Finset.sum_sub_distrib]
        abel
      rw [h1, ← hef]
      unfold imagePos
      abel
    rw [he0, dist3_self] at this
    norm_num at this
  have hsub : (imgs.filter (fun e => decide ((s.sites[e.1]?).map Site.z = some nz))).map (posOfImage s)
      ⊆ ((nbrsOf S c.pos r nz).filter (fun t => decide (dist3 t.pos c.pos < r))).map Site.pos := by
    intro p hp
    obtain ⟨e, he, rfl⟩ := List.mem_map.1 hp
    obtain ⟨he1, he2⟩ := List.mem_filter.1 he
    simp only [decide_eq_true_eq] at he2
    obtain ⟨t, ht, hd, hne, hp⟩ := hsite e he1
    rw [ht] at he2
    simp only [Option.map_some, Option.some.injEq] at he2
    obtain ⟨u, hu, huz, hup⟩ := C19_supercell_complete s S hL sc m h hS r hr hin c t hcm
      (List.mem_of_getElem? ht) e.2 hd.le
    have e1 : u.pos = imagePos s.lattice t.pos e.2 := hup
    refine List.mem_map.2 ⟨u, ?_, by rw [hp]; exact hup⟩
    rw [List.mem_filter]
    refine ⟨?_, by simp only [decide_eq_true_eq]; rw [e1]; exact hd⟩
    unfold nbrsOf
    rw [List.mem_filter]
    refine ⟨hu, ?_⟩
    simp only [decide_eq_true_eq]
    refine ⟨by rw [huz, he2], ?_, by rw [e1]; exact hd.le⟩
    have := hap i e.1 c.pos t.pos e.2 hci (by rw [List.getElem?_map, ht]; rfl) hne
    rw [e1]
    rcases (dist3_nonneg (imagePos s.lattice t.pos e.2) c.pos).eq_or_lt with h0 | h0
    · rw [← h0] at this; norm_num at this
    · exact h0
  have := (hn.subperm hsub).length_le
  simpa using this

/-- With enough slots for a slightly larger cutoff, the Python tables have enough columns. -/
theorem slots_width (s S : Struct ℝ) (hL : s.lattice.det ≠ 0) (hsep : Separated s) (sc : Fin 3 → ℤ)
    (m : Fin 3 → ℕ) (h : ∀ i, sc i = 2 * (m i : ℤ) + 1) (hS : s.makeSupercell sc true = .ok S)
    (els umax : List ℕ) (r r' : ℝ) (hrr : r < r') (hroom : SlotsSuffice els umax s r')
    (c : Site ℝ) (hc : c ∈ s.sites) (k nz w : ℕ) (hk : els[k]? = some nz) (hw : umax[k]? = some w) :
    (nbrsOf S c.pos r nz).length ≤ w := by
  obtain ⟨i, hi⟩ := List.mem_iff_getElem?.1 hc
  have hex : ∀ u ∈ nbrsOf S c.pos r nz, ∃ e : ℕ × (Fin 3 → ℤ), (e ≠ (i, 0) ∧ ∃ t, s.sites[e.1]? = some t ∧
      t.z = nz ∧ dist3 (imagePos s.lattice t.pos e.2) c.pos < r') ∧ u.pos = posOfImage s e := by
    intro u hu
    unfold nbrsOf at hu
    obtain ⟨huS, hu2⟩ := List.mem_filter.1 hu
    simp only [decide_eq_true_eq] at hu2
    obtain ⟨hz, hpos, hle⟩ := hu2
    obtain ⟨t, ht, n, hz', hp⟩ := mem_supercell_image s S sc m h hS u huS
    obtain ⟨j, hj⟩ := List.mem_iff_getElem?.1 ht
    refine ⟨(j, n), ⟨?_, t, hj, by rw [← hz', hz], by rw [← hp]; exact lt_of_le_of_lt hle hrr⟩, ?_⟩
    · intro h0
      rw [Prod.mk.injEq] at h0
      obtain ⟨rfl, rfl⟩ := h0
      rw [hj] at hi
      cases hi
      rw [hp, show imagePos s.lattice c.pos 0 = c.pos from imagePos_zero _ _, dist3_self] at hpos
      exact lt_irrefl _ hpos
    · simp only [posOfImage, hj, hp]
  choose! f hf1 hf2 using hex
  have hnd : ((nbrsOf S c.pos r nz).map Site.pos).Nodup := by
    have := supercell_nodup s S hL hsep sc m h hS
    unfold nbrsOf
    exact this.sublist (List.filter_sublist.map _)
  have hnf : ((nbrsOf S c.pos r nz).map f).Nodup := by
    refine List.Nodup.of_map (posOfImage s) ?_
    rw [List.map_map, show List.map (posOfImage s ∘ f) (nbrsOf S c.pos r nz)
      = (nbrsOf S c.pos r nz).map Site.pos from List.map_congr_left (fun u hu => (hf2 u hu).symm)]
    exact hnd
  have := hroom i c hi k nz w hk hw _ hnf (by
    intro e he
    obtain ⟨u, hu, rfl⟩ := List.mem_map.1 he
    exact hf1 u hu)
  simpa using this

theorem slotsSuffice_mono {els umax : List ℕ} {s : Struct ℝ} {r r' : ℝ} (h : r < r')
    (hroom : SlotsSuffice els umax s r') : SlotsSuffice els umax s r := by
  intro i c hc k nz w hk hw l hl hall
  refine hroom i c hc k nz w hk hw l hl (fun e he => ?_)
  obtain ⟨h1, t, h2, h3, h4⟩ := hall e he
  exact ⟨h1, t, h2, h3, h4.trans h⟩

/-- C171, exactly: for the crystals of `C171_agree_partial`, with slots for the neighbours up to and including
the cutoff, both codes succeed, and the rows and derivative blocks of all centres and neighbour elements agree
up to the order of the neighbours if and only if no atom is exactly at the cutoff from another. -/
theorem C171_agree_iff (A A' : ArgSort) (s : Struct ℝ) (els umax : List ℕ) (rcut rs r' : ℝ) (sort : Bool)
    (sc : Fin 3 → ℤ) (m : Fin 3 → ℕ) (h : ∀ i, sc i = 2 * (m i : ℤ) + 1) (hr : 0 < rcut) (hrs : rs < rcut)
    (hok : CellOk s.lattice (typedAtoms els s) (fun _ => true))
    (hap : ApartImages s.lattice (s.sites.map Site.pos)) (hsep : Separated s)
    (hbig : ∀ i, rcut ≤ (m i : ℝ) * planeDist s.lattice i)
    (hels : ∀ t ∈ s.sites, t.z ∈ els) (h0 : 0 ∉ els) (hnd : els.Nodup) (hlen : umax.length = els.length)
    (hr' : rcut < r') (hroom : SlotsSuffice els umax s r') :
    ∃ table N info out, neighborTable A s rcut sc = .ok table ∧
      NbrLists.make A' (CStruct.make s.lattice (typedAtoms els s) true) rcut (fun _ => true) sort = .ok N ∧
      N.findInfo umax.sum = .ok info ∧
      envFind ⟨info.inum, info.numneigh.map (fun k : ℕ => (k : ℤ)), info.firstneigh, info.types,
        umax.map (fun m : ℕ => (m : ℤ))⟩ info.rel rcut rs = .ok out ∧
      ((∀ cz k nz w : ℕ, els[k]? = some nz → umax[k]? = some w →
        ∃ rows : List (List (Fin 4 → ℝ) × List (Matrix (Fin 4) (Fin 3) ℝ)),
          getTildeR rcut rs table cz nz w = .ok (rows.map Prod.fst) ∧
          calcDerivative rcut rs table cz nz w = .ok (rows.map Prod.snd) ∧
          List.Forall₂ (fun c row => ∃ i : ℕ, s.sites[i]? = some c ∧
              (row.1.zip row.2).Perm
                ((typeSlots umax k (flatRow out umax.sum i)).map (fun e => (e.1, -e.2))))
            (s.reformat_.sites.filter (fun c => c.z = cz)) rows) ↔ NoneAt s rcut) := by
  have hroom0 : SlotsSuffice els umax s rcut := slotsSuffice_mono hr' hroom
  by_cases hgen : NoneAt s rcut
  · obtain ⟨table, N, info, out, h1, h2, h3, h4, h5⟩ := C171_agree_partial A A' s els umax rcut rs sort sc m h hr
      hrs hok hap hsep hbig hgen hels h0 hnd hlen hroom0
    refine ⟨table, N, info, out, h1, h2, h3, h4, ⟨fun _ => hgen, fun _ => ?_⟩⟩
    intro cz k nz w hk hw
    obtain ⟨rows, r1, r2, r3⟩ := h5 cz k nz w hk hw
    exact ⟨rows, r1, r2, r3.imp (fun c row ⟨_, _, i, hi, hp, _⟩ => ⟨i, hi, hp⟩)⟩
  have hL : s.lattice.det ≠ 0 := hok.nonsing
  have hps : (typedAtoms els s).map Prod.snd = s.sites.map Site.pos := by
    unfold typedAtoms; rw [List.map_map]; rfl
  have hatom : ∀ (i : ℕ) (t : Site ℝ), s.sites[i]? = some t →
      (typedAtoms els s)[i]? = some (((els.idxOf t.z : ℕ) : ℤ), t.pos) := by
    intro i t ht
    unfold typedAtoms
    rw [List.getElem?_map, ht]; rfl
  have hin : ∀ t ∈ s.sites, InCell s.lattice t.pos := by
    intro t ht
    exact hok.inCell (_, t.pos) (List.mem_map.2 ⟨t, ht, rfl⟩)
  have hidx : ∀ t ∈ s.sites, ∀ k nz : ℕ, els[k]? = some nz → (els.idxOf t.z = k ↔ t.z = nz) := by
    intro t ht k nz hk
    obtain ⟨hk1, hk2⟩ := List.getElem?_eq_some_iff.1 hk
    constructor
    · intro e
      rw [← hk2]
      subst e
      exact (List.getElem_idxOf _).symm
    · intro e
      rw [e, ← hk2]
      exact hnd.idxOf_getElem k hk1
  have hne : s.sites ≠ [] := by
    intro e
    apply hok.nonempty
    unfold typedAtoms
    rw [e]; rfl
  obtain ⟨N, info, out, c1, c2, c3, c4⟩ := env_core A' s.lattice (typedAtoms els s) rcut rs (fun _ => true)
    sort hok hr (by rw [hps]; exact hap) umax
    (by
      intro a ha
      obtain ⟨t, ht, rfl⟩ := List.mem_map.1 ha
      refine ⟨by simp, ?_⟩
      simp only
      rw [hlen]
      exact_mod_cast List.idxOf_lt_length_iff.2 (hels t ht))
    (by
      intro i c hc t w hw l hl hall
      have hi : i < s.sites.length := by
        have := (List.getElem?_eq_some_iff.1 hc).1
        simpa [typedAtoms] using this
      have hsi : s.sites[i]? = some s.sites[i] := List.getElem?_eq_getElem hi
      have hc' := hatom i _ hsi
      rw [hc] at hc'
      cases hc'
      have hk : t < els.length := by rw [← hlen]; exact (List.getElem?_eq_some_iff.1 hw).1
      refine hroom0 i _ hsi t els[t] w (List.getElem?_eq_getElem hk) hw l hl ?_
      intro e he
      obtain ⟨⟨_, p, hp, hd⟩, e2, e3⟩ := hall e he
      rw [hps, List.getElem?_map] at hp
      obtain ⟨u, hu, rfl⟩ := Option.map_eq_some_iff.1 hp
      refine ⟨e2, u, hu, ?_, hd⟩
      rw [hatom _ _ hu] at e3
      simp only [Option.map_some, Option.some.injEq, Nat.cast_inj] at e3
      exact (hidx u (List.mem_of_getElem? hu) t _ (List.getElem?_eq_getElem hk)).1 e3)
  obtain ⟨S, table, _, t1, t2, _⟩ := C17_table_exact A s rcut sc m h
  refine ⟨table, N, info, out, t2, c1, c2, c3, ⟨fun hall => ?_, fun hg => absurd hg hgen⟩⟩
  exfalso
  unfold NoneAt at hgen
  push Not at hgen
  obtain ⟨c, hc, t, ht, n, hd⟩ := hgen
  have hkl : els.idxOf t.z < els.length := List.idxOf_lt_length_iff.2 (hels t ht)
  have hk : els[els.idxOf t.z]? = some t.z := by
    rw [List.getElem?_eq_getElem hkl, List.getElem_idxOf]
  have hwl : els.idxOf t.z < umax.length := by rw [hlen]; exact hkl
  have hw : umax[els.idxOf t.z]? = some umax[els.idxOf t.z] := List.getElem?_eq_getElem hwl
  generalize umax[els.idxOf t.z] = w at hw
  generalize hkk : els.idxOf t.z = k at *
  have hnz : 0 < t.z := by
    rcases Nat.eq_zero_or_pos t.z with e | e
    · rw [e] at hk
      exact absurd (List.mem_of_getElem? hk) h0
    · exact e
  obtain ⟨rows, r1, r2, r3⟩ := hall c.z k t.z w hk hw
  obtain ⟨rows', r1', r2', r3'⟩ := py_rows A s S hL hsep hne rcut rs hr.le hrs sc m h t1 c.z t.z hnz w
    (fun c' hc' _ => slots_width s S hL hsep sc m h t1 els umax rcut r' hr' hroom c' hc' k t.z w hk hw) table t2
  have hrows : rows = rows' := by
    rw [r1] at r1'
    rw [r2] at r2'
    have e1 := Except.ok.inj r1'
    have e2 := Except.ok.inj r2'
    exact (List.zip_of_prod e1 e2).trans (List.zip_of_prod rfl rfl).symm
  subst hrows
  have hcm : c ∈ s.reformat_.sites.filter (fun c' => c'.z = c.z) := by
    rw [List.mem_filter]
    exact ⟨(sortByKey_perm _ _).mem_iff.2 hc, by simp⟩
  obtain ⟨j, hj⟩ := List.mem_iff_getElem?.1 hcm
  obtain ⟨row, hrow, i, hi, hperm⟩ := forall₂_get r3 hj
  obtain ⟨row', hrow', l1, l2, ts, p1, p2, p3⟩ := forall₂_get r3' hj
  rw [hrow] at hrow'
  cases hrow'
  obtain ⟨imgs, g1, g2, g3, g4, g5⟩ := c4 i _ (hatom i c hi)
  rw [hps] at g2
  have hsite : ∀ e ∈ imgs, ∃ u, s.sites[e.1]? = some u := by
    intro e he
    obtain ⟨⟨_, p, hp, _⟩, _⟩ := (g2 e).1 he
    rw [List.getElem?_map] at hp
    obtain ⟨u, hu, rfl⟩ := Option.map_eq_some_iff.1 hp
    exact ⟨u, hu⟩
  have hfil : imgs.filter (fun e => decide ((s.sites[e.1]?).map Site.z = some t.z))
      = imgs.filter (fun e => decide ((imageBoth s.lattice (typedAtoms els s) rcut rs c.pos e).1 = (k : ℤ))) := by
    refine List.filter_congr ?_
    intro e he
    obtain ⟨u, hu⟩ := hsite e he
    simp only [imageBoth, hatom _ _ hu, hu, Option.map_some, Option.some.injEq, Nat.cast_inj,
      hidx u (List.mem_of_getElem? hu) k t.z hk]
  have hsub := crystal_sub_lt s S hL sc m h t1 rcut hbig hin hap i c hi imgs g1 (fun e he => (g2 e).1 he) t.z
  rw [hfil] at hsub
  -- the C++ row has at most as many nonzero weights as images
  have hcpp : ((typeSlots umax k (flatRow out umax.sum i)).map (fun e => (e.1, -e.2))).countP
      (fun e => decide (e.1 0 ≠ 0))
      ≤ (imgs.filter (fun e => decide ((imageBoth s.lattice (typedAtoms els s) rcut rs c.pos e).1 = (k : ℤ)))).length := by
    rw [g4, typeSlots_typeBlocks _ _ _ g5 k w hw]
    unfold typeBlock
    rw [List.map_append, List.countP_append, List.map_replicate, List.countP_replicate]
    rw [if_neg (by simp), Nat.add_zero, List.filter_map, List.map_map, List.map_map]
    refine le_trans List.countP_le_length ?_
    rw [List.length_map]
    rfl
  -- every Python neighbour has a positive weight
  have hpy : ts.length ≤ (row.1.zip row.2).countP (fun e => decide (e.1 0 ≠ 0)) := by
    rw [p3, List.countP_append]
    refine le_trans ?_ (Nat.le_add_right _ _)
    rw [List.countP_map, List.countP_eq_length.2]
    intro u hu
    have hu' := p1.mem_iff.1 hu
    unfold nbrsOf at hu'
    have hu2 := (List.mem_filter.1 hu').2
    simp only [decide_eq_true_eq] at hu2
    have := (C25_exact rcut rs hr hrs _ hu2.2.1).2
    have hne0 : envRow rcut rs (t.z, dist3 u.pos c.pos, u.pos - c.pos) 0 ≠ 0 := this.ne'
    exact decide_eq_true hne0
  have hle := hperm.countP_eq (fun e => decide (e.1 0 ≠ 0))
  have hlt : ((nbrsOf S c.pos rcut t.z).filter (fun t => decide (dist3 t.pos c.pos < rcut))).length
      < (nbrsOf S c.pos rcut t.z).length := by
    obtain ⟨u, hu, huz, hup⟩ := C19_supercell_complete s S hL sc m h t1 rcut hbig hin c t hc ht n hd.le
    have e1 : u.pos = imagePos s.lattice t.pos n := hup
    refine List.length_filter_lt_length_iff_exists.2 ⟨u, ?_, ?_⟩
    · unfold nbrsOf
      rw [List.mem_filter]
      refine ⟨hu, ?_⟩
      simp only [decide_eq_true_eq]
      exact ⟨huz, by rw [e1, hd]; exact hr, by rw [e1]; exact hd.le⟩
    · rw [e1, hd]
      simp
  have := p1.length_eq
  omega

theorem exCross_slots_wide : SlotsSuffice [3, 8] [2, 2] exCross (14 / 5) := by
  intro i c hc k nz w hk hw l hl hall
  have hw2 : w = 2 := by
    rcases k with _ | _ | k <;> simp at hw <;> exact hw.symm
  subst hw2
  have hc' : exTyped[i]? = some (((List.idxOf c.z [3, 8] : ℕ) : ℤ), c.pos) := by
    rw [← exCross_typed, typedAtoms, List.getElem?_map, hc]; rfl
  refine (hl.subperm (fun e he => exTyped_near i _ hc' e ?_ (hall e he).1)).length_le
  obtain ⟨_, t, ht, _, hd⟩ := hall e he
  refine ⟨by simp, t.pos, ?_, ?_⟩
  · rw [← exCross_typed, typedAtoms, List.map_map, List.getElem?_map, ht]; rfl
  · exact lt_trans hd (by norm_num)

example (A A' : ArgSort) := C171_agree_iff A A' exCross [3, 8] [2, 2] (5 / 2) 1 (14 / 5) true ![3, 3, 3] ![1, 1, 1]
  (by decide) (by norm_num) (by norm_num) (by rw [exCross_typed]; exact exTyped_ok) exL_apart
  exCross_separated (by intro i; fin_cases i <;> exact exCross_big _)
  (by simp [exCross]) (by decide) (by decide) rfl (by norm_num) exCross_slots_wide

end MaterSDK
