import Verif.Spec.Cross
import Verif.Lemmas.EnvStructure
import Verif.Lemmas.DeepMDMove
import Verif.Props.Neigh

/-! # The neighbours found by the Python code and by the C++ code -/

namespace MaterSDK

open Classical

/-- Position of an image. -/
noncomputable def posOfImage (s : Struct ℝ) (e : ℕ × (Fin 3 → ℤ)) : Vec ℝ :=
  match s.sites[e.1]? with
  | some t => imagePos s.lattice t.pos e.2
  | none => 0

theorem mem_supercell_image (s S : Struct ℝ) (sc : Fin 3 → ℤ) (m : Fin 3 → ℕ)
    (h : ∀ i, sc i = 2 * (m i : ℤ) + 1) (hS : s.makeSupercell sc true = .ok S) (u : Site ℝ)
    (hu : u ∈ S.sites) : ∃ t ∈ s.sites, ∃ n : Fin 3 → ℤ, u.z = t.z ∧ u.pos = imagePos s.lattice t.pos n := by
  rw [makeSupercell_odd s m h] at hS
  cases hS
  simp only [if_true, Struct.reformat_] at hu
  rw [(sortByKey_perm _ _).mem_iff] at hu
  unfold superSites at hu
  obtain ⟨n, _, hn⟩ := List.mem_flatMap.1 hu
  obtain ⟨t, ht, rfl⟩ := List.mem_map.1 hn
  exact ⟨t, ht, n, rfl, rfl⟩

/-- The neighbours of one element in the supercell are the images of that element in the C++ list. -/
theorem crystal_perm_nodup (s S : Struct ℝ) (hL : s.lattice.det ≠ 0) (sc : Fin 3 → ℤ)
    (m : Fin 3 → ℕ) (h : ∀ i, sc i = 2 * (m i : ℤ) + 1) (hS : s.makeSupercell sc true = .ok S)
    (hnod : (S.sites.map Site.pos).Nodup)
    (r : ℝ) (hr : ∀ i, r ≤ (m i : ℝ) * planeDist s.lattice i)
    (hin : ∀ t ∈ s.sites, InCell s.lattice t.pos) (hgen : NoneAt s r)
    (hap : ApartImages s.lattice (s.sites.map Site.pos))
    (i : ℕ) (c : Site ℝ) (hc : s.sites[i]? = some c) (imgs : List (ℕ × (Fin 3 → ℤ))) (hnd : imgs.Nodup)
    (himgs : ∀ e, e ∈ imgs ↔ NearBy s.lattice (fun _ => true) (s.sites.map Site.pos) r c.pos e ∧ e ≠ (i, 0))
    (nz : ℕ) :
    ((nbrsOf S c.pos r nz).map Site.pos).Perm
      ((imgs.filter (fun e => decide ((s.sites[e.1]?).map Site.z = some nz))).map (posOfImage s)) := by
  have hcm : c ∈ s.sites := List.mem_of_getElem? hc
  have hci : (s.sites.map Site.pos)[i]? = some c.pos := by rw [List.getElem?_map, hc]; rfl
  have hsite : ∀ e ∈ imgs, ∃ t, s.sites[e.1]? = some t ∧ dist3 (imagePos s.lattice t.pos e.2) c.pos < r ∧
      e ≠ (i, 0) ∧ posOfImage s e = imagePos s.lattice t.pos e.2 := by
    intro e he
    obtain ⟨⟨_, p, hp, hd⟩, hne⟩ := (himgs e).1 he
    rw [List.getElem?_map] at hp
    obtain ⟨t, ht, rfl⟩ := Option.map_eq_some_iff.1 hp
    exact ⟨t, ht, hd, hne, by simp only [posOfImage, ht]⟩
  refine (List.perm_ext_iff_of_nodup ?_ ?_).2 ?_
  · unfold nbrsOf
    exact hnod.sublist (List.filter_sublist.map _)
  · refine (hnd.filter _).map_on ?_
    intro e he f hf hef
    obtain ⟨t, ht, _, _, hpe⟩ := hsite e (List.mem_filter.1 he).1
    obtain ⟨u, hu, _, _, hpf⟩ := hsite f (List.mem_filter.1 hf).1
    rw [hpe, hpf] at hef
    by_contra hne
    have hne' : (f.1, f.2 - e.2) ≠ (e.1, 0) := by
      intro h0
      apply hne
      rw [Prod.mk.injEq, sub_eq_zero] at h0
      exact Prod.ext h0.1.symm h0.2.symm
    have := hap e.1 f.1 t.pos u.pos (f.2 - e.2) (by rw [List.getElem?_map, ht]; rfl)
      (by rw [List.getElem?_map, hu]; rfl) hne'
    have he0 : imagePos s.lattice u.pos (f.2 - e.2) = t.pos := by
      have h1 : imagePos s.lattice u.pos (f.2 - e.2)
          = imagePos s.lattice u.pos f.2 - ∑ a, (e.2 a : ℝ) • s.lattice a := by
        unfold imagePos
        simp only [Pi.sub_apply, Int.cast_sub, sub_smul, Finset.sum_sub_distrib]
        abel
      rw [h1, ← hef]
      unfold imagePos
      abel
    rw [he0, dist3_self] at this
    norm_num at this
  · intro p
    rw [List.mem_map, List.mem_map]
    constructor
    · rintro ⟨u, hu, rfl⟩
      unfold nbrsOf at hu
      obtain ⟨huS, hu2⟩ := List.mem_filter.1 hu
      simp only [decide_eq_true_eq] at hu2
      obtain ⟨hz, hpos, hle⟩ := hu2
      obtain ⟨t, ht, n, hz', hp⟩ := mem_supercell_image s S sc m h hS u huS
      obtain ⟨j, hj⟩ := List.mem_iff_getElem?.1 ht
      have hlt : dist3 (imagePos s.lattice t.pos n) c.pos < r := by
        rw [hp] at hle
        exact lt_of_le_of_ne hle (hgen c hcm t ht n)
      refine ⟨(j, n), ?_, ?_⟩
      · rw [List.mem_filter]
        refine ⟨(himgs _).2 ⟨⟨by simp, t.pos, by simp [List.getElem?_map, hj], hlt⟩, ?_⟩, ?_⟩
        · intro h0
          rw [Prod.mk.injEq] at h0
          obtain ⟨rfl, rfl⟩ := h0
          rw [hj] at hc
          cases hc
          rw [hp, show imagePos s.lattice c.pos 0 = c.pos from imagePos_zero _ _, dist3_self] at hpos
          exact lt_irrefl _ hpos
        · simp [hj, ← hz', hz]
      · simp only [posOfImage, hj, hp]
    · rintro ⟨e, he, rfl⟩
      obtain ⟨he1, he2⟩ := List.mem_filter.1 he
      simp only [decide_eq_true_eq] at he2
      obtain ⟨t, ht, hd, hne, hp⟩ := hsite e he1
      rw [ht] at he2
      simp only [Option.map_some, Option.some.injEq] at he2
      obtain ⟨u, hu, huz, hup⟩ := C19_supercell_complete s S hL sc m h hS r hr hin c t hcm
        (List.mem_of_getElem? ht) e.2 hd.le
      refine ⟨u, ?_, ?_⟩
      · unfold nbrsOf
        rw [List.mem_filter]
        refine ⟨hu, ?_⟩
        simp only [decide_eq_true_eq]
        have e1 : u.pos = imagePos s.lattice t.pos e.2 := hup
        refine ⟨by rw [huz, he2], ?_, by rw [e1]; exact hd.le⟩
        have := hap i e.1 c.pos t.pos e.2 hci (by rw [List.getElem?_map, ht]; rfl) hne
        rw [e1]
        rcases (dist3_nonneg (imagePos s.lattice t.pos e.2) c.pos).eq_or_lt with h0 | h0
        · rw [← h0] at this; norm_num at this
        · exact h0
      · rw [hp]; exact hup

/-- The same for separated atoms. -/
theorem crystal_perm (s S : Struct ℝ) (hL : s.lattice.det ≠ 0) (hsep : Separated s) (sc : Fin 3 → ℤ)
    (m : Fin 3 → ℕ) (h : ∀ i, sc i = 2 * (m i : ℤ) + 1) (hS : s.makeSupercell sc true = .ok S)
    (r : ℝ) (hr : ∀ i, r ≤ (m i : ℝ) * planeDist s.lattice i)
    (hin : ∀ t ∈ s.sites, InCell s.lattice t.pos) (hgen : NoneAt s r)
    (hap : ApartImages s.lattice (s.sites.map Site.pos))
    (i : ℕ) (c : Site ℝ) (hc : s.sites[i]? = some c) (imgs : List (ℕ × (Fin 3 → ℤ))) (hnd : imgs.Nodup)
    (himgs : ∀ e, e ∈ imgs ↔ NearBy s.lattice (fun _ => true) (s.sites.map Site.pos) r c.pos e ∧ e ≠ (i, 0))
    (nz : ℕ) :
    ((nbrsOf S c.pos r nz).map Site.pos).Perm
      ((imgs.filter (fun e => decide ((s.sites[e.1]?).map Site.z = some nz))).map (posOfImage s)) :=
  crystal_perm_nodup s S hL sc m h hS (supercell_nodup s S hL hsep sc m h hS) r hr hin hgen hap i c hc imgs hnd
    himgs nz

/-- Rows and derivative blocks of the Python code. -/
theorem py_rows_nodup (A : ArgSort) (s S : Struct ℝ)
    (hne : s.sites ≠ []) (rcut rs : ℝ) (hr : 0 ≤ rcut) (hrs : rs < rcut) (sc : Fin 3 → ℤ)
    (m : Fin 3 → ℕ) (h : ∀ i, sc i = 2 * (m i : ℤ) + 1) (hS : s.makeSupercell sc true = .ok S)
    (hnod : (S.sites.map Site.pos).Nodup)
    (cz nz : ℕ) (hnz : 0 < nz) (width : ℕ)
    (hw : ∀ c ∈ s.sites, c.z = cz → (nbrsOf S c.pos rcut nz).length ≤ width)
    (table : List (List NbrEntry)) (hT : neighborTable A s rcut sc = .ok table) :
    ∃ (rows : List (List (Fin 4 → ℝ) × List (Matrix (Fin 4) (Fin 3) ℝ))),
      getTildeR rcut rs table cz nz width = .ok (rows.map Prod.fst) ∧
      calcDerivative rcut rs table cz nz width = .ok (rows.map Prod.snd) ∧
      List.Forall₂ (fun c row => row.1.length = width ∧ row.2.length = width ∧
        ∃ ts : List (Site ℝ), ts.Perm (nbrsOf S c.pos rcut nz) ∧
          ts.Pairwise (fun a b => dist3 a.pos c.pos ≤ dist3 b.pos c.pos) ∧
          row.1.zip row.2 = ts.map (fun t => (envRow rcut rs (nz, dist3 t.pos c.pos, t.pos - c.pos),
            derivBlock rcut rs (nz, dist3 t.pos c.pos, t.pos - c.pos)))
            ++ List.replicate (width - ts.length) (0, 0))
        (s.reformat_.sites.filter (fun c => c.z = cz)) rows := by
  obtain ⟨table', w, prows, h1, h2, h3, h4, h5⟩ :=
    pair_sites_nodup A s S hne rcut hr sc m h hS hnod cz nz hnz
  rw [hT] at h1
  cases h1
  have hww : w ≤ width := by
    rcases h4 with h4 | ⟨c, hc, hz, h4⟩
    · omega
    · rw [← h4]; exact hw c hc hz
  refine ⟨prows.map (fun r => (r.map (envRow rcut rs) ++ List.replicate (width - w) 0,
    r.map (derivBlock rcut rs) ++ List.replicate (width - w) 0)), ?_, ?_, ?_⟩
  · unfold getTildeR pairTildeR
    rw [h2, ok_bind]
    show padWidth 0 (w, prows.map (List.map (envRow rcut rs))) (width : ℤ) = _
    rw [padWidth_ok _ _ _ _ hww, List.map_map, List.map_map]
    rfl
  · unfold calcDerivative
    rw [h2, ok_bind]
    simp only
    rw [if_neg (by omega), if_neg (sub_pos.2 hrs).ne', padWidth_ok _ _ _ _ hww, List.map_map, List.map_map]
    rfl
  · rw [List.forall₂_map_right_iff]
    refine h5.imp ?_
    rintro c row ⟨ts, e1, e2, e3, rfl⟩
    have z1 : envRow rcut rs (0, 0, 0) = 0 := by
      ext a; fin_cases a <;> simp [envRow, getS, recip]
    have z2 : derivBlock rcut rs (0, 0, 0) = 0 := by
      ext a b; fin_cases a <;> fin_cases b <;> simp [derivBlock, recip]
    refine ⟨by simp; omega, by simp; omega, ts, e1, e2, ?_⟩
    simp only [List.map_append, List.map_map, List.map_replicate, z1, z2, List.append_assoc,
      List.replicate_append_replicate]
    have hk : w - ts.length + (width - w) = width - ts.length := by omega
    rw [hk, List.zip_append (by simp), List.zip_map', List.zip_replicate']
    rfl

theorem py_rows (A : ArgSort) (s S : Struct ℝ) (hL : s.lattice.det ≠ 0) (hsep : Separated s)
    (hne : s.sites ≠ []) (rcut rs : ℝ) (hr : 0 ≤ rcut) (hrs : rs < rcut) (sc : Fin 3 → ℤ)
    (m : Fin 3 → ℕ) (h : ∀ i, sc i = 2 * (m i : ℤ) + 1) (hS : s.makeSupercell sc true = .ok S)
    (cz nz : ℕ) (hnz : 0 < nz) (width : ℕ)
    (hw : ∀ c ∈ s.sites, c.z = cz → (nbrsOf S c.pos rcut nz).length ≤ width)
    (table : List (List NbrEntry)) (hT : neighborTable A s rcut sc = .ok table) :
    ∃ (rows : List (List (Fin 4 → ℝ) × List (Matrix (Fin 4) (Fin 3) ℝ))),
      getTildeR rcut rs table cz nz width = .ok (rows.map Prod.fst) ∧
      calcDerivative rcut rs table cz nz width = .ok (rows.map Prod.snd) ∧
      List.Forall₂ (fun c row => row.1.length = width ∧ row.2.length = width ∧
        ∃ ts : List (Site ℝ), ts.Perm (nbrsOf S c.pos rcut nz) ∧
          ts.Pairwise (fun a b => dist3 a.pos c.pos ≤ dist3 b.pos c.pos) ∧
          row.1.zip row.2 = ts.map (fun t => (envRow rcut rs (nz, dist3 t.pos c.pos, t.pos - c.pos),
            derivBlock rcut rs (nz, dist3 t.pos c.pos, t.pos - c.pos)))
            ++ List.replicate (width - ts.length) (0, 0))
        (s.reformat_.sites.filter (fun c => c.z = cz)) rows :=
  py_rows_nodup A s S hne rcut rs hr hrs sc m h hS (supercell_nodup s S hL hsep sc m h hS) cz nz hnz width hw table hT

/-- The two derivative blocks differ by the sign only: the Python one is the derivative with respect to
the centre, the C++ one with respect to the neighbour. -/
theorem derivBlock_neg (rcut rs : ℝ) (nz : ℕ) (p c : Vec ℝ) (hlt : dist3 p c < rcut) :
    derivBlock rcut rs (nz, dist3 p c, p - c) = - cEnvDeriv rcut rs (p - c) := by
  have hd : Real.sqrt ((p - c) 0 ^ 2 + (p - c) 1 ^ 2 + (p - c) 2 ^ 2) = dist3 p c := by
    rw [dist3, Fin.sum_univ_three]; rfl
  unfold derivBlock cEnvDeriv cSwitch cSwitchDeriv
  simp only [hd]
  have hq : cRecip (dist3 p c) = recip (dist3 p c) := rfl
  rw [hq]
  by_cases h1 : dist3 p c < rs
  · simp only [h1, if_true]
    ext a b
    fin_cases a <;> fin_cases b <;> simp <;> ring
  · simp only [h1, if_false, not_lt.1 h1, hlt, and_self, if_true]
    ext a b
    fin_cases a <;> fin_cases b <;> simp <;> ring

theorem envRow_c (rcut rs : ℝ) (nz : ℕ) (p c : Vec ℝ) (hrs : rs < rcut) (hlt : dist3 p c < rcut) :
    envRow rcut rs (nz, dist3 p c, p - c) = cEnvRow rcut rs (p - c) := by
  rw [cEnvRow_envAt, envAt, ← getS_smoothWeight hrs hlt]
  ext a
  fin_cases a <;> simp [envRow, recip_eq] <;> ring

theorem blocks_slots {α : Type} (zero : α) (nbrs : List (ℤ × α)) (umax : List ℕ) (s : ℕ)
    (h : ∀ (t m : ℕ), umax[t]? = some m → nbrs.countP (fun q => q.1 = ((s + t : ℕ) : ℤ)) ≤ m)
    (k w : ℕ) (hk : umax[k]? = some w) :
    (((umax.zipIdx s).flatMap (typeBlock zero nbrs)).drop (umax.take k).sum).take w
      = typeBlock zero nbrs (w, s + k) := by
  induction umax generalizing s k with
  | nil => simp at hk
  | cons m ms ih =>
    have hm : (typeBlock zero nbrs (m, s)).length = m := typeBlock_length zero nbrs (m, s) (by simpa using h 0 m rfl)
    rw [List.zipIdx_cons, List.flatMap_cons]
    rcases k with _ | k
    · simp only [List.getElem?_cons_zero, Option.some.injEq] at hk
      subst hk
      rw [List.take_zero, List.sum_nil, List.drop_zero, List.take_append_of_le_length (by omega),
        List.take_of_length_le (by omega)]
      rfl
    · rw [List.take_succ_cons, List.sum_cons, List.drop_append, List.drop_eq_nil_of_le (by omega), hm,
        Nat.add_sub_cancel_left, List.nil_append, ih (s + 1) _ k (by simpa using hk)]
      · rw [show s + 1 + k = s + (k + 1) by omega]
      · intro t m' hm'
        have := h (t + 1) m' (by simpa using hm')
        rw [show s + 1 + t = s + (t + 1) by omega]
        exact this

theorem typeSlots_typeBlocks {α : Type} (zero : α) (umax : List ℕ) (nbrs : List (ℤ × α))
    (h : RoomFor umax nbrs) (k w : ℕ) (hk : umax[k]? = some w) :
    typeSlots umax k (typeBlocks zero umax nbrs) = typeBlock zero nbrs (w, k) := by
  unfold typeSlots
  rw [hk, Option.getD_some, typeBlocks_eq, blocks_slots zero nbrs umax 0 _ k w hk, Nat.zero_add]
  intro t m hm
  rw [Nat.zero_add]
  exact h.2 t m hm

end MaterSDK
