import Verif.Model.NumpyPipe
import Verif.Lemmas.EnvOp
import Verif.Lemmas.EnvStructure
import Verif.Lemmas.CellListNarrow
import Mathlib.Tactic.Ring

/-! # Helper lemmas for the pipeline from numpy arrays to descriptors -/

namespace MaterSDK

variable {α : Type}

theorem tenOffs_dense : ∀ ns : List ℕ, tenOffs ns (denseStrides ns) = List.range ns.prod
  | [] => rfl
  | n :: ns => by
    rw [denseStrides, tenOffs, tenOffs_dense ns, List.prod_cons]
    induction n with
    | zero => simp
    | succ n ih =>
      rw [List.range_succ, List.flatMap_append, ih, Nat.succ_mul, List.range_add]
      simp

theorem denseStrides_length : ∀ ns : List ℕ, (denseStrides ns).length = ns.length
  | [] => rfl
  | _ :: ns => by rw [denseStrides, List.length_cons, List.length_cons, denseStrides_length ns]

theorem range_mapM_cGet (l : List α) :
    (List.range l.length).mapM (fun o : ℕ => cGet l ((0 + o : ℕ) : ℤ)) = .ok l := by
  rw [mapM_eq_ok, List.forall₂_iff_get]
  refine ⟨by simp, ?_⟩
  intro i h1 h2
  simp only [List.get_eq_getElem, List.getElem_range, Nat.zero_add]
  exact cGet_nat (List.getElem?_eq_getElem h2)

theorem stackTen_holds (k : TKind) (sizes : List ℕ) (frames : List (List α))
    (h : ∀ l ∈ frames, l.length = sizes.prod) : (stackTen k sizes frames).Holds k frames := by
  have hlen : frames.flatten.length = (frames.length :: sizes).prod := by
    rw [List.length_flatten, List.prod_cons]
    have : frames.map List.length = List.replicate frames.length sizes.prod := by
      rw [List.eq_replicate_iff]
      refine ⟨by simp, ?_⟩
      intro b hb
      obtain ⟨l, hl, rfl⟩ := List.mem_map.1 hb
      exact h l hl
    rw [this]; simp
  refine ⟨rfl, rfl, ?_, ?_, h, ?_⟩
  · exact denseStrides_length _
  · unfold Ten.shows stackTen
    simp only
    rw [tenOffs_dense, ← hlen]
    exact range_mapM_cGet _
  · exact tenOffs_dense sizes

theorem cSet_len {l r : List α} {i : ℤ} {a : α} (h : cSet l i a = .ok r) : r.length = l.length :=
  (cSet_append [] h).2

theorem cWrite_len : ∀ (row l r : List α) (off : ℤ), cWrite l off row = .ok r → r.length = l.length
  | [], l, r, off, h => by rw [cWrite] at h; rw [Except.ok.inj h]
  | v :: vs, l, r, off, h => by
    rw [cWrite, bind_eq_ok] at h
    obtain ⟨l', h1, h2⟩ := h
    rw [cWrite_len vs l' r _ h2, cSet_len h1]

theorem cWriteRows_len (w : ℤ) : ∀ (rows : List (List α)) (ii : ℕ) (l r : List α),
    cWriteRows w ii rows l = .ok r → r.length = l.length
  | [], ii, l, r, h => by rw [cWriteRows] at h; rw [Except.ok.inj h]
  | row :: rows, ii, l, r, h => by
    rw [cWriteRows, bind_eq_ok] at h
    obtain ⟨l', h1, h2⟩ := h
    rw [cWriteRows_len w rows _ l' r h2, cWrite_len _ _ _ _ h1]

theorem findInfo_len {N : NbrLists} {w : ℕ} {info : MlffInfo} (h : N.findInfo w = .ok info) :
    info.ilist.length = info.inum ∧ info.types.length = info.inum ∧
      info.numneigh.length = N.lists.length ∧
      info.firstneigh.length = info.inum * w ∧ info.rel.length = info.inum * w * 3 := by
  unfold NbrLists.findInfo at h
  simp only [bind_eq_ok] at h
  obtain ⟨ty, h1, fn, h2, rr, h3, rel, h4, h5⟩ := h
  obtain rfl := Except.ok.inj h5
  refine ⟨by simp, ?_, by simp, ?_, ?_⟩
  · have := (mapM_eq_ok.1 h1).length_eq
    simpa using this.symm
  · simpa using cWriteRows_len _ _ _ _ _ h2
  · simpa using cWriteRows_len _ _ _ _ _ h4

theorem nbrMake_len {A : ArgSort} {s : CStruct} {rcut : ℝ} {pbc : Fin 3 → Bool} {sort : Bool} {N : NbrLists}
    (h : NbrLists.make A s rcut pbc sort = .ok N) : N.lists.length = N.bins.supercell.primNum := by
  unfold NbrLists.make NbrLists.makeWith NbrLists.build at h
  simp only [bind_eq_ok] at h
  obtain ⟨B, _, ls, h1, h2⟩ := h
  have hl := (mapM_eq_ok.1 h1).length_eq
  rw [List.length_range] at hl
  split at h2
  · rw [bind_eq_ok] at h2
    obtain ⟨ls', h3, h4⟩ := h2
    obtain rfl := Except.ok.inj h4
    have hl' := (mapM_eq_ok.1 h3).length_eq
    simp at hl'
    simp only
    omega
  · obtain rfl := Except.ok.inj h2
    exact hl.symm

theorem bindFindInfo_len {A : ArgSort} {lattice coords : NpMat} {numbers : NpInts} {rcut : ℝ}
    {pbc : Fin 3 → Bool} {w : ℕ} {sort isCart : Bool} {info : MlffInfo}
    (h : bindFindInfo A lattice numbers coords rcut pbc w sort isCart = .ok info) :
    info.ilist.length = info.inum ∧ info.types.length = info.inum ∧ info.numneigh.length = info.inum ∧
      info.firstneigh.length = info.inum * w ∧ info.rel.length = info.inum * w * 3 := by
  unfold bindFindInfo at h
  simp only [bind_eq_ok] at h
  obtain ⟨_, _, _, _, _, _, N, h1, h2⟩ := h
  obtain ⟨l1, l2, l3, l4, l5⟩ := findInfo_len h2
  have : info.inum = N.bins.supercell.primNum := by
    unfold NbrLists.findInfo at h2
    simp only [bind_eq_ok] at h2
    obtain ⟨_, _, _, _, _, _, _, _, h5⟩ := h2
    rw [← Except.ok.inj h5]
  exact ⟨l1, l2, by rw [l3, nbrMake_len h1, this], l4, l5⟩

/-- The arrays of one frame of the stacked tensors. -/
def frameOfInfo (umax : List ℤ) (i : MlffInfo) : EnvFrame :=
  ⟨i.ilist, i.numneigh.map fun k : ℕ => (k : ℤ), i.firstneigh, i.rel, i.types, umax⟩

theorem stackInfos_holds (infos : List MlffInfo) (n w : ℕ) (umax : List ℤ)
    (h : ∀ i ∈ infos, i.ilist.length = n ∧ i.types.length = n ∧ i.numneigh.length = n ∧
      i.firstneigh.length = n * w ∧ i.rel.length = n * w * 3) :
    (stackInfos infos n w umax).Holds n umax.length (infos.map (frameOfInfo umax)) := by
  have hh : ∀ {β : Type} (k : TKind) (sizes : List ℕ) (f : EnvFrame → List β) (g : MlffInfo → List β)
      (_ : ∀ i, f (frameOfInfo umax i) = g i) (_ : ∀ i ∈ infos, (g i).length = sizes.prod),
      (stackTen k sizes (infos.map g)).Holds k ((infos.map (frameOfInfo umax)).map f) := by
    intro β k sizes f g h1 h2
    have : (infos.map (frameOfInfo umax)).map f = infos.map g := by
      rw [List.map_map]; exact List.map_congr_left fun i _ => h1 i
    rw [this]
    refine stackTen_holds k sizes _ ?_
    intro l hl
    obtain ⟨i, hi, rfl⟩ := List.mem_map.1 hl
    exact h2 i hi
  refine ⟨?_, ?_, ?_, Or.inl ?_, ?_, ?_, ?_, ?_⟩
  · exact hh _ _ _ _ (fun _ => rfl) (fun i hi => by simpa using (h i hi).1)
  · exact hh _ _ _ _ (fun _ => rfl) (fun i hi => by simpa using (h i hi).2.2.1)
  · exact hh _ _ _ _ (fun _ => rfl) (fun i hi => by simpa using (h i hi).2.2.2.1)
  · exact hh _ _ _ _ (fun _ => rfl) (fun i hi => by
      rw [(h i hi).2.2.2.2]; simp [mul_assoc])
  · exact hh _ _ _ _ (fun _ => rfl) (fun i hi => by simpa using (h i hi).2.1)
  · exact hh _ _ _ _ (fun _ => rfl) (fun i hi => by simp)
  · simp [stackInfos, stackTen]
  · simp [stackInfos, stackTen]

theorem flatRow_flatten (outs : List (List α)) (n u : ℕ) (hlen : ∀ o ∈ outs, o.length = n * u)
    (b i : ℕ) (o : List α) (hb : outs[b]? = some o) (hi : i < n) :
    flatRow outs.flatten u (b * n + i) = flatRow o u i := by
  induction outs generalizing b with
  | nil => simp at hb
  | cons o' outs ih =>
    have hl := hlen o' (by simp)
    cases b with
    | zero =>
      cases hb
      unfold flatRow
      have h1 : i * u + u ≤ o.length := by
        rw [hl, ← Nat.succ_mul]; exact Nat.mul_le_mul_right _ hi
      rw [List.flatten_cons, Nat.zero_mul, Nat.zero_add, List.drop_append_of_le_length (by omega),
        List.take_append_of_le_length (by rw [List.length_drop]; omega)]
    | succ b =>
      have := ih (fun x hx => hlen x (by simp [hx])) b (by simpa using hb)
      rw [← this]
      unfold flatRow
      rw [List.flatten_cons]
      have e : (b.succ * n + i) * u = o'.length + (b * n + i) * u := by
        rw [hl, Nat.succ_mul]; ring
      rw [e, List.drop_append, List.drop_eq_nil_of_le (Nat.le_add_right _ _)]
      simp

theorem envFind_length {p : SlotIn} {rel : List ℝ} {rcut rs : ℝ} {out : List EnvSlot}
    (h : envFind p rel rcut rs = .ok out) : out.length = (p.inum * p.width).toNat :=
  (slotFillOn_of_ok (p' := p) ⟨rfl, rfl, ⟨[], by simp⟩, ⟨[], by simp⟩, ⟨[], by simp⟩⟩
    (fun _ _ h => h) (fun _ _ _ _ h => h) h).1

/-- A slot table whose neighbour is not an atom: the operator does not answer. -/
theorem envOp_bad_neighbour {t : EnvOpIn} {rcut rs : ℝ} {inum ntypes : ℕ} {fs : List EnvFrame}
    (h : t.Holds inum ntypes fs) (b ii jj : ℕ) (f : EnvFrame) (hf : fs[b]? = some f) (hii : ii < inum)
    (m : ℤ) (hm : f.numneigh[ii]? = some m) (hjj : (jj : ℤ) < m)
    (nb : ℤ) (hnb : f.firstneigh[ii * f.umax.sum.toNat + jj]? = some nb) (hneg : nb < 0)
    (out : List EnvSlot) : envOp t rcut rs ≠ .ok out := by
  obtain ⟨h1, h2, h3, h4, h5, h6, h7, h8⟩ := h
  intro hr
  unfold envOp at hr
  split at hr
  swap
  · cases hr
  have hb : b < fs.length := (List.getElem?_eq_some_iff.1 hf).1
  have hs0 : t.ilist.size 0 = .ok fs.length := by unfold Ten.size; rw [h7]; rfl
  have hs1 : t.ilist.size 1 = .ok inum := by unfold Ten.size; rw [h7]; rfl
  have hs2 : t.umax.size 1 = .ok ntypes := by unfold Ten.size; rw [h8]; rfl
  rw [hs0, ok_bind, hs1, ok_bind, bind_eq_ok] at hr
  obtain ⟨r0, _, hr⟩ := hr
  rw [bind_eq_ok] at hr
  obtain ⟨u, _, hr⟩ := hr
  rw [hs2, ok_bind] at hr
  simp only at hr
  split at hr
  · cases hr
  obtain ⟨st, st', hst⟩ := foldlM_step_ok hr (List.mem_range.2 hb)
  unfold envOpFrame at hst
  obtain ⟨q1, e1⟩ := h1.frameMap hf
  obtain ⟨q2, e2⟩ := h2.frameMap hf
  obtain ⟨q3, e3⟩ := h3.frameMap hf
  obtain ⟨q5, e5⟩ := h5.frameMap hf
  obtain ⟨q6, e6⟩ := h6.frameMap hf
  have hul : f.umax.length = ntypes :=
    h6.length h8 (List.mem_map.2 ⟨f, List.mem_of_getElem? hf, rfl⟩)
  rw [e1, ok_bind, e2, ok_bind, e3, ok_bind, e5, ok_bind, e6, ok_bind, bind_eq_ok] at hst
  obtain ⟨rel, _, hst⟩ := hst
  rw [← hul, cFirst_append, ok_bind] at hst
  unfold frameOn at hst
  rw [bind_eq_ok] at hst
  obtain ⟨res, hres, _⟩ := hst
  unfold slotFillOn at hres
  split at hres
  · cases hres
  rename_i hneg2
  split at hres
  · cases hres
  obtain ⟨s1, s2, hs⟩ := foldlM_step_ok hres (List.mem_range.2 (show ii < ((inum : ℤ)).toNat by simpa using hii))
  rw [ok_bind, cGet_append q2 (cGet_nat hm), ok_bind, bind_eq_ok] at hs
  obtain ⟨a, ha, _⟩ := hs
  obtain ⟨st2, st3, hst2⟩ := foldlM_step_ok ha (List.mem_range.2 (show jj < m.toNat by omega))
  unfold slotStep at hst2
  have hw0 : 0 ≤ f.umax.sum := by
    refine List.sum_nonneg ?_
    intro x hx
    by_contra hc
    exact hneg2 (Or.inr (List.any_eq_true.2 ⟨x, hx, by simpa using hc⟩))
  have hidx : ((ii : ℤ) * f.umax.sum + jj) = ((ii * f.umax.sum.toNat + jj : ℕ) : ℤ) := by
    push_cast
    rw [Int.toNat_of_nonneg hw0]
  simp only [SlotIn.width] at hst2
  rw [hidx, cGet_append q3 (cGet_nat hnb), ok_bind, cGet_oob (Or.inl hneg), error_bind] at hst2
  cases hst2

/-- Where the pipeline answers, no neighbour the operator visits is padding. -/
theorem npToEnv_no_padding {A : ArgSort} {fs : List NpFrame} {rcut rs : ℝ} {pbc : Fin 3 → Bool} {w : ℕ}
    {umax : List ℤ} {sort isCart : Bool} {out : List EnvSlot}
    (h : npToEnv A fs rcut rs pbc w umax sort isCart = .ok out) (b : ℕ) (f : NpFrame) (hf : fs[b]? = some f) :
    ∃ info, bindFindInfo A f.lattice f.numbers f.coords rcut pbc w sort isCart = .ok info ∧
      (∀ (b' : ℕ) (f' : NpFrame) (info' : MlffInfo), fs[b']? = some f' →
        bindFindInfo A f'.lattice f'.numbers f'.coords rcut pbc w sort isCart = .ok info' →
        info'.inum = info.inum) ∧
      ∀ (ii jj m : ℕ) (nb : ℤ), info.numneigh[ii]? = some m → jj < m →
        info.firstneigh[ii * umax.sum.toNat + jj]? = some nb → 0 ≤ nb := by
  unfold npToEnv at h
  rw [bind_eq_ok] at h
  obtain ⟨infos, h1, h2⟩ := h
  have hF := mapM_eq_ok.1 h1
  obtain ⟨hl, hg⟩ := mapM_getElem h1
  obtain ⟨info, g1, g2⟩ := hg b f hf
  cases infos with
  | nil => cases h2
  | cons i0 rest =>
    simp only at h2
    split at h2
    swap
    · cases h2
    rename_i hall
    rw [List.all_eq_true] at hall
    have hin : ∀ i ∈ i0 :: rest, i.inum = i0.inum := fun i hi => by simpa using hall i hi
    refine ⟨info, g1, ?_, ?_⟩
    · intro b' f' info' hf' hi'
      obtain ⟨i', k1, k2⟩ := hg b' f' hf'
      rw [hi'] at k1
      obtain rfl := Except.ok.inj k1
      rw [hin _ (List.mem_of_getElem? k2), hin _ (List.mem_of_getElem? g2)]
    · intro ii jj m nb hm hjj hnb
      by_contra hneg
      have hh := stackInfos_holds (i0 :: rest) i0.inum w umax (by
        intro i hi
        obtain ⟨k, hk⟩ := List.mem_iff_getElem?.1 hi
        have hk1 := (List.getElem?_eq_some_iff.1 hk).1
        obtain ⟨i', k1, k2⟩ := hg k (fs[k]'(by omega)) (List.getElem?_eq_getElem _)
        rw [hk] at k2; cases k2
        have := bindFindInfo_len k1
        rwa [hin i hi] at this)
      have hii : ii < i0.inum := by
        have := (bindFindInfo_len g1).2.2.1
        rw [hin _ (List.mem_of_getElem? g2)] at this
        rw [← this]
        exact (List.getElem?_eq_some_iff.1 hm).1
      refine envOp_bad_neighbour hh b ii jj (frameOfInfo umax info) (by rw [List.getElem?_map, g2]; rfl) hii
        (m : ℤ) ?_ (by exact_mod_cast hjj) nb hnb (by omega) out h2
      simp only [frameOfInfo]
      rw [List.getElem?_map, hm]
      rfl

end MaterSDK
