import Verif.Lemmas.NumpyPipe
import Verif.Props.Bind
import Verif.Props.CellListExact
import Verif.Props.EnvMatrix

/-! # C206: from numpy arrays to the descriptors of a batch -/

namespace MaterSDK

open Classical

/-- Contiguous arrays in which Python shows the lattice `L` and the atoms `atoms` (cartesian positions);
the coordinates in the array are cartesian or fractional. -/
def NpFrame.Gives (f : NpFrame) (isCart : Bool) (L : Fin 3 → Vec ℝ) (atoms : List (ℤ × Vec ℝ)) : Prop :=
  ∃ xs : List (Vec ℝ), f.lattice.Shows [L 0, L 1, L 2] ∧ f.numbers.Shows (atoms.map Prod.fst) ∧
    f.coords.Shows xs ∧ atoms.map Prod.snd = (if isCart then xs else xs.map (cartOf L)) ∧
    (f.lattice.s0 = 3 ∧ f.lattice.s1 = 1) ∧ (f.numbers.stride = 1 ∧ f.numbers.long = false) ∧
    (f.coords.s0 = 3 ∧ f.coords.s1 = 1)

/-- A periodic image seen from the point `c`: its type, and `J` of its relative position. -/
noncomputable def imageJac {β : Type} [Zero β] (L : Fin 3 → Vec ℝ) (atoms : List (ℤ × Vec ℝ)) (J : Vec ℝ → β)
    (c : Vec ℝ) (e : ℕ × (Fin 3 → ℤ)) : ℤ × β :=
  match atoms[e.1]? with
  | some a => (a.1, J (imagePos L a.2 e.2 - c))
  | none => (0, 0)

/-- No atom sees more images of a type than the type has slots. -/
def EnoughSlots (L : Fin 3 → Vec ℝ) (atoms : List (ℤ × Vec ℝ)) (pbc : Fin 3 → Bool) (rcut : ℝ)
    (umax : List ℕ) : Prop :=
  ∀ (i : ℕ) (c : ℤ × Vec ℝ), atoms[i]? = some c → ∀ (t m : ℕ), umax[t]? = some m →
    ∀ l : List (ℕ × (Fin 3 → ℤ)), l.Nodup → (∀ e ∈ l, SeenFrom L pbc (atoms.map Prod.snd) rcut c.2 e ∧
      (atoms[e.1]?).map Prod.fst = some (t : ℤ)) → l.length ≤ m

/-- What `find_info4mlff` gets. -/
theorem NpFrame.Gives.bind {f : NpFrame} {isCart : Bool} {L : Fin 3 → Vec ℝ} {atoms : List (ℤ × Vec ℝ)}
    (h : f.Gives isCart L atoms) (A : ArgSort) (rcut : ℝ) (pbc : Fin 3 → Bool) (w : ℕ) (sort : Bool) :
    bindFindInfo A f.lattice f.numbers f.coords rcut pbc w sort isCart =
      (NbrLists.make A (CStruct.make L atoms true) rcut pbc sort >>= fun N => N.findInfo w) := by
  obtain ⟨xs, h1, h2, h3, h4, h5, h6, h7⟩ := h
  have hlen : xs.length = (atoms.map Prod.fst).length := by
    have := congrArg List.length h4
    cases isCart <;> simpa using this.symm
  rw [C132_contiguous_partial A f.lattice f.numbers f.coords L (atoms.map Prod.fst) xs rcut pbc w sort isCart
    h1 h2 h3 hlen h5 h6 h7]
  have hz : CStruct.make L ((atoms.map Prod.fst).zip xs) isCart = CStruct.make L atoms true := by
    cases isCart with
    | true =>
      rw [if_pos rfl] at h4
      rw [← h4, List.zip_map', List.map_id']
    | false =>
      rw [if_neg (by simp)] at h4
      rw [make_frac]
      congr 1
      have : ((atoms.map Prod.fst).zip xs).map (fun a => (a.1, cartOf L a.2))
          = (atoms.map Prod.fst).zip (xs.map (cartOf L)) := by
        rw [List.zip_map_right]; rfl
      rw [this, ← h4, List.zip_map', List.map_id']
  rw [hz]

theorem forall₂_exists_map {α β γ : Type} {P : α → β → Prop} {Q : α → β → γ → Prop} {l : List α} {m : List β}
    (h : List.Forall₂ P l m) (hq : ∀ a b, a ∈ l → b ∈ m → P a b → ∃ c, Q a b c) :
    ∃ r : List γ, r.length = l.length ∧ ∀ (i : ℕ) (a : α) (b : β), l[i]? = some a → m[i]? = some b →
      ∃ c, r[i]? = some c ∧ Q a b c := by
  induction h with
  | nil => exact ⟨[], rfl, by simp⟩
  | @cons a b l m hab _ ih =>
    obtain ⟨r, h1, h2⟩ := ih fun a' b' ha hb => hq a' b' (by simp [ha]) (by simp [hb])
    obtain ⟨c, hc⟩ := hq a b (by simp) (by simp) hab
    refine ⟨c :: r, by simp [h1], ?_⟩
    intro i a' b' ha hb
    cases i with
    | zero => cases ha; cases hb; exact ⟨c, rfl, hc⟩
    | succ i => exact h2 i a' b' (by simpa using ha) (by simpa using hb)

/-- C206 (partial: contiguous arrays of doubles and 32 bit integers, atomic numbers which are types, cells
the neighbour list handles, enough slots, the number of columns of the neighbour list is the number of
slots).  Handing the arrays `find_info4mlff` returns for several structures of `n` atoms to `EnvMatrixOp`
gives for atom `i` of structure `b` the DeepPot-SE rows of exactly the images which atom `i` of that
structure sees, by type and, if asked for, nearest first, followed by zeros; and with them the derivatives
of these rows with respect to the relative positions. -/
theorem C206_batch_partial (A : ArgSort) (fs : List NpFrame) (ss : List ((Fin 3 → Vec ℝ) × List (ℤ × Vec ℝ)))
    (rcut rs : ℝ) (pbc : Fin 3 → Bool) (sort isCart : Bool) (umax : List ℕ) (n : ℕ) (hne : fs ≠ [])
    (h : List.Forall₂ (fun f s => f.Gives isCart s.1 s.2) fs ss) (hn : ∀ s ∈ ss, s.2.length = n)
    (hok : ∀ s ∈ ss, CellOk s.1 s.2 pbc) (hr : 0 < rcut) (hrs : rs < rcut)
    (hty : ∀ s ∈ ss, ∀ a ∈ s.2, 0 ≤ a.1 ∧ a.1 < umax.length)
    (hroom : ∀ s ∈ ss, EnoughSlots s.1 s.2 pbc rcut umax) :
    ∃ out, npToEnv A fs rcut rs pbc umax.sum (umax.map fun m : ℕ => (m : ℤ)) sort isCart = .ok out ∧
      out.length = fs.length * (n * umax.sum) ∧
      ∃ J : Vec ℝ → Matrix (Fin 4) (Fin 3) ℝ,
        (∀ v, v ≠ 0 → HasFDerivAt (fun y => envAt rcut rs y 0)
          ((Matrix.mulVecLin (J v)).toContinuousLinearMap) v) ∧
        ∀ (b : ℕ) (s : (Fin 3 → Vec ℝ) × List (ℤ × Vec ℝ)), ss[b]? = some s →
          ∀ (i : ℕ) (c : ℤ × Vec ℝ), s.2[i]? = some c → ∃ imgs : List (ℕ × (Fin 3 → ℤ)), imgs.Nodup ∧
            (∀ e, e ∈ imgs ↔ SeenFrom s.1 pbc (s.2.map Prod.snd) rcut c.2 e) ∧
            (sort = true → imgs.Pairwise (fun e e' => ∀ p p', (s.2.map Prod.snd)[e.1]? = some p →
              (s.2.map Prod.snd)[e'.1]? = some p' →
              dist3 (imagePos s.1 p e.2) c.2 ≤ dist3 (imagePos s.1 p' e'.2) c.2)) ∧
            flatRow (out.map Prod.fst) umax.sum (b * n + i)
              = typeBlocks 0 umax (imgs.map (imageEnv s.1 s.2 rcut rs c.2)) ∧
            flatRow (out.map Prod.snd) umax.sum (b * n + i)
              = typeBlocks 0 umax (imgs.map (imageJac s.1 s.2 J c.2)) := by
  set U := umax.map fun m : ℕ => (m : ℤ) with hU
  obtain ⟨r, hr1, hr2⟩ := forall₂_exists_map (Q := fun (f : NpFrame) (s : (Fin 3 → Vec ℝ) × List (ℤ × Vec ℝ))
      (q : MlffInfo × List EnvSlot) =>
      bindFindInfo A f.lattice f.numbers f.coords rcut pbc umax.sum sort isCart = .ok q.1 ∧
      q.1.inum = n ∧ (q.1.ilist.length = n ∧ q.1.types.length = n ∧ q.1.numneigh.length = n ∧
        q.1.firstneigh.length = n * umax.sum ∧ q.1.rel.length = n * umax.sum * 3) ∧
      (frameOfInfo U q.1).alone n rcut rs = .ok q.2 ∧ q.2.length = n * umax.sum ∧
      ∀ (i : ℕ) (c : ℤ × Vec ℝ), s.2[i]? = some c → ∃ imgs : List (ℕ × (Fin 3 → ℤ)), imgs.Nodup ∧
            (∀ e, e ∈ imgs ↔ SeenFrom s.1 pbc (s.2.map Prod.snd) rcut c.2 e) ∧
            (sort = true → imgs.Pairwise (fun e e' => ∀ p p', (s.2.map Prod.snd)[e.1]? = some p →
              (s.2.map Prod.snd)[e'.1]? = some p' →
              dist3 (imagePos s.1 p e.2) c.2 ≤ dist3 (imagePos s.1 p' e'.2) c.2)) ∧
            flatRow q.2 umax.sum i
              = typeBlocks (0, 0) umax (imgs.map (imageBoth s.1 s.2 rcut rs c.2))) h (by
    intro f s _ hs hfs
    obtain ⟨N, info, out, h1, h2, h3, h4⟩ := env_core_far A s.1 s.2 rcut rs pbc sort (hok s hs) hr
      (fun _ c e => ∀ p, (s.2.map Prod.snd)[e.1]? = some p → 1 / 1000 < dist3 (imagePos s.1 p e.2) c.2 ^ 2)
      (by
        intro i c e _
        constructor
        · exact Or.inl
        · rintro (h | h)
          · exact h
          · intro p hp; rw [h] at hp; cases hp)
      umax (hty s hs) (by
        intro i c hc t m hm l hl h
        exact hroom s hs i c hc t m hm l hl (fun e he => ⟨⟨(h e he).1, (h e he).2.1⟩, (h e he).2.2⟩))
    obtain ⟨N', g1, g2, g3, _⟩ := nbr_exact A s.1 s.2 rcut pbc sort (hok s hs) hr
    rw [h1] at g1; obtain rfl := Except.ok.inj g1
    have hinum : info.inum = n := by
      have : info.inum = N.bins.supercell.primNum := by
        unfold NbrLists.findInfo at h2
        simp only [bind_eq_ok] at h2
        obtain ⟨_, _, _, _, _, _, _, _, h5⟩ := h2
        rw [← Except.ok.inj h5]
      rw [this, g3, ← hn s hs]
      rfl
    obtain ⟨l1, l2, l3, l4, l5⟩ := findInfo_len h2
    rw [hinum] at l1 l2 l4 l5
    rw [g2, hn s hs] at l3
    rw [hinum] at h3
    refine ⟨(info, out), ?_, hinum, ⟨l1, l2, l3, l4, l5⟩, h3, ?_, ?_⟩
    · rw [hfs.bind A, h1, ok_bind, h2]
    · rw [envFind_length h3]
      simp only [SlotIn.width]
      rw [show (umax.map fun m : ℕ => (m : ℤ)).sum = ((umax.sum : ℕ) : ℤ) from by rw [Nat.cast_list_sum]]
      norm_cast
    · intro i c hc
      obtain ⟨imgs, k1, k2, k3, k4, _⟩ := h4 i c hc
      exact ⟨imgs, k1, k2, k3, k4⟩)
  have hlen : ss.length = fs.length := h.length_eq.symm
  have hget : ∀ (i : ℕ) (q : MlffInfo × List EnvSlot), r[i]? = some q → ∃ f s, fs[i]? = some f ∧
      ss[i]? = some s := by
    intro i q hi
    have hi' := (List.getElem?_eq_some_iff.1 hi).1
    exact ⟨fs[i]'(by omega), ss[i]'(by omega), List.getElem?_eq_getElem _, List.getElem?_eq_getElem _⟩
  have hall : ∀ q ∈ r, q.1.inum = n ∧ (q.1.ilist.length = n ∧ q.1.types.length = n ∧ q.1.numneigh.length = n ∧
        q.1.firstneigh.length = n * umax.sum ∧ q.1.rel.length = n * umax.sum * 3) ∧
      (frameOfInfo U q.1).alone n rcut rs = .ok q.2 ∧ q.2.length = n * umax.sum := by
    intro q hq
    obtain ⟨i, hi⟩ := List.mem_iff_getElem?.1 hq
    obtain ⟨f, s, hf, hs⟩ := hget i q hi
    obtain ⟨q', h1, _, h2, h3, h4, h5, _⟩ := hr2 i f s hf hs
    rw [hi] at h1; cases h1
    exact ⟨h2, h3, h4, h5⟩
  have hinfos : fs.mapM (fun f => bindFindInfo A f.lattice f.numbers f.coords rcut pbc umax.sum sort isCart)
      = .ok (r.map Prod.fst) := by
    rw [mapM_eq_ok, List.forall₂_iff_get]
    refine ⟨by simp [hr1], ?_⟩
    intro i h1 h2
    obtain ⟨q, g1, g2, _⟩ := hr2 i fs[i] (ss[i]'(by omega)) (List.getElem?_eq_getElem _)
      (List.getElem?_eq_getElem _)
    simp only [List.get_eq_getElem, List.getElem_map]
    rw [g2, (List.getElem?_eq_some_iff.1 g1).2]
  obtain ⟨q0, r0, hr0⟩ : ∃ q0 r0, r = q0 :: r0 := by
    apply List.exists_cons_of_ne_nil
    rintro rfl
    exact hne (List.eq_nil_of_length_eq_zero hr1.symm)
  have hop : envOp (stackInfos (r.map Prod.fst) n umax.sum U) rcut rs = .ok (r.map Prod.snd).flatten := by
    refine envOp_ok (u := U.sum) (stackInfos_holds _ n umax.sum U ?_) ?_ ?_ ?_
    · intro i hi
      obtain ⟨q, hq, rfl⟩ := List.mem_map.1 hi
      exact (hall q hq).2.1
    · rw [hr0]; simp
    · intro f hf
      obtain ⟨i, _, rfl⟩ := List.mem_map.1 hf
      rfl
    · rw [List.forall₂_map_left_iff, List.forall₂_map_left_iff, List.forall₂_map_right_iff, List.forall₂_same]
      intro q hq
      exact (hall q hq).2.2.1
  have hrun : npToEnv A fs rcut rs pbc umax.sum U sort isCart = .ok (r.map Prod.snd).flatten := by
    unfold npToEnv
    rw [hinfos, ok_bind]
    have h0 : q0.1.inum = n := (hall q0 (by rw [hr0]; simp)).1
    have e : r.map Prod.fst = q0.1 :: r0.map Prod.fst := by rw [hr0]; rfl
    rw [e] at hop ⊢
    simp only
    rw [if_pos, h0, hop]
    rw [List.all_eq_true]
    intro x hx
    rw [← e] at hx
    obtain ⟨q, hq, rfl⟩ := List.mem_map.1 hx
    rw [(hall q hq).1, h0]
    exact beq_self_eq_true n
  have hflat : ∀ o ∈ r.map Prod.snd, o.length = n * umax.sum := by
    intro o ho
    obtain ⟨q, hq, rfl⟩ := List.mem_map.1 ho
    exact (hall q hq).2.2.2
  refine ⟨_, hrun, ?_, cEnvDeriv rcut rs, ?_, ?_⟩
  · rw [List.length_flatten]
    have : (r.map Prod.snd).map List.length = List.replicate fs.length (n * umax.sum) := by
      rw [List.eq_replicate_iff]
      refine ⟨by simp [hr1], ?_⟩
      intro b hb
      obtain ⟨l, hl, rfl⟩ := List.mem_map.1 hb
      exact hflat l hl
    rw [this]; simp
  · intro v hv
    have := hasFDerivAt_envRow hrs v (norm3_pos hv)
    simp only [cEnvRow_envAt_zero] at this
    exact this
  · intro b s hb i c hc
    have hbl := (List.getElem?_eq_some_iff.1 hb).1
    obtain ⟨q, g1, _, _, _, _, _, g2⟩ := hr2 b (fs[b]'(by omega)) s (List.getElem?_eq_getElem _) hb
    obtain ⟨imgs, k1, k2, k3, k4⟩ := g2 i c hc
    have hi : i < n := by
      rw [← hn s (List.mem_of_getElem? hb)]; exact (List.getElem?_eq_some_iff.1 hc).1
    have hrow := flatRow_flatten (r.map Prod.snd) n umax.sum hflat b i q.2
      (by rw [List.getElem?_map, g1]; rfl) hi
    have hat : ∀ e ∈ imgs, ∃ a, s.2[e.1]? = some a := by
      intro e he
      obtain ⟨⟨_, p, hp, _⟩, _⟩ := (k2 e).1 he
      rw [List.getElem?_map] at hp
      obtain ⟨a, ha, _⟩ := Option.map_eq_some_iff.1 hp
      exact ⟨a, ha⟩
    refine ⟨imgs, k1, k2, k3, ?_, ?_⟩
    · rw [flatRow_map, hrow, k4, typeBlocks_map, List.map_map]
      congr 1
      refine List.map_congr_left ?_
      intro e he
      obtain ⟨a, ha⟩ := hat e he
      simp only [Function.comp, imageBoth, imageEnv, ha, cEnvRow_envAt]
    · rw [flatRow_map, hrow, k4, typeBlocks_map, List.map_map]
      congr 1
      refine List.map_congr_left ?_
      intro e he
      obtain ⟨a, ha⟩ := hat e he
      simp only [Function.comp, imageBoth, imageJac, ha]

/-- What `find_info4mlff` stores in `firstneigh` for a good structure, if no atom sees more than `w` images. -/
theorem NpFrame.Gives.table {f : NpFrame} {isCart : Bool} {L : Fin 3 → Vec ℝ} {atoms : List (ℤ × Vec ℝ)}
    (h : f.Gives isCart L atoms) (A : ArgSort) (rcut : ℝ) (pbc : Fin 3 → Bool) (w : ℕ) (sort : Bool)
    (hok : CellOk L atoms pbc) (hr : 0 < rcut)
    (hw : ∀ (i : ℕ) (c : ℤ × Vec ℝ), atoms[i]? = some c → ∀ l : List (ℕ × (Fin 3 → ℤ)), l.Nodup →
      (∀ e ∈ l, SeenFrom L pbc (atoms.map Prod.snd) rcut c.2 e) → l.length ≤ w) :
    ∃ info, bindFindInfo A f.lattice f.numbers f.coords rcut pbc w sort isCart = .ok info ∧
      info.inum = atoms.length ∧
      ∀ (i : ℕ) (c : ℤ × Vec ℝ), atoms[i]? = some c → ∃ imgs : List (ℕ × (Fin 3 → ℤ)), imgs.Nodup ∧
        (∀ e, e ∈ imgs ↔ SeenFrom L pbc (atoms.map Prod.snd) rcut c.2 e) ∧
        info.numneigh[i]? = some imgs.length ∧ imgs.length ≤ w ∧
        ∀ j, imgs.length ≤ j → j < w → info.firstneigh[i * w + j]? = some (-1) := by
  obtain ⟨N, h1, h2, h3, I, h4, h5, _, h6⟩ := nbr_exact A L atoms rcut pbc sort hok hr
  have hI : ∀ (i : ℕ) (imgs : List (ℕ × (Fin 3 → ℤ))), I[i]? = some imgs → imgs.length ≤ w := by
    intro i imgs hi
    have hil : I.length = atoms.length := by
      rw [← h2, ← List.length_map (f := List.length) (as := N.lists), h4, List.length_map]
    have hlt : i < atoms.length := by rw [← hil]; exact (List.getElem?_eq_some_iff.1 hi).1
    obtain ⟨imgs', g1, g2, g3, _⟩ := h5 i atoms[i] (List.getElem?_eq_getElem hlt)
    rw [hi] at g1; cases g1
    exact hw i _ (List.getElem?_eq_getElem hlt) imgs g2 (fun e he => (g3 e).1 he)
  obtain ⟨info, f1, f2, _, _, _, f5, f6⟩ := h6 w (by
    intro imgs hm
    obtain ⟨i, hi⟩ := List.mem_iff_getElem?.1 hm
    exact hI i imgs hi)
  refine ⟨info, by rw [h.bind A, h1, ok_bind, f1], f2, ?_⟩
  intro i c hc
  obtain ⟨imgs, g1, g2, g3, _⟩ := h5 i c hc
  refine ⟨imgs, g2, g3, by rw [f5, List.getElem?_map, g1]; rfl, hI i imgs g1, ?_⟩
  intro j hj1 hj2
  rw [← flatRow_get _ _ _ _ hj2, (f6 i c imgs hc g1).1,
    List.getElem?_append_right (by simpa using hj1), List.getElem?_replicate, if_pos (by simp; omega)]

/-- C206 fails if the neighbour list has more columns than there are slots: if some structure has a second
atom which sees an image, and its first atom sees no more images than there are slots, the operator takes
padding of the first row for a neighbour of the second atom and reads the type of the atom numbered -1.
Nothing checks the two numbers. -/
theorem C206_violated_wide (A : ArgSort) (fs : List NpFrame) (b : ℕ) (f : NpFrame) (L : Fin 3 → Vec ℝ)
    (atoms : List (ℤ × Vec ℝ)) (rcut rs : ℝ) (pbc : Fin 3 → Bool) (sort isCart : Bool) (w : ℕ) (umax : List ℕ)
    (hb : fs[b]? = some f) (h : f.Gives isCart L atoms) (hok : CellOk L atoms pbc) (hr : 0 < rcut)
    (hw : ∀ (i : ℕ) (c : ℤ × Vec ℝ), atoms[i]? = some c → ∀ l : List (ℕ × (Fin 3 → ℤ)), l.Nodup →
      (∀ e ∈ l, SeenFrom L pbc (atoms.map Prod.snd) rcut c.2 e) → l.length ≤ w)
    (c0 c1 : ℤ × Vec ℝ) (h0 : atoms[0]? = some c0) (h1 : atoms[1]? = some c1)
    (hfew : ∀ l : List (ℕ × (Fin 3 → ℤ)), l.Nodup →
      (∀ e ∈ l, SeenFrom L pbc (atoms.map Prod.snd) rcut c0.2 e) → l.length ≤ umax.sum)
    (e : ℕ × (Fin 3 → ℤ)) (he : SeenFrom L pbc (atoms.map Prod.snd) rcut c1.2 e)
    (hlt : umax.sum < w) (out : List EnvSlot) :
    npToEnv A fs rcut rs pbc w (umax.map fun m : ℕ => (m : ℤ)) sort isCart ≠ .ok out := by
  intro hrun
  obtain ⟨info, g1, _, g2⟩ := npToEnv_no_padding hrun b f hb
  obtain ⟨info', k1, _, k2⟩ := h.table A rcut pbc w sort hok hr hw
  rw [g1] at k1
  obtain rfl := Except.ok.inj k1
  obtain ⟨imgs0, a1, a2, _, _, a3⟩ := k2 0 c0 h0
  obtain ⟨imgs1, b1, b2, b3, _, _⟩ := k2 1 c1 h1
  have hu : (umax.map fun m : ℕ => (m : ℤ)).sum.toNat = umax.sum := by
    rw [← Nat.cast_list_sum, Int.toNat_natCast]
  have hpos : 0 < imgs1.length := List.length_pos_of_mem ((b2 e).2 he)
  have := g2 1 0 imgs1.length (-1) b3 hpos (by
    rw [hu, ← a3 umax.sum (hfew imgs0 a1 fun e he => (a2 e).1 he) hlt]
    congr 1; omega)
  omega

/-- C206 fails if the neighbour list has fewer columns than there are slots: if the second atom of some
structure sees `m ≥ 1` images and the missing columns together with these images fit into a row, the
operator takes padding for the last neighbour of the second atom. -/
theorem C206_violated_narrow (A : ArgSort) (fs : List NpFrame) (b : ℕ) (f : NpFrame) (L : Fin 3 → Vec ℝ)
    (atoms : List (ℤ × Vec ℝ)) (rcut rs : ℝ) (pbc : Fin 3 → Bool) (sort isCart : Bool) (w : ℕ) (umax : List ℕ)
    (hb : fs[b]? = some f) (h : f.Gives isCart L atoms) (hok : CellOk L atoms pbc) (hr : 0 < rcut)
    (hw : ∀ (i : ℕ) (c : ℤ × Vec ℝ), atoms[i]? = some c → ∀ l : List (ℕ × (Fin 3 → ℤ)), l.Nodup →
      (∀ e ∈ l, SeenFrom L pbc (atoms.map Prod.snd) rcut c.2 e) → l.length ≤ w)
    (c1 : ℤ × Vec ℝ) (h1 : atoms[1]? = some c1)
    (hfew : ∀ l : List (ℕ × (Fin 3 → ℤ)), l.Nodup →
      (∀ e ∈ l, SeenFrom L pbc (atoms.map Prod.snd) rcut c1.2 e) → umax.sum + l.length ≤ 2 * w)
    (e : ℕ × (Fin 3 → ℤ)) (he : SeenFrom L pbc (atoms.map Prod.snd) rcut c1.2 e)
    (hlt : w < umax.sum) (out : List EnvSlot) :
    npToEnv A fs rcut rs pbc w (umax.map fun m : ℕ => (m : ℤ)) sort isCart ≠ .ok out := by
  intro hrun
  obtain ⟨info, g1, _, g2⟩ := npToEnv_no_padding hrun b f hb
  obtain ⟨info', k1, _, k2⟩ := h.table A rcut pbc w sort hok hr hw
  rw [g1] at k1
  obtain rfl := Except.ok.inj k1
  obtain ⟨imgs1, b1, b2, b3, _, b5⟩ := k2 1 c1 h1
  have hu : (umax.map fun m : ℕ => (m : ℤ)).sum.toNat = umax.sum := by
    rw [← Nat.cast_list_sum, Int.toNat_natCast]
  have hpos : 0 < imgs1.length := List.length_pos_of_mem ((b2 e).2 he)
  have hle := hfew imgs1 b1 fun e he => (b2 e).1 he
  have := g2 1 (imgs1.length - 1) imgs1.length (-1) b3 (by omega) (by
    rw [hu, ← b5 (umax.sum - w + (imgs1.length - 1)) (by omega) (by omega)]
    congr 1; omega)
  omega

/-- C206: structures with different numbers of atoms cannot be stacked. -/
theorem C206_different_sizes (A : ArgSort) (fs : List NpFrame) (b b' : ℕ) (f f' : NpFrame)
    (L L' : Fin 3 → Vec ℝ) (atoms atoms' : List (ℤ × Vec ℝ)) (rcut rs : ℝ) (pbc : Fin 3 → Bool)
    (sort isCart : Bool) (w : ℕ) (umax : List ℤ) (hb : fs[b]? = some f) (hb' : fs[b']? = some f')
    (h : f.Gives isCart L atoms) (h' : f'.Gives isCart L' atoms') (hok : CellOk L atoms pbc)
    (hok' : CellOk L' atoms' pbc) (hr : 0 < rcut) (hne : atoms.length ≠ atoms'.length) (out : List EnvSlot) :
    npToEnv A fs rcut rs pbc w umax sort isCart ≠ .ok out := by
  intro hrun
  obtain ⟨info, g1, g2, _⟩ := npToEnv_no_padding hrun b f hb
  obtain ⟨info', g1', _, _⟩ := npToEnv_no_padding hrun b' f' hb'
  have key : ∀ {f : NpFrame} {L : Fin 3 → Vec ℝ} {atoms : List (ℤ × Vec ℝ)} {info : MlffInfo},
      f.Gives isCart L atoms → CellOk L atoms pbc →
      bindFindInfo A f.lattice f.numbers f.coords rcut pbc w sort isCart = .ok info →
      info.inum = atoms.length := by
    intro f L atoms info h hok hi
    obtain ⟨N, k1, _, k3, _⟩ := nbr_exact A L atoms rcut pbc sort hok hr
    rw [h.bind A, k1, ok_bind] at hi
    unfold NbrLists.findInfo at hi
    simp only [bind_eq_ok] at hi
    obtain ⟨_, _, _, _, _, _, _, _, h5⟩ := hi
    rw [← Except.ok.inj h5, k3]
    rfl
  have := g2 b' f' info' hb' g1'
  rw [key h hok g1, key h' hok' g1'] at this
  exact hne this.symm

/-- C206: no structures, no descriptors. -/
theorem C206_no_structures (A : ArgSort) (rcut rs : ℝ) (pbc : Fin 3 → Bool) (w : ℕ) (umax : List ℤ)
    (sort isCart : Bool) : npToEnv A [] rcut rs pbc w umax sort isCart = .error .exception := rfl

/-! ## Examples -/

/-- Arrays of the cell of the examples with two atoms of types 0 and 1. -/
noncomputable def exNpFrame : NpFrame :=
  ⟨⟨[4, 0, 0, 1, 5, 0, 0, 0, 6], 0, 3, 1⟩, ⟨[0, 1], 0, 2, 1, false⟩, ⟨[0, 0, 0, 2, 1, 1], 0, 3, 1⟩⟩

theorem exNpFrame_gives : exNpFrame.Gives true exL exTyped := by
  refine ⟨[![0, 0, 0], ![2, 1, 1]], ?_, ⟨rfl, ?_⟩, ?_, rfl, ⟨rfl, rfl⟩, ⟨rfl, rfl⟩, ⟨rfl, rfl⟩⟩
  · intro i v hv j
    match i, hv with
    | 0, hv => obtain rfl := Option.some.inj hv; fin_cases j <;> simp [NpMat.at, cGet, exL, exNpFrame]
    | 1, hv => obtain rfl := Option.some.inj hv; fin_cases j <;> simp [NpMat.at, cGet, exL, exNpFrame]
    | 2, hv => obtain rfl := Option.some.inj hv; fin_cases j <;> simp [NpMat.at, cGet, exL, exNpFrame]
    | _ + 3, hv => simp at hv
  · intro i z hz
    match i, hz with
    | 0, hz => obtain rfl := Option.some.inj hz; rfl
    | 1, hz => obtain rfl := Option.some.inj hz; rfl
    | _ + 2, hz => simp [exTyped] at hz
  · intro i v hv j
    match i, hv with
    | 0, hv => obtain rfl := Option.some.inj hv; fin_cases j <;> simp [NpMat.at, cGet, exNpFrame]
    | 1, hv => obtain rfl := Option.some.inj hv; fin_cases j <;> simp [NpMat.at, cGet, exNpFrame]
    | _ + 2, hv => simp at hv

theorem exTyped_few (i : ℕ) (c : ℤ × Vec ℝ) (hc : exTyped[i]? = some c) (l : List (ℕ × (Fin 3 → ℤ)))
    (hl : l.Nodup) (h : ∀ e ∈ l, SeenFrom exL (fun _ => true) (exTyped.map Prod.snd) 3 c.2 e) :
    l.length ≤ 2 := by
  refine (hl.subperm (fun e he => exTyped_near i c hc e (h e he).1 ?_)).length_le
  rintro rfl
  exact not_seen_self exL _ _ 3 i c.2 (by rw [List.getElem?_map, hc]; rfl) (h _ he)

theorem exTyped_sees : SeenFrom exL (fun _ => true) (exTyped.map Prod.snd) 3 ![2, 1, 1] (0, 0) := by
  have hp : dist3 (imagePos exL ![0, 0, 0] 0) ![2, 1, 1] ^ 2 = 6 := by
    rw [imagePos_zero, dist3_sq_comp]
    simp [Matrix.cons_val_two]
    norm_num
  have h0 : 0 ≤ dist3 (imagePos exL ![0, 0, 0] 0) ![2, 1, 1] := dist3_nonneg _ _
  refine ⟨⟨by simp, ![0, 0, 0], rfl, by nlinarith⟩, ?_⟩
  intro p hp'
  cases hp'
  rw [hp]
  norm_num

/-- The first atom of the example alone. -/
noncomputable def exNpSingle : NpFrame :=
  ⟨⟨[4, 0, 0, 1, 5, 0, 0, 0, 6], 0, 3, 1⟩, ⟨[0], 0, 1, 1, false⟩, ⟨[0, 0, 0], 0, 3, 1⟩⟩

theorem exNpSingle_gives : exNpSingle.Gives true exL [(0, ![0, 0, 0])] := by
  refine ⟨[![0, 0, 0]], ?_, ⟨rfl, ?_⟩, ?_, rfl, ⟨rfl, rfl⟩, ⟨rfl, rfl⟩, ⟨rfl, rfl⟩⟩
  · intro i v hv j
    match i, hv with
    | 0, hv => obtain rfl := Option.some.inj hv; fin_cases j <;> simp [NpMat.at, cGet, exL, exNpSingle]
    | 1, hv => obtain rfl := Option.some.inj hv; fin_cases j <;> simp [NpMat.at, cGet, exL, exNpSingle]
    | 2, hv => obtain rfl := Option.some.inj hv; fin_cases j <;> simp [NpMat.at, cGet, exL, exNpSingle]
    | _ + 3, hv => simp at hv
  · intro i z hz
    match i, hz with
    | 0, hz => obtain rfl := Option.some.inj hz; rfl
    | _ + 1, hz => simp at hz
  · intro i v hv j
    match i, hv with
    | 0, hv => obtain rfl := Option.some.inj hv; fin_cases j <;> simp [NpMat.at, cGet, exNpSingle]
    | _ + 1, hv => simp at hv

theorem exSingle_ok : CellOk exL [(0, ![0, 0, 0])] (fun _ => true) :=
  ⟨exTyped_ok.nonsing, by simp, fun a ha => exTyped_ok.inCell a (by simp [exTyped] at ha ⊢; exact Or.inl ha),
    exTyped_ok.dir, exTyped_ok.perp⟩

/-- Two atoms and one atom. -/
example (A : ArgSort) := C206_different_sizes A [exNpFrame, exNpSingle] 0 1 exNpFrame exNpSingle exL exL exTyped
  [(0, ![0, 0, 0])] 3 1 (fun _ => true) true true 4 [2, 2] rfl rfl exNpFrame_gives exNpSingle_gives exTyped_ok
  exSingle_ok (by norm_num) (by simp [exTyped])

/-- Two structures in a batch. -/
example (A : ArgSort) := C206_batch_partial A [exNpFrame, exNpFrame] [(exL, exTyped), (exL, exTyped)] 3 1
  (fun _ => true) true true [2, 2] 2 (by simp) (.cons exNpFrame_gives (.cons exNpFrame_gives .nil))
  (by intro s hs; simp at hs; subst hs; rfl)
  (by intro s hs; simp at hs; subst hs; exact exTyped_ok) (by norm_num) (by norm_num)
  (by
    intro s hs a ha
    simp at hs; subst hs
    simp only [exTyped, List.mem_cons, List.not_mem_nil, or_false] at ha
    rcases ha with rfl | rfl <;> simp)
  (by
    intro s hs i c hc t m hm l hl h
    simp at hs; subst hs
    have hm2 : m = 2 := by
      rcases t with _ | _ | t <;> simp at hm <;> exact hm.symm
    subst hm2
    exact exTyped_few i c hc l hl fun e he => (h e he).1)

/-- Five columns, four slots. -/
example (A : ArgSort) := C206_violated_wide A [exNpFrame] 0 exNpFrame exL exTyped 3 1 (fun _ => true) true true
  5 [2, 2] rfl exNpFrame_gives exTyped_ok (by norm_num)
  (fun i c hc l hl h => (exTyped_few i c hc l hl h).trans (by norm_num)) _ _ rfl rfl
  (fun l hl h => (exTyped_few 0 _ rfl l hl h).trans (by norm_num)) (0, 0) exTyped_sees (by norm_num)

/-- Three columns, four slots. -/
example (A : ArgSort) := C206_violated_narrow A [exNpFrame] 0 exNpFrame exL exTyped 3 1 (fun _ => true) true true
  3 [2, 2] rfl exNpFrame_gives exTyped_ok (by norm_num)
  (fun i c hc l hl h => (exTyped_few i c hc l hl h).trans (by norm_num)) _ rfl
  (fun l hl h => by have := exTyped_few 1 _ rfl l hl h; simp; omega) (0, 0) exTyped_sees (by norm_num)

end MaterSDK
