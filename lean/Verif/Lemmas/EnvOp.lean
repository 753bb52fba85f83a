import Verif.Spec.EnvOp
import Verif.Lemmas.EnvMatrixUse

/-! # Helper lemmas for the batched operators -/

namespace MaterSDK

open Classical

variable {α β σ ι : Type}

/-! ## Loops -/

theorem foldlM_mono {f g : σ → ι → Except CErr σ} (R : σ → σ → Prop)
    (h : ∀ s s' x r, R s s' → f s x = .ok r → ∃ r', g s' x = .ok r' ∧ R r r') :
    ∀ (l : List ι) (s s' r : σ), R s s' → l.foldlM f s = .ok r → ∃ r', l.foldlM g s' = .ok r' ∧ R r r'
  | [], s, s', r, hR, hr => ⟨s', rfl, by cases hr; exact hR⟩
  | x :: l, s, s', r, hR, hr => by
    rw [List.foldlM_cons, bind_eq_ok] at hr
    obtain ⟨s1, h1, h2⟩ := hr
    obtain ⟨s1', h3, h4⟩ := h s s' x s1 hR h1
    obtain ⟨r', h5, h6⟩ := foldlM_mono R h l s1 s1' r h4 h2
    exact ⟨r', by rw [List.foldlM_cons, h3, ok_bind, h5], h6⟩

theorem foldlM_keep {f : σ → ι → Except CErr σ} (P : σ → Prop)
    (h : ∀ s x r, P s → f s x = .ok r → P r) (l : List ι) (s r : σ) (hs : P s)
    (hr : l.foldlM f s = .ok r) : P r := by
  obtain ⟨r', _, h2⟩ := foldlM_mono (g := f) (fun a b => a = b ∧ P a) (by
    rintro s _ x r ⟨rfl, h1⟩ h2
    exact ⟨r, h2, rfl, h s x r h1 h2⟩) l s s r ⟨rfl, hs⟩ hr
  exact h2.2

/-! ## Longer arrays -/

theorem cGet_append {l : List α} {i : ℤ} {a : α} (rest : List α) (h : cGet l i = .ok a) :
    cGet (l ++ rest) i = .ok a := by
  obtain ⟨h1, h2⟩ := cGet_ok.1 h
  refine cGet_ok.2 ⟨h1, ?_⟩
  rw [List.getElem?_append_left (List.getElem?_eq_some_iff.1 h2).1, h2]

theorem cSet_append {l r : List α} {i : ℤ} {a : α} (rest : List α) (h : cSet l i a = .ok r) :
    cSet (l ++ rest) i a = .ok (r ++ rest) ∧ r.length = l.length := by
  unfold cSet at h ⊢
  split_ifs at h with hc
  obtain rfl := Except.ok.inj h
  refine ⟨?_, by simp⟩
  rw [if_pos ⟨hc.1, by rw [List.length_append]; push_cast; omega⟩, List.set_append_left _ _ (by omega)]

theorem cVec3_append {l : List ℝ} {k : ℤ} {v : Vec ℝ} (rest : List ℝ) (h : cVec3 l k = .ok v) :
    cVec3 (l ++ rest) k = .ok v := by
  unfold cVec3 at h ⊢
  rw [bind_eq_ok] at h
  obtain ⟨a, h1, h⟩ := h
  rw [bind_eq_ok] at h
  obtain ⟨b, h2, h⟩ := h
  rw [bind_eq_ok] at h
  obtain ⟨c, h3, h⟩ := h
  rw [cGet_append rest h1, ok_bind, cGet_append rest h2, ok_bind, cGet_append rest h3, ok_bind, h]

/-- The same arrays, each with more elements behind it. -/
structure SlotIn.Longer (p p' : SlotIn) : Prop where
  inum : p'.inum = p.inum
  umax : p'.umax = p.umax
  numneigh : ∃ r, p'.numneigh = p.numneigh ++ r
  firstneigh : ∃ r, p'.firstneigh = p.firstneigh ++ r
  types : ∃ r, p'.types = p.types ++ r

theorem slotStep_longer {p p' : SlotIn} (h : p.Longer p') {val val' : ℤ → ℤ → Except CErr α}
    (hv : ∀ k nb a, val k nb = .ok a → val' k nb = .ok a) (ii : ℕ) (rest : List α)
    (st : List α × List ℤ) (jj : ℕ) (r : List α × List ℤ) (hr : slotStep p val ii st jj = .ok r) :
    slotStep p' val' ii (st.1 ++ rest, st.2) jj = .ok (r.1 ++ rest, r.2) ∧
      r.1.length = st.1.length := by
  obtain ⟨_, e2, _, ⟨r4, e4⟩, ⟨r5, e5⟩⟩ := h
  unfold slotStep at hr ⊢
  rw [bind_eq_ok] at hr
  obtain ⟨nb, h1, hr⟩ := hr
  rw [bind_eq_ok] at hr
  obtain ⟨t, h2, hr⟩ := hr
  rw [bind_eq_ok] at hr
  obtain ⟨a, h3, hr⟩ := hr
  rw [bind_eq_ok] at hr
  obtain ⟨start, h4, hr⟩ := hr
  rw [bind_eq_ok] at hr
  obtain ⟨k, h5, hr⟩ := hr
  rw [bind_eq_ok] at hr
  obtain ⟨out, h6, hr⟩ := hr
  rw [bind_eq_ok] at hr
  obtain ⟨nl, h7, hr⟩ := hr
  obtain rfl := Except.ok.inj hr
  have hw : p'.width = p.width := by unfold SlotIn.width; rw [e2]
  obtain ⟨g1, g2⟩ := cSet_append rest h6
  rw [hw, e4, cGet_append r4 h1, ok_bind, e5, cGet_append r5 h2, ok_bind, hv _ _ _ h3, ok_bind, e2, h4,
    ok_bind, h5, ok_bind, g1, ok_bind, h7, ok_bind]
  exact ⟨rfl, g2⟩

/-- Where `slotFill` succeeds, the loops on a longer array do the same in its front part. -/
theorem slotFillOn_of_ok {p p' : SlotIn} (h : p.Longer p') {zero : α} {centre centre' : ℕ → Except CErr β}
    {val val' : β → ℤ → ℤ → Except CErr α}
    (hc : ∀ i b, centre i = .ok b → centre' i = .ok b)
    (hv : ∀ b k nb a, val b k nb = .ok a → val' b k nb = .ok a) {out : List α}
    (hr : slotFill p zero centre val = .ok out) :
    out.length = (p.inum * p.width).toNat ∧ ∀ buf : List α, (p.inum * p.width).toNat ≤ buf.length →
      slotFillOn p' zero centre' val' buf = .ok (out ++ buf.drop (p.inum * p.width).toNat) := by
  unfold slotFill at hr
  split at hr
  · cases hr
  next hneg =>
  have hw : p'.width = p.width := by unfold SlotIn.width; rw [h.umax]
  set N := (p.inum * p.width).toNat with hN
  have key : ∀ rest : List α, ∃ r', (List.range p.inum.toNat).foldlM (fun (out : List α) (ii : ℕ) => do
      let c ← centre' ii
      let n ← cGet p'.numneigh (ii : ℤ)
      let st ← (List.range n.toNat).foldlM (slotStep p' (val' c) ii)
        (out, List.replicate p'.umax.length 0)
      return st.1) (List.replicate N zero ++ rest) = .ok r' ∧ (r' = out ++ rest ∧ out.length = N) := by
    intro rest
    refine foldlM_mono (fun a b => b = a ++ rest ∧ a.length = N) ?_ _ _ _ _ ⟨rfl, by simp⟩ hr
    rintro s s' ii r ⟨rfl, hs⟩ hstep
    rw [bind_eq_ok] at hstep
    obtain ⟨c, h1, hstep⟩ := hstep
    rw [bind_eq_ok] at hstep
    obtain ⟨n, h2, hstep⟩ := hstep
    rw [bind_eq_ok] at hstep
    obtain ⟨st, h3, hstep⟩ := hstep
    obtain rfl := Except.ok.inj hstep
    obtain ⟨q, e⟩ := h.numneigh
    obtain ⟨st', h4, h5, h7⟩ := foldlM_mono (g := slotStep p' (val' c) ii)
      (fun a b => b = (a.1 ++ rest, a.2) ∧ a.1.length = N) (by
        rintro a b jj r ⟨rfl, g3⟩ g4
        obtain ⟨k1, k2⟩ := slotStep_longer h (hv c) ii rest a jj r g4
        exact ⟨_, k1, rfl, by rw [k2, g3]⟩) _ (s, List.replicate p.umax.length 0)
          (s ++ rest, List.replicate p.umax.length 0) st ⟨rfl, hs⟩ h3
    refine ⟨st'.1, ?_, by rw [h5], h7⟩
    rw [hc _ _ h1, ok_bind, e, cGet_append q h2, ok_bind, h.umax, h4, ok_bind]
    rfl
  refine ⟨(key []).choose_spec.2.2, fun buf hb => ?_⟩
  unfold slotFillOn
  rw [h.inum, h.umax, if_neg hneg, hw, ← hN, if_neg (by omega)]
  obtain ⟨r', k1, rfl, _⟩ := key (buf.drop N)
  rw [h.umax] at k1
  exact k1

/-- The loops keep the length of the array. -/
theorem slotFillOn_length {p : SlotIn} {zero : α} {centre : ℕ → Except CErr β}
    {val : β → ℤ → ℤ → Except CErr α} {buf out : List α}
    (hr : slotFillOn p zero centre val buf = .ok out) :
    out.length = buf.length ∧ (p.inum * p.width).toNat ≤ buf.length := by
  unfold slotFillOn at hr
  split at hr
  · cases hr
  split at hr
  · cases hr
  next hlen =>
  refine ⟨?_, by omega⟩
  refine foldlM_keep (fun a : List α => a.length = buf.length) ?_ _ _ _ ?_ hr
  · intro s ii r hs hstep
    rw [bind_eq_ok] at hstep
    obtain ⟨c, h1, hstep⟩ := hstep
    rw [bind_eq_ok] at hstep
    obtain ⟨n, h2, hstep⟩ := hstep
    rw [bind_eq_ok] at hstep
    obtain ⟨st, h3, hstep⟩ := hstep
    obtain rfl := Except.ok.inj hstep
    refine foldlM_keep (fun a : List α × List ℤ => a.1.length = buf.length) ?_ _ _ _ hs h3
    intro a jj r ha hr
    rw [(slotStep_longer (p' := p) ⟨rfl, rfl, ⟨[], by simp⟩, ⟨[], by simp⟩, ⟨[], by simp⟩⟩
      (fun _ _ _ h => h) ii [] a jj r hr).2, ha]
  · simp only [List.length_append, List.length_replicate, List.length_drop]
    omega

/-! ## Tensors -/

theorem mapM_getElem {f : ι → Except CErr α} : ∀ {l : List ι} {r : List α}, l.mapM f = .ok r →
    r.length = l.length ∧ ∀ (i : ℕ) (x : ι), l[i]? = some x → ∃ a, f x = .ok a ∧ r[i]? = some a
  | [], r, h => by
    obtain rfl : r = [] := by simpa using (Except.ok.inj h).symm
    simp
  | y :: l, r, h => by
    rw [List.mapM_cons, bind_eq_ok] at h
    obtain ⟨a, h1, h⟩ := h
    rw [bind_eq_ok] at h
    obtain ⟨b, h2, h⟩ := h
    obtain rfl := Except.ok.inj h
    obtain ⟨k1, k2⟩ := mapM_getElem h2
    refine ⟨by simp [k1], ?_⟩
    rintro (_ | i) x hx
    · obtain rfl : y = x := by simpa using hx
      exact ⟨a, h1, rfl⟩
    · exact k2 i x (by simpa using hx)

theorem Ten.Dense.prefix {t : Ten α} {l : List α} (hd : t.Dense) (hl : t.shows = .ok l) :
    l.length = t.sizes.prod ∧ ∃ rest, t.mem.drop t.off = l ++ rest := by
  unfold Ten.shows at hl
  rw [hd] at hl
  obtain ⟨h1, h2⟩ := mapM_getElem hl
  rw [List.length_range] at h1
  refine ⟨h1, ?_⟩
  have : l <+: t.mem.drop t.off := by
    rw [List.prefix_iff_getElem?]
    intro i hi
    obtain ⟨a, h3, h4⟩ := h2 i i (List.getElem?_range (by omega))
    obtain ⟨_, h5⟩ := cGet_ok.1 h3
    rw [List.getElem?_eq_getElem hi] at h4
    rw [Int.toNat_natCast] at h5
    rw [List.getElem?_drop, h5, h4]
  obtain ⟨rest, h⟩ := this
  exact ⟨rest, h.symm⟩

theorem Ten.row_kind {t r : Ten α} {ii : ℕ} (h : t.row ii = .ok r) : r.kind = t.kind := by
  unfold Ten.row at h
  split at h
  · split at h
    · rw [← Except.ok.inj h]
    · cases h
  · cases h

/-- The elements of `t[ii]` are those of frame `ii`. -/
theorem Ten.Holds.rows {t : Ten α} {k : TKind} {frames : List (List α)} (h : t.Holds k frames)
    (ii : ℕ) (l : List α) (hl : frames[ii]? = some l) : ∃ r, t.row ii = .ok r ∧ r.shows = .ok l ∧ r.Dense := by
  obtain ⟨_, h2, h3, h4, h5, h6⟩ := h
  obtain ⟨kd, mem, off, sizes, strides⟩ := t
  obtain ⟨hi, _⟩ := List.getElem?_eq_some_iff.1 hl
  cases sizes with
  | nil => simp at h2
  | cons n ns =>
    cases strides with
    | nil => simp at h3
    | cons s ss =>
      obtain rfl : n = frames.length := by simpa using h2
      simp only [List.tail_cons] at h5 h6
      refine ⟨⟨kd, mem, off + ii * s, ns, ss⟩, ?_, ?_, h6⟩
      · simp only [Ten.row]
        rw [if_pos hi]
      · unfold Ten.shows at h4 ⊢
        simp only [tenOffs, h6] at h4 ⊢
        obtain ⟨g1, g2⟩ := mapM_getElem h4
        rw [mapM_eq_ok, List.forall₂_iff_get]
        have hln := h5 l (List.mem_of_getElem? hl)
        refine ⟨by simp [hln], ?_⟩
        intro j hj hj'
        have hj2 : j < ns.prod := by simpa using hj
        have e1 := flatMap_uniform_get (List.range frames.length)
          (fun i => (List.range ns.prod).map fun o => i * s + o) ns.prod (by simp) ii j ii
          (List.getElem?_range hi) hj2
        have e2 := flatMap_uniform_get frames id ns.prod (fun a ha => h5 a ha) ii j l hl hj2
        rw [List.getElem?_map, List.getElem?_range hj2] at e1
        obtain ⟨a, a1, a2⟩ := g2 (ii * ns.prod + j) _ e1
        rw [List.flatMap_id] at e2
        rw [e2, id, List.getElem?_eq_getElem hj'] at a2
        have := Option.some.inj a2
        simp only [List.get_eq_getElem, List.getElem_range]
        rw [this, ← a1]
        congr 2
        ring

theorem Ten.Holds.frame {t : Ten α} {k : TKind} {frames : List (List α)} (h : t.Holds k frames)
    {ii : ℕ} {l : List α} (hl : frames[ii]? = some l) : ∃ rest, t.frame k ii = .ok (l ++ rest) := by
  obtain ⟨r, h1, h2, h3⟩ := h.rows ii l hl
  obtain ⟨_, rest, h4⟩ := h3.prefix h2
  refine ⟨rest, ?_⟩
  unfold Ten.frame Ten.data
  rw [h1, ok_bind, Ten.row_kind h1, h.1, if_pos rfl, h4]

theorem cFirst_append (l rest : List α) : cFirst (l ++ rest) l.length = .ok l := by
  unfold cFirst
  rw [if_pos (by simp), List.take_left]

/-! ## Frames -/

theorem frames_fold {f : List α → ℕ → Except CErr (List α)} {w : ℕ} {outs : List (List α)}
    (hw : ∀ o ∈ outs, o.length = w)
    (hstep : ∀ (ii : ℕ) (o : List α), outs[ii]? = some o → ∀ out : List α, ii * w + w ≤ out.length →
      f out ii = .ok (out.take (ii * w) ++ (o ++ out.drop (ii * w + w)))) (init : List α)
    (hi : init.length = outs.length * w) :
    (List.range outs.length).foldlM f init = .ok outs.flatten := by
  have key : ∀ k ≤ outs.length, (List.range k).foldlM f init
      = .ok ((outs.take k).flatten ++ init.drop (k * w)) := by
    intro k
    induction k with
    | zero => intro _; simp [pure, Except.pure]
    | succ k ih =>
      intro hk
      have hlen : (outs.take k).flatten.length = k * w := by
        rw [List.length_flatten, List.eq_replicate_of_mem (a := w) (l := (outs.take k).map List.length)]
        · simp [show min k outs.length = k by omega]
        · intro b hb
          obtain ⟨o, ho, rfl⟩ := List.mem_map.1 hb
          exact hw o (List.mem_of_mem_take ho)
      have hmul : (k + 1) * w ≤ outs.length * w := Nat.mul_le_mul_right w hk
      have hadd : (k + 1) * w = k * w + w := by ring
      rw [List.range_succ, List.foldlM_append, ih (by omega), ok_bind, List.foldlM_cons,
        hstep k outs[k] (List.getElem?_eq_getElem (by omega)) _ (by
          rw [List.length_append, hlen, List.length_drop, hi]; omega), ok_bind, List.foldlM_nil]
      refine congrArg Except.ok ?_
      rw [List.take_append_of_le_length (by omega), List.take_of_length_le (by omega),
        List.drop_append, List.drop_eq_nil_of_le (by omega), List.nil_append, hlen, List.drop_drop,
        List.take_add_one, List.getElem?_eq_getElem (by omega), Option.toList_some, List.flatten_append,
        List.flatten_singleton, List.append_assoc]
      congr 3
      omega
  have := key outs.length le_rfl
  rwa [List.take_length, ← hi, List.drop_length, List.append_nil] at this

theorem frameOn_ok {f : List α → Except CErr (List α)} {w base : ℕ} {o out : List α}
    (hb : base + w ≤ out.length)
    (hf : ∀ buf : List α, w ≤ buf.length → f buf = .ok (o ++ buf.drop w)) :
    frameOn base out f = .ok (out.take base ++ (o ++ out.drop (base + w))) := by
  unfold frameOn
  rw [hf _ (by rw [List.length_drop]; omega), ok_bind, List.drop_drop]
  rfl

theorem slotFill_nonneg {p : SlotIn} {zero : α} {centre : ℕ → Except CErr β}
    {val : β → ℤ → ℤ → Except CErr α} {out : List α} (hr : slotFill p zero centre val = .ok out) :
    0 ≤ p.width := by
  unfold slotFill at hr
  split at hr
  · cases hr
  next h =>
  refine List.sum_nonneg fun x hx => ?_
  by_contra hn
  exact h (Or.inr (List.any_eq_true.2 ⟨x, hx, by simpa using hn⟩))

theorem mul_toNat (n : ℕ) {w : ℤ} (h : 0 ≤ w) : ((n : ℤ) * w).toNat = n * w.toNat := by
  obtain ⟨m, rfl⟩ := Int.eq_ofNat_of_zero_le h
  rw [Int.toNat_natCast, ← Nat.cast_mul, Int.toNat_natCast]

theorem forall₂_getElem {R : ι → σ → Prop} {l : List ι} {m : List σ} (h : List.Forall₂ R l m) {i : ℕ} {b : σ}
    (hb : m[i]? = some b) : ∃ a, l[i]? = some a ∧ R a b := by
  induction h generalizing i with
  | nil => simp at hb
  | cons hr _ ih =>
    cases i with
    | zero => exact ⟨_, rfl, by simpa using (by simpa using hb : _ = b) ▸ hr⟩
    | succ i => simpa using ih (by simpa using hb)

theorem Ten.Holds.frameMap {f : ι → List α} {fs : List ι} {t : Ten α} {k : TKind} (h : t.Holds k (fs.map f))
    {ii : ℕ} {x : ι} (hx : fs[ii]? = some x) : ∃ rest, t.frame k ii = .ok (f x ++ rest) :=
  h.frame (by rw [List.getElem?_map, hx]; rfl)

theorem Ten.Holds.length {t : Ten α} {k : TKind} {frames : List (List α)} (h : t.Holds k frames)
    {n m : ℕ} (hs : t.sizes = [n, m]) {l : List α} (hl : l ∈ frames) : l.length = m := by
  obtain ⟨ii, hi⟩ := List.mem_iff_getElem?.1 hl
  obtain ⟨r, h1, h2, h3⟩ := h.rows ii l hi
  rw [(h3.prefix h2).1]
  unfold Ten.row at h1
  rw [hs] at h1
  split at h1
  next e _ =>
    split at h1
    · rw [← Except.ok.inj h1]
      simp only [List.cons.injEq] at e
      simp [← e.2]
    · cases h1
  · cases h1

/-- Where every frame succeeds alone and has the slots of the first one, the batch succeeds. -/
theorem envOp_ok {t : EnvOpIn} {rcut rs : ℝ} {inum ntypes : ℕ} {fs : List EnvFrame} {u : ℤ}
    {outs : List (List EnvSlot)} (h : t.Holds inum ntypes fs) (hne : fs ≠ [])
    (hu : ∀ f ∈ fs, f.umax.sum = u)
    (ho : List.Forall₂ (fun f o => f.alone inum rcut rs = .ok o) fs outs) :
    envOp t rcut rs = .ok outs.flatten := by
  obtain ⟨h1, h2, h3, h4, h5, h6, h7, h8⟩ := h
  have hk : t.kindsOk := ⟨h1.1, h2.1, h3.1, h5.1, h6.1, h4.imp (fun h => h.1) (fun h => h.1)⟩
  obtain ⟨f0, fs0, rfl⟩ := List.exists_cons_of_ne_nil hne
  have hu0 : 0 ≤ u := by
    cases ho with
    | cons hr _ => rw [← hu f0 (by simp)]; exact slotFill_nonneg hr
  set fs := f0 :: fs0 with hfs
  have hf0 : fs[0]? = some f0 := rfl
  obtain ⟨r0, k1, k2, _⟩ := h6.rows 0 f0.umax (by rw [List.getElem?_map, hf0]; rfl)
  unfold envOp
  rw [if_pos hk]
  unfold Ten.size
  rw [h7, h8]
  show (t.umax.row 0 >>= _) = _
  rw [k1, ok_bind, k2, ok_bind, hu f0 (by simp [hfs])]
  show (if u < 0 then _ else _) = _
  rw [if_neg (by omega)]
  show (List.range fs.length).foldlM _ _ = _
  have hlen : fs.length = outs.length := ho.length_eq
  have step : ∀ (ii : ℕ) (o : List EnvSlot), outs[ii]? = some o → ∃ f ∈ fs, fs[ii]? = some f ∧
      f.alone inum rcut rs = .ok o := fun ii o hii => by
    obtain ⟨f, g1, g2⟩ := forall₂_getElem ho hii
    exact ⟨f, List.mem_of_getElem? g1, g1, g2⟩
  have hw : ∀ f ∈ fs, ((inum : ℤ) * SlotIn.width ⟨inum, f.numneigh, f.firstneigh, f.types, f.umax⟩).toNat
      = inum * u.toNat := fun f hf => by
    rw [show SlotIn.width ⟨inum, f.numneigh, f.firstneigh, f.types, f.umax⟩ = u from hu f hf,
      mul_toNat _ hu0]
  rw [hlen]
  refine frames_fold (w := inum * u.toNat) ?_ ?_ _ (by rw [List.length_replicate])
  · intro o ho'
    obtain ⟨ii, hii⟩ := List.mem_iff_getElem?.1 ho'
    obtain ⟨f, hf, _, g⟩ := step ii o hii
    rw [(slotFillOn_of_ok ⟨rfl, rfl, ⟨[], by simp⟩, ⟨[], by simp⟩, ⟨[], by simp⟩⟩ (fun _ _ h => h)
      (fun _ _ _ _ h => h) g).1]
    exact hw f hf
  · intro ii o hii out hout
    obtain ⟨f, hf, hfi, g⟩ := step ii o hii
    obtain ⟨q1, e1⟩ := h1.frameMap hfi
    obtain ⟨q2, e2⟩ := h2.frameMap hfi
    obtain ⟨q3, e3⟩ := h3.frameMap hfi
    obtain ⟨q5, e5⟩ := h5.frameMap hfi
    obtain ⟨q6, e6⟩ := h6.frameMap hfi
    have e4 : ∃ q4, t.rel.frame (if t.rel.kind = .float32 then .float32 else .float64) ii
        = .ok (f.rel ++ q4) := by
      rcases h4 with h4 | h4
      · obtain ⟨q, e⟩ := h4.frameMap hfi
        exact ⟨q, by rw [if_pos h4.1, e]⟩
      · obtain ⟨q, e⟩ := h4.frameMap hfi
        exact ⟨q, by rw [if_neg (by rw [h4.1]; decide), e]⟩
    obtain ⟨q4, e4⟩ := e4
    have e7 : cFirst (f.umax ++ q6) ntypes = .ok f.umax := by
      rw [← h6.length h8 (List.mem_map.2 ⟨f, hf, rfl⟩)]
      exact cFirst_append _ _
    unfold envOpFrame
    rw [e1, ok_bind, e2, ok_bind, e3, ok_bind, e5, ok_bind, e6, ok_bind, e4, ok_bind, e7, ok_bind]
    refine frameOn_ok hout fun buf hb => ?_
    unfold EnvFrame.alone envFind at g
    have := (slotFillOn_of_ok (p := ⟨inum, f.numneigh, f.firstneigh, f.types, f.umax⟩)
      (p' := ⟨inum, f.numneigh ++ q2, f.firstneigh ++ q3, f.types ++ q5, f.umax⟩)
      (centre' := fun _ => .ok ()) (val' := fun _ k _ => do
        let v ← cVec3 (f.rel ++ q4) k
        return (cEnvRow rcut rs v, cEnvDeriv rcut rs v))
      ⟨rfl, rfl, ⟨q2, rfl⟩, ⟨q3, rfl⟩, ⟨q5, rfl⟩⟩ (fun _ _ h => h) (by
        intro b k nb a ha
        rw [bind_eq_ok] at ha
        obtain ⟨v, g1, g2⟩ := ha
        rw [cVec3_append _ g1, ok_bind, g2]) g).2 buf (by rw [hw f hf]; exact hb)
    rw [this, hw f hf]

/-- A later frame with more slots than the first one does not fit when it comes last. -/
theorem envOp_larger {t : EnvOpIn} {rcut rs : ℝ} {inum ntypes : ℕ} {fs : List EnvFrame} {f0 f1 : EnvFrame}
    (h : t.Holds inum ntypes fs) (h0 : fs.head? = some f0) (h1 : fs.getLast? = some f1) (hi : 0 < inum)
    (hlt : f0.umax.sum < f1.umax.sum) (out : List EnvSlot) : envOp t rcut rs ≠ .ok out := by
  obtain ⟨_, _, _, _, _, h6, h7, h8⟩ := h
  intro hr
  unfold envOp at hr
  split at hr
  swap
  · cases hr
  obtain ⟨m, hm⟩ : ∃ m, fs.length = m + 1 := by
    cases fs with
    | nil => cases h0
    | cons a l => exact ⟨l.length, rfl⟩
  have hf0 : fs[0]? = some f0 := by rw [← List.head?_eq_getElem?, h0]
  have hfl : fs[m]? = some f1 := by rw [← h1, List.getLast?_eq_getElem?, hm]; rfl
  obtain ⟨r0, k1, k2, _⟩ := h6.rows 0 f0.umax (by rw [List.getElem?_map, hf0]; rfl)
  unfold Ten.size at hr
  rw [h7, h8] at hr
  change (t.umax.row 0 >>= _) = _ at hr
  rw [k1, ok_bind, k2, ok_bind] at hr
  change (if f0.umax.sum < 0 then _ else _) = _ at hr
  split at hr
  · cases hr
  next hneg =>
  change (List.range fs.length).foldlM _ _ = _ at hr
  have keep : ∀ (s : List EnvSlot) (ii : ℕ) (r : List EnvSlot),
      envOpFrame t rcut rs inum f0.umax.sum.toNat ntypes s ii = .ok r → ∃ um umax,
        t.umax.frame .int32 ii = .ok um ∧ cFirst um ntypes = .ok umax ∧
        ((inum : ℤ) * umax.sum).toNat ≤ s.length - ii * (inum * f0.umax.sum.toNat) ∧
        (ii * (inum * f0.umax.sum.toNat) ≤ s.length → r.length = s.length) := by
    intro s ii r hs
    unfold envOpFrame at hs
    rw [bind_eq_ok] at hs
    obtain ⟨_, _, hs⟩ := hs
    rw [bind_eq_ok] at hs
    obtain ⟨_, _, hs⟩ := hs
    rw [bind_eq_ok] at hs
    obtain ⟨_, _, hs⟩ := hs
    rw [bind_eq_ok] at hs
    obtain ⟨_, _, hs⟩ := hs
    rw [bind_eq_ok] at hs
    obtain ⟨um, g1, hs⟩ := hs
    rw [bind_eq_ok] at hs
    obtain ⟨_, _, hs⟩ := hs
    rw [bind_eq_ok] at hs
    obtain ⟨umax, g2, hs⟩ := hs
    unfold frameOn at hs
    rw [bind_eq_ok] at hs
    obtain ⟨b, g3, hs⟩ := hs
    obtain rfl := Except.ok.inj hs
    obtain ⟨g4, g5⟩ := slotFillOn_length g3
    rw [List.length_drop] at g4 g5
    refine ⟨um, umax, g1, g2, g5, fun hle => ?_⟩
    rw [List.length_append, List.length_take, g4]
    omega
  rw [hm, List.range_succ, List.foldlM_append, bind_eq_ok] at hr
  obtain ⟨s, hs, hr⟩ := hr
  rw [List.foldlM_cons, bind_eq_ok] at hr
  obtain ⟨s', hr, _⟩ := hr
  have hlen : s.length = (m + 1) * (inum * f0.umax.sum.toNat) := by
    have key : ∀ k ≤ m, ∀ s, (List.range k).foldlM (envOpFrame t rcut rs inum f0.umax.sum.toNat ntypes)
        (List.replicate ((m + 1) * (inum * f0.umax.sum.toNat)) (0, 0)) = .ok s →
        s.length = (m + 1) * (inum * f0.umax.sum.toNat) := by
      intro k
      induction k with
      | zero =>
        intro _ s hs
        rw [← Except.ok.inj hs, List.length_replicate]
      | succ k ih =>
        intro hk s hs
        rw [List.range_succ, List.foldlM_append, bind_eq_ok] at hs
        obtain ⟨s1, hs1, hs⟩ := hs
        rw [List.foldlM_cons, bind_eq_ok] at hs
        obtain ⟨s2, hs2, hs⟩ := hs
        obtain rfl := Except.ok.inj hs
        obtain ⟨_, _, _, _, _, g⟩ := keep s1 k s2 hs2
        have := ih (by omega) s1 hs1
        rw [g (by rw [this]; exact Nat.mul_le_mul_right _ (by omega)), this]
    exact key m le_rfl s hs
  obtain ⟨um, umax, g1, g2, g3, _⟩ := keep s m s' hr
  obtain ⟨q, e⟩ := h6.frameMap hfl
  rw [e] at g1
  obtain rfl := Except.ok.inj g1
  rw [← h6.length h8 (List.mem_map.2 ⟨f1, List.mem_of_getElem? hfl, rfl⟩), cFirst_append] at g2
  obtain rfl := Except.ok.inj g2
  rw [hlen, mul_toNat _ (by omega), Nat.succ_mul, Nat.add_sub_cancel_left] at g3
  have := Nat.le_of_mul_le_mul_left g3 hi
  omega

theorem se4pwOp_ok {t : Se4pwIn} {rcut rs : ℝ} {umax : List ℤ} {fs : List Se4pwFrame}
    {outs : List (List Se4pwSlot)} (h : t.Holds umax fs) (hne : fs ≠ [])
    (ho : List.Forall₂ (fun f o => f.alone t.inum umax rcut rs = .ok o) fs outs) :
    se4pwOp t rcut rs = .ok outs.flatten := by
  obtain ⟨h1, h2, h3, h4, h5, h6, h7, h8, h9, h10⟩ := h
  have hu0 : 0 ≤ umax.sum := by
    cases ho with
    | nil => exact absurd rfl hne
    | cons hr _ => exact slotFill_nonneg hr
  have hlen : fs.length = outs.length := ho.length_eq
  obtain ⟨_, q6, e6⟩ := h9.prefix h8
  unfold se4pwOp
  rw [h8, ok_bind]
  show (if umax.sum < 0 then _ else _) = _
  rw [if_neg (by omega), h1, hlen]
  have hw : ∀ f : Se4pwFrame, ((t.inum : ℤ) * SlotIn.width ⟨t.inum, f.numneigh, f.firstneigh, f.types, umax⟩).toNat
      = t.inum * umax.sum.toNat := fun f => mul_toNat _ hu0
  refine frames_fold (w := t.inum * umax.sum.toNat) ?_ ?_ _ (by rw [List.length_replicate])
  · intro o ho'
    obtain ⟨ii, hii⟩ := List.mem_iff_getElem?.1 ho'
    obtain ⟨f, _, g⟩ := forall₂_getElem ho hii
    rw [(slotFillOn_of_ok ⟨rfl, rfl, ⟨[], by simp⟩, ⟨[], by simp⟩, ⟨[], by simp⟩⟩ (fun _ _ h => h)
      (fun _ _ _ _ h => h) g).1]
    exact hw f
  · intro ii o hii out hout
    obtain ⟨f, hfi, g⟩ := forall₂_getElem ho hii
    obtain ⟨q2, e2⟩ := h2.frameMap hfi
    obtain ⟨q3, e3⟩ := h3.frameMap hfi
    obtain ⟨q4, e4⟩ := h4.frameMap hfi
    obtain ⟨q5, e5⟩ := h6.frameMap hfi
    have ex : ∃ qx, t.x.frame (if t.x.kind = .float32 then .float32 else .float64) ii
        = .ok (f.x ++ qx) := by
      rcases h5 with h5 | h5
      · obtain ⟨q, e⟩ := h5.frameMap hfi
        exact ⟨q, by rw [if_pos h5.1, e]⟩
      · obtain ⟨q, e⟩ := h5.frameMap hfi
        exact ⟨q, by rw [if_neg (by rw [h5.1]; decide), e]⟩
    obtain ⟨qx, ex⟩ := ex
    unfold se4pwOpFrame Ten.data
    rw [e2, ok_bind, e3, ok_bind, e4, ok_bind, ex, ok_bind, e5, ok_bind, if_pos h7, e6, ok_bind, h10,
      cFirst_append, ok_bind]
    refine frameOn_ok hout fun buf hb => ?_
    unfold Se4pwFrame.alone se4pwGenerate at g
    have := (slotFillOn_of_ok (p := ⟨t.inum, f.numneigh, f.firstneigh, f.types, umax⟩)
      (p' := ⟨t.inum, f.numneigh ++ q3, f.firstneigh ++ q4, f.types ++ q5, umax⟩)
      (centre' := fun jj => do
        let i ← cGet (f.ilist ++ q2) (jj : ℤ)
        cVec3 (f.x ++ qx) i)
      (val' := fun c _ nb => do
        let q ← cVec3 (f.x ++ qx) nb
        let v : Vec ℝ := ![q 0 - c 0, q 1 - c 1, q 2 - c 2]
        return (cEnvRow rcut rs v, cSe4pwDeriv rcut rs v, v))
      ⟨rfl, rfl, ⟨q3, rfl⟩, ⟨q4, rfl⟩, ⟨q5, rfl⟩⟩ (by
        intro i b hb
        rw [bind_eq_ok] at hb
        obtain ⟨v, g1, g2⟩ := hb
        rw [cGet_append _ g1, ok_bind, cVec3_append _ g2]) (by
        intro b k nb a ha
        rw [bind_eq_ok] at ha
        obtain ⟨v, g1, g2⟩ := ha
        rw [cVec3_append _ g1, ok_bind, g2]) g).2 buf (by rw [hw f]; exact hb)
    rw [this, hw f]

theorem primOp_ok {t : Se4pwIn} {umax : List ℤ} {fs : List Se4pwFrame}
    {outs : List (List ℤ)} (h : t.Holds umax fs) (hne : fs ≠ [])
    (ho : List.Forall₂ (fun f o => f.prim t.inum umax = .ok o) fs outs) :
    primOp t = .ok outs.flatten := by
  obtain ⟨h1, h2, h3, h4, h5, h6, h7, h8, h9, h10⟩ := h
  have hu0 : 0 ≤ umax.sum := by
    cases ho with
    | nil => exact absurd rfl hne
    | cons hr _ => exact slotFill_nonneg hr
  have hlen : fs.length = outs.length := ho.length_eq
  obtain ⟨_, q6, e6⟩ := h9.prefix h8
  unfold primOp
  rw [h8, ok_bind]
  show (if umax.sum < 0 then _ else _) = _
  rw [if_neg (by omega), h1, hlen]
  have hw : ∀ f : Se4pwFrame, ((t.inum : ℤ) * SlotIn.width ⟨t.inum, f.numneigh, f.firstneigh, f.types, umax⟩).toNat
      = t.inum * umax.sum.toNat := fun f => mul_toNat _ hu0
  refine frames_fold (w := t.inum * umax.sum.toNat) ?_ ?_ _ (by rw [List.length_replicate])
  · intro o ho'
    obtain ⟨ii, hii⟩ := List.mem_iff_getElem?.1 ho'
    obtain ⟨f, _, g⟩ := forall₂_getElem ho hii
    rw [(slotFillOn_of_ok ⟨rfl, rfl, ⟨[], by simp⟩, ⟨[], by simp⟩, ⟨[], by simp⟩⟩ (fun _ _ h => h)
      (fun _ _ _ _ h => h) g).1]
    exact hw f
  · intro ii o hii out hout
    obtain ⟨f, hfi, g⟩ := forall₂_getElem ho hii
    obtain ⟨q2, e2⟩ := h2.frameMap hfi
    obtain ⟨q3, e3⟩ := h3.frameMap hfi
    obtain ⟨q4, e4⟩ := h4.frameMap hfi
    obtain ⟨q5, e5⟩ := h6.frameMap hfi
    unfold primOpFrame Ten.data
    rw [e2, ok_bind, e3, ok_bind, e4, ok_bind, e5, ok_bind, if_pos h7, e6, ok_bind, h10,
      cFirst_append, ok_bind]
    refine frameOn_ok hout fun buf hb => ?_
    unfold Se4pwFrame.prim primIndices at g
    have := (slotFillOn_of_ok (p := ⟨t.inum, f.numneigh, f.firstneigh, f.types, umax⟩)
      (p' := ⟨t.inum, f.numneigh ++ q3, f.firstneigh ++ q4, f.types ++ q5, umax⟩)
      (centre' := fun jj => cGet (f.ilist ++ q2) (jj : ℤ))
      (val' := fun _ _ nb => .ok (nb.tmod t.inum))
      ⟨rfl, rfl, ⟨q3, rfl⟩, ⟨q4, rfl⟩, ⟨q5, rfl⟩⟩ (fun _ _ h => cGet_append _ h)
      (fun _ _ _ _ h => h) g).2 buf (by rw [hw f]; exact hb)
    rw [this, hw f]

/-! ## Wrong element types -/

theorem Ten.frame_cases (t : Ten α) (k : TKind) (ii : ℕ) :
    (∃ l, t.frame k ii = .ok l ∧ t.kind = k) ∨ t.frame k ii = .error .exception := by
  unfold Ten.frame
  cases h : t.row ii with
  | ok r =>
    rw [ok_bind]
    unfold Ten.data
    by_cases hk : r.kind = k
    · exact Or.inl ⟨_, if_pos hk, by rw [← Ten.row_kind h, hk]⟩
    · exact Or.inr (if_neg hk)
  | error e =>
    refine Or.inr ?_
    unfold Ten.row at h
    split at h
    · split at h
      · cases h
      · rw [← Except.error.inj h]; rfl
    · rw [← Except.error.inj h]; rfl

theorem foldlM_first_error {f : σ → ℕ → Except CErr σ} {s : σ} {e : CErr} (h : f s 0 = .error e) {n : ℕ}
    (hn : n ≠ 0) : (List.range n).foldlM f s = .error e := by
  obtain ⟨m, rfl⟩ := Nat.exists_eq_succ_of_ne_zero hn
  rw [List.range_succ_eq_map, List.foldlM_cons, h, error_bind]

end MaterSDK
