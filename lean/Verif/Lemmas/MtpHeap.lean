import Verif.Spec.MtpParam
import Verif.Lemmas.Except
import Mathlib.Tactic.Ring
import Mathlib.Tactic.Tauto
import Mathlib.Logic.Function.Basic

/-! # Objects in memory: copies, moves, assignments, destruction -/

namespace MaterSDK

/-- A block that is allocated and not freed. -/
def Live (h : MtpHeap) (p : ℕ) : Prop := ∃ b, h[p]? = some (some b)

/-- The object holds this pointer. -/
def Owns (o : MtpObj) (p : ℕ) : Prop := o.basic = some p ∨ o.times = some p ∨ o.mapping = some p

/-- The three pointers of the object are different (or null). -/
def Distinct3 (o : MtpObj) : Prop :=
  ∀ p, ¬ (o.basic = some p ∧ o.times = some p) ∧ ¬ (o.basic = some p ∧ o.mapping = some p) ∧
    ¬ (o.times = some p ∧ o.mapping = some p)

theorem live_lt {h : MtpHeap} {p : ℕ} (hl : Live h p) : p < h.length := by
  obtain ⟨b, hb⟩ := hl
  by_contra hc
  rw [List.getElem?_eq_none (by omega)] at hb
  exact absurd hb (by simp)

theorem live_congr {h h' : MtpHeap} {p : ℕ} (e : h'[p]? = h[p]?) : Live h' p ↔ Live h p := by
  unfold Live; rw [e]

theorem getElem?_append_left' {h g : MtpHeap} {p : ℕ} (hl : p < h.length) : (h ++ g)[p]? = h[p]? :=
  List.getElem?_append_left hl

theorem heapRead_congr {h h' : MtpHeap} {q : Option ℕ} {n : ℕ}
    (e : ∀ p, q = some p → h'[p]? = h[p]?) : heapRead h' q n = heapRead h q n := by
  unfold heapRead
  cases q with
  | none => rfl
  | some p => simp only [e p rfl]

theorem mtpView_congr {h h' : MtpHeap} {o : MtpObj} (e : ∀ p, Owns o p → h'[p]? = h[p]?) :
    mtpView h' o = mtpView h o := by
  unfold mtpView
  rw [heapRead_congr (fun p hp => e p (.inl hp)), heapRead_congr (fun p hp => e p (.inr (.inl hp))),
    heapRead_congr (fun p hp => e p (.inr (.inr hp)))]

theorem mtpView_eq_ok {h : MtpHeap} {o : MtpObj} {t : MtpTables} : mtpView h o = .ok t ↔
    ∃ m, heapRead h o.basic o.basicCount.toNat = .ok t.basic ∧
      heapRead h o.times o.timesCount.toNat = .ok t.times ∧
      heapRead h o.mapping o.scalarCount.toNat = .ok m ∧ m.map Prod.fst = t.mapping ∧
      o.moments = t.momentsCount ∧ o.basicCount = t.basicCount ∧ o.timesCount = t.timesCount ∧
      o.scalarCount = t.scalarCount := by
  unfold mtpView
  constructor
  · intro hv
    obtain ⟨b, h1, hv⟩ := (bind_eq_ok).1 hv
    obtain ⟨ti, h2, hv⟩ := (bind_eq_ok).1 hv
    obtain ⟨m, h3, hv⟩ := (bind_eq_ok).1 hv
    have := Except.ok.inj hv
    subst this
    exact ⟨m, h1, h2, h3, rfl, rfl, rfl, rfl, rfl⟩
  · rintro ⟨m, h1, h2, h3, h4, h5, h6, h7, h8⟩
    rw [h1, ok_bind, h2, ok_bind, h3, ok_bind, h4, h5, h6, h7, h8]
    rfl

theorem heapRead_length {h : MtpHeap} {q : Option ℕ} {n : ℕ} {b : List MtpQuad}
    (e : heapRead h q n = .ok b) : b.length = n := by
  unfold heapRead at e
  split at e
  · rename_i h0
    rw [← Except.ok.inj e, h0]; rfl
  · split at e
    · exact absurd e (by simp)
    · split at e
      · split at e
        · rename_i hle
          rw [← Except.ok.inj e, List.length_take]; omega
        · exact absurd e (by simp)
      · exact absurd e (by simp)

theorem heapRead_block {h : MtpHeap} {p n : ℕ} {b : List MtpQuad} (hb : h[p]? = some (some b))
    (hn : b.length = n) : heapRead h (some p) n = .ok b := by
  unfold heapRead
  split
  · rename_i h0
    rw [h0] at hn
    rw [List.length_eq_zero_iff.1 hn]
  · simp only [hb]
    rw [if_pos (by omega), List.take_of_length_le (by omega)]

theorem heapRead_zero (h : MtpHeap) (q : Option ℕ) : heapRead h q 0 = .ok [] := by
  unfold heapRead; rw [if_pos rfl]

theorem heapFree_spec {h : MtpHeap} {q : Option ℕ} (hl : ∀ p, q = some p → Live h p) :
    ∃ h', heapFree h q = .ok h' ∧ h'.length = h.length ∧ (∀ p, q = some p → h'[p]? = some none) ∧
      ∀ p, q ≠ some p → h'[p]? = h[p]? := by
  cases q with
  | none => exact ⟨h, rfl, rfl, by simp, by simp⟩
  | some p =>
    obtain ⟨b, hb⟩ := hl p rfl
    have hlt := live_lt ⟨b, hb⟩
    refine ⟨h.set p none, ?_, by simp, ?_, ?_⟩
    · unfold heapFree; simp only [hb]
    · intro p' hp'
      have := Option.some.inj hp'
      subst this
      simp [hlt]
    · intro p' hp'
      rw [List.getElem?_set_ne (by intro h; exact hp' (by rw [h]))]

theorem freeIf_spec {h : MtpHeap} {n : ℤ} {q : Option ℕ} (hl : n ≠ 0 → ∀ p, q = some p → Live h p) :
    ∃ h', freeIf h n q = .ok h' ∧ h'.length = h.length ∧
      (∀ p, n ≠ 0 → q = some p → h'[p]? = some none) ∧
      ∀ p, ¬ (n ≠ 0 ∧ q = some p) → h'[p]? = h[p]? := by
  unfold freeIf
  by_cases hn : n = 0
  · refine ⟨h, by rw [if_neg (by simp [hn])], rfl, ?_, ?_⟩
    · intro p h0; exact absurd hn h0
    · intro p _; rfl
  · obtain ⟨h', e, l, f1, f2⟩ := heapFree_spec (hl hn)
    refine ⟨h', by rw [if_pos hn]; exact e, l, fun p _ hq => f1 p hq, fun p hp => f2 p ?_⟩
    intro hq; exact hp ⟨hn, hq⟩

theorem mtpDestroy_spec {h : MtpHeap} {o : MtpObj} (hd : Distinct3 o) (hl : ∀ p, Owns o p → Live h p) :
    ∃ h', mtpDestroy h o = .ok h' ∧ h'.length = h.length ∧ (∀ p, Owns o p → h'[p]? = some none) ∧
      ∀ p, ¬ Owns o p → h'[p]? = h[p]? := by
  obtain ⟨h1, e1, l1, a1, b1⟩ := heapFree_spec (h := h) (q := o.basic) (fun p hp => hl p (.inl hp))
  obtain ⟨h2, e2, l2, a2, b2⟩ := heapFree_spec (h := h1) (q := o.times) (by
    intro p hp
    rw [live_congr (b1 p (fun hb => (hd p).1 ⟨hb, hp⟩))]
    exact hl p (.inr (.inl hp)))
  obtain ⟨h3, e3, l3, a3, b3⟩ := heapFree_spec (h := h2) (q := o.mapping) (by
    intro p hp
    rw [live_congr (b2 p (fun hb => (hd p).2.2 ⟨hb, hp⟩)),
      live_congr (b1 p (fun hb => (hd p).2.1 ⟨hb, hp⟩))]
    exact hl p (.inr (.inr hp)))
  refine ⟨h3, ?_, by omega, ?_, ?_⟩
  · unfold mtpDestroy
    rw [e1, ok_bind, e2, ok_bind, e3]
  · intro p hp
    by_cases c3 : o.mapping = some p
    · exact a3 p c3
    · rw [b3 p c3]
      by_cases c2 : o.times = some p
      · exact a2 p c2
      · rw [b2 p c2]
        rcases hp with hp | hp | hp
        · exact a1 p hp
        · exact absurd hp c2
        · exact absurd hp c3
  · intro p hp
    rw [b3 p (fun h => hp (.inr (.inr h))), b2 p (fun h => hp (.inr (.inl h))),
      b1 p (fun h => hp (.inl h))]

/-- The pointers the release part of an assignment frees. -/
def Frees (o : MtpObj) (p : ℕ) : Prop :=
  (o.basicCount ≠ 0 ∧ o.basic = some p) ∨ (o.timesCount ≠ 0 ∧ o.times = some p) ∨
    (o.scalarCount ≠ 0 ∧ o.mapping = some p)

theorem frees_owns {o : MtpObj} {p : ℕ} (h : Frees o p) : Owns o p := by
  rcases h with h | h | h
  · exact .inl h.2
  · exact .inr (.inl h.2)
  · exact .inr (.inr h.2)

theorem mtpRelease_spec {h : MtpHeap} {o : MtpObj} (hd : Distinct3 o)
    (hl : ∀ p, Owns o p → Live h p) :
    ∃ h', mtpRelease h o = .ok (h', ⟨0, 0, o.basic, 0, o.times, 0, o.mapping⟩) ∧ h'.length = h.length ∧ (∀ p, Frees o p → h'[p]? = some none) ∧
      ∀ p, ¬ Frees o p → h'[p]? = h[p]? := by
  obtain ⟨h1, e1, l1, a1, b1⟩ := freeIf_spec (h := h) (n := o.basicCount) (q := o.basic)
    (fun _ p hp => hl p (.inl hp))
  obtain ⟨h2, e2, l2, a2, b2⟩ := freeIf_spec (h := h1) (n := o.timesCount) (q := o.times) (by
    intro _ p hp
    rw [live_congr (b1 p (fun hb => (hd p).1 ⟨hb.2, hp⟩))]
    exact hl p (.inr (.inl hp)))
  obtain ⟨h3, e3, l3, a3, b3⟩ := freeIf_spec (h := h2) (n := o.scalarCount) (q := o.mapping) (by
    intro _ p hp
    rw [live_congr (b2 p (fun hb => (hd p).2.2 ⟨hb.2, hp⟩)),
      live_congr (b1 p (fun hb => (hd p).2.1 ⟨hb.2, hp⟩))]
    exact hl p (.inr (.inr hp)))
  refine ⟨h3, ?_, by omega, ?_, ?_⟩
  · unfold mtpRelease
    rw [e1, ok_bind, e2, ok_bind, e3]
    rfl
  · intro p hp
    by_cases c3 : o.scalarCount ≠ 0 ∧ o.mapping = some p
    · exact a3 p c3.1 c3.2
    · rw [b3 p c3]
      by_cases c2 : o.timesCount ≠ 0 ∧ o.times = some p
      · exact a2 p c2.1 c2.2
      · rw [b2 p c2]
        rcases hp with hp | hp | hp
        · exact a1 p hp.1 hp.2
        · exact absurd hp c2
        · exact absurd hp c3
  · intro p hp
    rw [b3 p (fun h => hp (.inr (.inr h))), b2 p (fun h => hp (.inr (.inl h))),
      b1 p (fun h => hp (.inl h))]

theorem copyBlock_spec {h : MtpHeap} {q : Option ℕ} {n : ℤ} {b : List MtpQuad}
    (e : heapRead h q n.toNat = .ok b) : copyBlock h q n = .ok (h ++ [some b], some h.length) := by
  unfold copyBlock
  rw [e, ok_bind]
  rfl

theorem copyIf_spec {h : MtpHeap} {old q : Option ℕ} {n : ℤ} {b : List MtpQuad}
    (e : heapRead h q n.toNat = .ok b) :
    ∃ h' q', copyIf h old q n = .ok (h', q') ∧ (∀ p, p < h.length → h'[p]? = h[p]?) ∧
      h.length ≤ h'.length ∧ (∀ p, Live h' p → Live h p ∨ q' = some p) ∧
      ((n ≠ 0 ∧ q' = some h.length ∧ h'[h.length]? = some (some b) ∧ h.length < h'.length) ∨
        (n = 0 ∧ q' = old ∧ h' = h)) := by
  unfold copyIf
  by_cases hn : n = 0
  · refine ⟨h, old, by rw [if_neg (by simp [hn])], by simp, le_refl _, fun p hp => .inl hp, .inr ?_⟩
    exact ⟨hn, rfl, rfl⟩
  · refine ⟨h ++ [some b], some h.length, by rw [if_pos hn]; exact copyBlock_spec e,
      fun p hp => getElem?_append_left' hp, by simp, ?_, .inl ⟨hn, rfl, by simp, by simp⟩⟩
    intro p hp
    rcases lt_or_ge p h.length with hlt | hge
    · exact .inl ((live_congr (getElem?_append_left' hlt)).1 hp)
    · have := live_lt hp
      simp at this
      exact .inr (by congr 1; omega)

/-! ## The pool -/

/-- Objects and values match, pointers are live, and no two pointers are equal. -/
structure PoolInv (h : MtpHeap) (f : ℕ → Option MtpObj) (v : ℕ → Option MtpTables) : Prop where
  alive : ∀ i, f i = none ↔ v i = none
  view : ∀ i o t, f i = some o → v i = some t → mtpView h o = .ok t
  live : ∀ i o p, f i = some o → Owns o p → Live h p
  dist : ∀ i o, f i = some o → Distinct3 o
  sep : ∀ i j o o' p, i ≠ j → f i = some o → f j = some o' → Owns o p → ¬ Owns o' p

/-- Every live block belongs to an object. -/
def NoLeak (h : MtpHeap) (f : ℕ → Option MtpObj) : Prop :=
  ∀ p, Live h p → ∃ i o, f i = some o ∧ Owns o p

theorem PoolInv.update {h h' : MtpHeap} {f : ℕ → Option MtpObj} {v : ℕ → Option MtpTables}
    (inv : PoolInv h f v) {i : ℕ} {x : Option MtpObj} {y : Option MtpTables}
    (frame : ∀ j o p, j ≠ i → f j = some o → Owns o p → h'[p]? = h[p]?)
    (hxy : x = none ↔ y = none)
    (hview : ∀ o t, x = some o → y = some t → mtpView h' o = .ok t)
    (hlive : ∀ o p, x = some o → Owns o p → Live h' p)
    (hdist : ∀ o, x = some o → Distinct3 o)
    (hsep : ∀ o p, x = some o → Owns o p → ∀ j o', j ≠ i → f j = some o' → ¬ Owns o' p) :
    PoolInv h' (Function.update f i x) (Function.update v i y) where
  alive j := by
    by_cases hj : j = i
    · subst hj; simpa using hxy
    · simpa [hj] using inv.alive j
  view j o t hf hv := by
    by_cases hj : j = i
    · subst hj
      simp at hf hv
      exact hview o t hf hv
    · simp [hj] at hf hv
      rw [mtpView_congr (fun p hp => frame j o p hj hf hp)]
      exact inv.view j o t hf hv
  live j o p hf hp := by
    by_cases hj : j = i
    · subst hj
      simp at hf
      exact hlive o p hf hp
    · simp [hj] at hf
      rw [live_congr (frame j o p hj hf hp)]
      exact inv.live j o p hf hp
  dist j o hf := by
    by_cases hj : j = i
    · subst hj
      simp at hf
      exact hdist o hf
    · simp [hj] at hf
      exact inv.dist j o hf
  sep a b o o' p hab ha hb hp := by
    by_cases hai : a = i
    · subst hai
      have hbi : b ≠ a := fun h => hab h.symm
      simp at ha
      simp [hbi] at hb
      exact hsep o p ha hp b o' hbi hb
    · simp [hai] at ha
      by_cases hbi : b = i
      · subst hbi
        simp at hb
        intro hp'
        exact hsep o' p hb hp' a o hai ha hp
      · simp [hbi] at hb
        exact inv.sep a b o o' p hab ha hb hp

theorem NoLeak.update {h h' : MtpHeap} {f : ℕ → Option MtpObj} (nl : NoLeak h f) {i : ℕ}
    {x : Option MtpObj}
    (hnew : ∀ p, Live h' p → (Live h p ∧ ∀ o, f i = some o → ¬ Owns o p) ∨ ∃ o, x = some o ∧ Owns o p) :
    NoLeak h' (Function.update f i x) := by
  intro p hp
  rcases hnew p hp with ⟨hl, hno⟩ | ⟨o, rfl, ho⟩
  · obtain ⟨j, o, hf, ho⟩ := nl p hl
    have hj : j ≠ i := by rintro rfl; exact hno o hf ho
    exact ⟨j, o, by simp [hj, hf], ho⟩
  · exact ⟨i, o, by simp, ho⟩

/-- Three new blocks. -/
theorem new_blocks (h : MtpHeap) (a b c : List MtpQuad) :
    (h ++ [some a] ++ [some b] ++ [some c])[h.length]? = some (some a) ∧
    (h ++ [some a] ++ [some b] ++ [some c])[h.length + 1]? = some (some b) ∧
    (h ++ [some a] ++ [some b] ++ [some c])[h.length + 2]? = some (some c) := by
  refine ⟨?_, ?_, ?_⟩ <;> simp

theorem mtpCopy_spec {h : MtpHeap} {r : MtpObj} {t : MtpTables} (hl : ∀ p, Owns r p → Live h p)
    (hv : mtpView h r = .ok t) :
    ∃ h' o, mtpCopy h r = .ok (h', o) ∧ (∀ p, p < h.length → h'[p]? = h[p]?) ∧ mtpView h' o = .ok t ∧
      (∀ p, Owns o p → Live h' p ∧ h.length ≤ p) ∧ Distinct3 o ∧
      ∀ p, Live h' p → Live h p ∨ Owns o p := by
  obtain ⟨m, e1, e2, e3, e4, e5, e6, e7, e8⟩ := mtpView_eq_ok.1 hv
  have hk : ∀ {g : MtpHeap} {q : Option ℕ} {n : ℕ}, (∀ p, q = some p → Owns r p) →
      heapRead (h ++ g) q n = heapRead h q n := fun hq =>
    heapRead_congr (fun p hp => getElem?_append_left' (live_lt (hl p (hq p hp))))
  obtain ⟨n1, n2, n3⟩ := new_blocks h t.basic t.times m
  refine ⟨h ++ [some t.basic] ++ [some t.times] ++ [some m],
    ⟨r.moments, r.basicCount, some h.length, r.timesCount, some (h.length + 1), r.scalarCount,
      some (h.length + 2)⟩, ?_, ?_, ?_, ?_, ?_, ?_⟩
  · unfold mtpCopy
    rw [copyBlock_spec e1, ok_bind]
    simp only
    rw [copyBlock_spec (b := t.times) (by rw [hk (fun p hp => .inr (.inl hp))]; exact e2), ok_bind]
    simp only
    rw [copyBlock_spec (b := m) (by
      rw [List.append_assoc, hk (fun p hp => .inr (.inr hp))]; exact e3), ok_bind]
    simp only [List.length_append, List.length_singleton]
    rfl
  · intro p hp
    rw [List.append_assoc, List.append_assoc, getElem?_append_left' hp]
  · refine mtpView_eq_ok.2 ⟨m, ?_, ?_, ?_, e4, e5, e6, e7, e8⟩
    · exact heapRead_block n1 (heapRead_length e1)
    · exact heapRead_block n2 (heapRead_length e2)
    · exact heapRead_block n3 (heapRead_length e3)
  · intro p hp
    rcases hp with hp | hp | hp <;> simp at hp <;> subst hp
    · exact ⟨⟨_, n1⟩, le_refl _⟩
    · exact ⟨⟨_, n2⟩, by omega⟩
    · exact ⟨⟨_, n3⟩, by omega⟩
  · intro p
    simp
    omega
  · intro p hp
    rcases lt_or_ge p h.length with hlt | hge
    · left
      rw [List.append_assoc, List.append_assoc] at hp
      exact (live_congr (getElem?_append_left' hlt)).1 hp
    · right
      have := live_lt hp
      simp at this
      unfold Owns
      simp
      omega

theorem fst_rows (l : List ℤ) : (l.map (fun v => (v, (0 : ℤ), (0 : ℤ), (0 : ℤ)))).map Prod.fst = l := by
  rw [List.map_map]
  exact List.map_id l

theorem mtpStore_spec (h : MtpHeap) {t : MtpTables} (hf : t.Full) :
    (∀ p, p < h.length → (mtpStore h t).1[p]? = h[p]?) ∧
      mtpView (mtpStore h t).1 (mtpStore h t).2 = .ok t ∧
      (∀ p, Owns (mtpStore h t).2 p → Live (mtpStore h t).1 p ∧ h.length ≤ p) ∧
      Distinct3 (mtpStore h t).2 ∧
      ∀ p, Live (mtpStore h t).1 p → Live h p ∨ Owns (mtpStore h t).2 p := by
  obtain ⟨f1, f2, f3⟩ := hf
  by_cases hc : t.timesCount = 0
  · have e : mtpStore h t = (h ++ [some t.basic] ++ [some (t.mapping.map (fun v => (v, 0, 0, 0)))],
        ⟨t.momentsCount, t.basicCount, some h.length, t.timesCount, none, t.scalarCount,
          some (h.length + 1)⟩) := by
      unfold mtpStore heapNew
      simp [hc]
    have n1 : (h ++ [some t.basic] ++ [some (t.mapping.map (fun v => (v, (0 : ℤ), (0 : ℤ), (0 : ℤ))))])[h.length]?
        = some (some t.basic) := by simp
    have n2 : (h ++ [some t.basic] ++ [some (t.mapping.map (fun v => (v, (0 : ℤ), (0 : ℤ), (0 : ℤ))))])[h.length + 1]?
        = some (some (t.mapping.map (fun v => (v, 0, 0, 0)))) := by simp
    rw [e]
    simp only
    refine ⟨?_, ?_, ?_, ?_, ?_⟩
    · intro p hp
      rw [List.append_assoc, getElem?_append_left' hp]
    · refine mtpView_eq_ok.2 ⟨_, heapRead_block n1 f1, ?_, heapRead_block n2 (by simpa using f3), ?_,
        rfl, rfl, rfl, rfl⟩
      · simp only [hc, Int.toNat_zero]
        rw [heapRead_zero]
        rw [hc] at f2
        rw [List.length_eq_zero_iff.1 f2]
      · exact fst_rows _
    · intro p hp
      rcases hp with hp | hp | hp <;> simp at hp <;> subst hp
      · exact ⟨⟨_, n1⟩, le_refl _⟩
      · exact ⟨⟨_, n2⟩, by omega⟩
    · intro p
      simp
      omega
    · intro p hp
      rcases lt_or_ge p h.length with hlt | hge
      · left
        rw [List.append_assoc] at hp
        exact (live_congr (getElem?_append_left' hlt)).1 hp
      · right
        have := live_lt hp
        simp at this
        unfold Owns
        simp
        omega
  · have e : mtpStore h t = (h ++ [some t.basic] ++ [some t.times] ++
          [some (t.mapping.map (fun v => (v, 0, 0, 0)))],
        ⟨t.momentsCount, t.basicCount, some h.length, t.timesCount, some (h.length + 1), t.scalarCount,
          some (h.length + 2)⟩) := by
      unfold mtpStore heapNew
      simp [hc]
    obtain ⟨n1, n2, n3⟩ := new_blocks h t.basic t.times
      (t.mapping.map (fun v => (v, (0 : ℤ), (0 : ℤ), (0 : ℤ))))
    rw [e]
    simp only
    refine ⟨?_, ?_, ?_, ?_, ?_⟩
    · intro p hp
      rw [List.append_assoc, List.append_assoc, getElem?_append_left' hp]
    · refine mtpView_eq_ok.2 ⟨_, heapRead_block n1 f1, heapRead_block n2 f2,
        heapRead_block n3 (by simpa using f3), fst_rows _, rfl, rfl, rfl, rfl⟩
    · intro p hp
      rcases hp with hp | hp | hp <;> simp at hp <;> subst hp
      · exact ⟨⟨_, n1⟩, le_refl _⟩
      · exact ⟨⟨_, n2⟩, by omega⟩
      · exact ⟨⟨_, n3⟩, by omega⟩
    · intro p
      simp
      omega
    · intro p hp
      rcases lt_or_ge p h.length with hlt | hge
      · left
        rw [List.append_assoc, List.append_assoc] at hp
        exact (live_congr (getElem?_append_left' hlt)).1 hp
      · right
        have := live_lt hp
        simp at this
        unfold Owns
        simp
        omega

theorem mtpAssign_spec {h : MtpHeap} {o r : MtpObj} {a t : MtpTables} (hd : Distinct3 o)
    (hl : ∀ p, Owns o p → Live h p) (hlr : ∀ p, Owns r p → Live h p) (hs : ∀ p, Owns r p → ¬ Owns o p)
    (ha : mtpView h o = .ok a) (hv : mtpView h r = .ok t)
    (z1 : t.basicCount = 0 → a.basicCount = 0) (z2 : t.timesCount = 0 → a.timesCount = 0)
    (z3 : t.scalarCount = 0 → a.scalarCount = 0) :
    ∃ h' o', mtpAssign h o r = .ok (h', o') ∧
      (∀ p, p < h.length → ¬ Owns o p → h'[p]? = h[p]?) ∧ mtpView h' o' = .ok t ∧
      (∀ p, Owns o' p → Live h' p ∧ (h.length ≤ p ∨ Owns o p)) ∧ Distinct3 o' ∧
      ((a.basicCount ≠ 0 ∧ a.timesCount ≠ 0 ∧ a.scalarCount ≠ 0) →
        ∀ p, Live h' p → (Live h p ∧ ¬ Owns o p) ∨ Owns o' p) := by
  obtain ⟨_, _, _, _, _, _, a6, a7, a8⟩ := mtpView_eq_ok.1 ha
  obtain ⟨m, e1, e2, e3, e4, e5, e6, e7, e8⟩ := mtpView_eq_ok.1 hv
  obtain ⟨h0, r0, l0, fr, nf⟩ := mtpRelease_spec hd hl
  -- blocks of `r` are untouched by the release
  have k0 : ∀ p, Owns r p → h0[p]? = h[p]? := fun p hp => nf p (fun hf => hs p hp (frees_owns hf))
  have e1' : heapRead h0 r.basic r.basicCount.toNat = .ok t.basic := by
    rw [heapRead_congr (fun p hp => k0 p (.inl hp))]; exact e1
  obtain ⟨h1, q1, c1, f1, g1, w1, d1⟩ := copyIf_spec (old := o.basic) e1'
  have k1 : ∀ p, Owns r p → h1[p]? = h[p]? := fun p hp => by
    rw [f1 p (by rw [l0]; exact live_lt (hlr p hp)), k0 p hp]
  have e2' : heapRead h1 r.times r.timesCount.toNat = .ok t.times := by
    rw [heapRead_congr (fun p hp => k1 p (.inr (.inl hp)))]; exact e2
  obtain ⟨h2, q2, c2, f2, g2, w2, d2⟩ := copyIf_spec (old := o.times) e2'
  have k2 : ∀ p, Owns r p → h2[p]? = h[p]? := fun p hp => by
    have := live_lt (hlr p hp)
    rw [f2 p (by omega), k1 p hp]
  have e3' : heapRead h2 r.mapping r.scalarCount.toNat = .ok m := by
    rw [heapRead_congr (fun p hp => k2 p (.inr (.inr hp)))]; exact e3
  obtain ⟨h3, q3, c3, f3, g3, w3, d3⟩ := copyIf_spec (old := o.mapping) e3'
  have f30 : ∀ p, p < h.length → h3[p]? = h0[p]? := fun p hp => by
    rw [f3 p (by omega), f2 p (by omega), f1 p (by omega)]
  -- each new pointer: a new block, or the old one with count 0
  have D1 : (q1 = some h0.length ∧ h3[h0.length]? = some (some t.basic) ∧ h0.length < h1.length) ∨
      (o.basicCount = 0 ∧ r.basicCount = 0 ∧ q1 = o.basic) := by
    rcases d1 with ⟨_, b, c, d⟩ | ⟨x, b, _⟩
    · exact .inl ⟨b, by rw [f3 _ (by omega), f2 _ (by omega)]; exact c, d⟩
    · exact .inr ⟨by rw [a6]; exact z1 (by rw [← e6]; exact x), x, b⟩
  have D2 : (q2 = some h1.length ∧ h3[h1.length]? = some (some t.times) ∧ h1.length < h2.length) ∨
      (o.timesCount = 0 ∧ r.timesCount = 0 ∧ q2 = o.times) := by
    rcases d2 with ⟨_, b, c, d⟩ | ⟨x, b, _⟩
    · exact .inl ⟨b, by rw [f3 _ (by omega)]; exact c, d⟩
    · exact .inr ⟨by rw [a7]; exact z2 (by rw [← e7]; exact x), x, b⟩
  have D3 : (q3 = some h2.length ∧ h3[h2.length]? = some (some m) ∧ h2.length < h3.length) ∨
      (o.scalarCount = 0 ∧ r.scalarCount = 0 ∧ q3 = o.mapping) := by
    rcases d3 with ⟨_, b, c, d⟩ | ⟨x, b, _⟩
    · exact .inl ⟨b, c, d⟩
    · exact .inr ⟨by rw [a8]; exact z3 (by rw [← e8]; exact x), x, b⟩
  -- an old pointer that is kept was not freed
  have K1 : ∀ p, o.basicCount = 0 → o.basic = some p → ¬ Frees o p := by
    rintro p hz hp (⟨hb, _⟩ | ⟨_, hb⟩ | ⟨_, hb⟩)
    · exact hb hz
    · exact (hd p).1 ⟨hp, hb⟩
    · exact (hd p).2.1 ⟨hp, hb⟩
  have K2 : ∀ p, o.timesCount = 0 → o.times = some p → ¬ Frees o p := by
    rintro p hz hp (⟨_, hb⟩ | ⟨hb, _⟩ | ⟨_, hb⟩)
    · exact (hd p).1 ⟨hb, hp⟩
    · exact hb hz
    · exact (hd p).2.2 ⟨hp, hb⟩
  have K3 : ∀ p, o.scalarCount = 0 → o.mapping = some p → ¬ Frees o p := by
    rintro p hz hp (⟨_, hb⟩ | ⟨_, hb⟩ | ⟨hb, _⟩)
    · exact (hd p).2.1 ⟨hb, hp⟩
    · exact (hd p).2.2 ⟨hb, hp⟩
    · exact hb hz
  have keep : ∀ p, Owns o p → ¬ Frees o p → Live h3 p := fun p hp hf => by
    have hlp := hl p hp
    rw [live_congr ((f30 p (live_lt hlp)).trans (nf p hf))]
    exact hlp
  have lt : ∀ p, Owns o p → p < h0.length := fun p hp => by rw [l0]; exact live_lt (hl p hp)
  refine ⟨h3, ⟨r.moments, r.basicCount, q1, r.timesCount, q2, r.scalarCount, q3⟩, ?_, ?_, ?_, ?_, ?_, ?_⟩
  · unfold mtpAssign
    rw [r0, ok_bind]
    simp only
    unfold mtpFill
    rw [c1, ok_bind]
    simp only
    rw [c2, ok_bind]
    simp only
    rw [c3, ok_bind]
    rfl
  · intro p hp ho
    rw [f30 p hp, nf p (fun hf => ho (frees_owns hf))]
  · refine mtpView_eq_ok.2 ⟨m, ?_, ?_, ?_, e4, e5, e6, e7, e8⟩
    · rcases D1 with ⟨b, c, _⟩ | ⟨_, x, _⟩
      · simp only [b]; exact heapRead_block c (heapRead_length e1)
      · have := heapRead_length e1
        rw [x] at this
        simp only [x, Int.toNat_zero]
        rw [heapRead_zero, List.length_eq_zero_iff.1 this]
    · rcases D2 with ⟨b, c, _⟩ | ⟨_, x, _⟩
      · simp only [b]; exact heapRead_block c (heapRead_length e2)
      · have := heapRead_length e2
        rw [x] at this
        simp only [x, Int.toNat_zero]
        rw [heapRead_zero, List.length_eq_zero_iff.1 this]
    · rcases D3 with ⟨b, c, _⟩ | ⟨_, x, _⟩
      · simp only [b]; exact heapRead_block c (heapRead_length e3)
      · have := heapRead_length e3
        rw [x] at this
        simp only [x, Int.toNat_zero]
        rw [heapRead_zero, List.length_eq_zero_iff.1 this]
  · intro p hp
    rcases hp with hp | hp | hp
    · simp only at hp
      rcases D1 with ⟨b, c, _⟩ | ⟨y, _, b⟩
      · rw [b] at hp; have := Option.some.inj hp; subst this
        exact ⟨⟨_, c⟩, .inl (by omega)⟩
      · rw [b] at hp
        exact ⟨keep p (.inl hp) (K1 p y hp), .inr (.inl hp)⟩
    · simp only at hp
      rcases D2 with ⟨b, c, _⟩ | ⟨y, _, b⟩
      · rw [b] at hp; have := Option.some.inj hp; subst this
        exact ⟨⟨_, c⟩, .inl (by omega)⟩
      · rw [b] at hp
        exact ⟨keep p (.inr (.inl hp)) (K2 p y hp), .inr (.inr (.inl hp))⟩
    · simp only at hp
      rcases D3 with ⟨b, c, _⟩ | ⟨y, _, b⟩
      · rw [b] at hp; have := Option.some.inj hp; subst this
        exact ⟨⟨_, c⟩, .inl (by omega)⟩
      · rw [b] at hp
        exact ⟨keep p (.inr (.inr hp)) (K3 p y hp), .inr (.inr (.inr hp))⟩
  · intro p
    simp only
    refine ⟨?_, ?_, ?_⟩
    · rintro ⟨x, y⟩
      rcases D1 with ⟨b, _, u⟩ | ⟨_, _, b⟩ <;> rcases D2 with ⟨b', _, u'⟩ | ⟨_, _, b'⟩ <;>
        rw [b] at x <;> rw [b'] at y
      · have := Option.some.inj x; have := Option.some.inj y; omega
      · have := Option.some.inj x; have := lt p (.inr (.inl y)); omega
      · have := lt p (.inl x); have := Option.some.inj y; omega
      · exact (hd p).1 ⟨x, y⟩
    · rintro ⟨x, y⟩
      rcases D1 with ⟨b, _, u⟩ | ⟨_, _, b⟩ <;> rcases D3 with ⟨b', _, u'⟩ | ⟨_, _, b'⟩ <;>
        rw [b] at x <;> rw [b'] at y
      · have := Option.some.inj x; have := Option.some.inj y; omega
      · have := Option.some.inj x; have := lt p (.inr (.inr y)); omega
      · have := lt p (.inl x); have := Option.some.inj y; omega
      · exact (hd p).2.1 ⟨x, y⟩
    · rintro ⟨x, y⟩
      rcases D2 with ⟨b, _, u⟩ | ⟨_, _, b⟩ <;> rcases D3 with ⟨b', _, u'⟩ | ⟨_, _, b'⟩ <;>
        rw [b] at x <;> rw [b'] at y
      · have := Option.some.inj x; have := Option.some.inj y; omega
      · have := Option.some.inj x; have := lt p (.inr (.inr y)); omega
      · have := lt p (.inr (.inl x)); have := Option.some.inj y; omega
      · exact (hd p).2.2 ⟨x, y⟩
  · rintro ⟨n1, n2, n3⟩ p hp
    rcases w3 p hp with hp | hp
    · rcases w2 p hp with hp | hp
      · rcases w1 p hp with hp | hp
        · left
          have hno : ¬ Owns o p := by
            intro ho
            have hf : Frees o p := by
              rcases ho with ho | ho | ho
              · exact .inl ⟨by rw [a6]; exact n1, ho⟩
              · exact .inr (.inl ⟨by rw [a7]; exact n2, ho⟩)
              · exact .inr (.inr ⟨by rw [a8]; exact n3, ho⟩)
            obtain ⟨b, hb⟩ := hp
            rw [fr p hf] at hb
            exact absurd hb (by simp)
          exact ⟨(live_congr (nf p (fun hf => hno (frees_owns hf)))).1 hp, hno⟩
        · exact .inr (.inl hp)
      · exact .inr (.inr (.inl hp))
    · exact .inr (.inr (.inr hp))

/-! ## Steps and programs -/

/-- The objects of a state by number. -/
def poolFn {α : Type} (l : List (Option α)) (i : ℕ) : Option α := l[i]?.join

theorem poolFn_append {α : Type} (l : List (Option α)) (x : Option α) :
    poolFn (l ++ [x]) = Function.update (poolFn l) l.length x := by
  funext j
  unfold poolFn
  by_cases hj : j = l.length
  · subst hj; simp
  · rw [Function.update_of_ne hj]
    rcases lt_or_gt_of_ne hj with h | h
    · rw [List.getElem?_append_left h]
    · rw [List.getElem?_eq_none (by simp; omega), List.getElem?_eq_none (by omega)]

theorem poolFn_lt {α : Type} {l : List (Option α)} {i : ℕ} {a : α} (h : poolFn l i = some a) :
    i < l.length := by
  by_contra hc
  unfold poolFn at h
  rw [List.getElem?_eq_none (by omega)] at h
  exact absurd h (by simp)

theorem poolFn_set {α : Type} {l : List (Option α)} {i : ℕ} (hi : i < l.length) (x : Option α) :
    poolFn (l.set i x) = Function.update (poolFn l) i x := by
  funext j
  unfold poolFn
  by_cases hj : j = i
  · subst hj; simp [hi]
  · rw [Function.update_of_ne hj, List.getElem?_set_ne (fun h => hj h.symm)]

theorem poolFn_out {α : Type} (l : List (Option α)) {i : ℕ} (h : l.length ≤ i) : poolFn l i = none := by
  unfold poolFn
  rw [List.getElem?_eq_none h]
  rfl

/-- The invariant for a state and its values. -/
def StateInv (s : MtpState) (v : List (Option MtpTables)) : Prop :=
  s.pool.length = v.length ∧ PoolInv s.heap (poolFn s.pool) (poolFn v)

theorem obj_eq_ok {s : MtpState} {i : ℕ} {o : MtpObj} (h : poolFn s.pool i = some o) :
    s.obj i = .ok o := by
  unfold MtpState.obj
  unfold poolFn at h
  cases hx : s.pool[i]? with
  | none => rw [hx] at h; exact absurd h (by simp)
  | some x =>
    rw [hx] at h
    simp at h
    subst h
    rfl

theorem StateInv.obj {s : MtpState} {v : List (Option MtpTables)} (inv : StateInv s v) {i : ℕ}
    {t : MtpTables} (h : poolFn v i = some t) : ∃ o, poolFn s.pool i = some o ∧ s.obj i = .ok o ∧
      mtpView s.heap o = .ok t := by
  cases ho : poolFn s.pool i with
  | none => rw [(inv.2.alive i).1 ho] at h; exact absurd h (by simp)
  | some o => exact ⟨o, rfl, obj_eq_ok ho, inv.2.view i o t ho h⟩

/-- A new object at the end of the pool. -/
theorem StateInv.push {s : MtpState} {v : List (Option MtpTables)} (inv : StateInv s v) {h' : MtpHeap}
    {o : MtpObj} {t : MtpTables} (frame : ∀ p, p < s.heap.length → h'[p]? = s.heap[p]?)
    (hview : mtpView h' o = .ok t) (hnew : ∀ p, Owns o p → Live h' p ∧ s.heap.length ≤ p)
    (hdist : Distinct3 o) : StateInv ⟨h', s.pool ++ [some o]⟩ (v ++ [some t]) := by
  refine ⟨by simp [inv.1], ?_⟩
  simp only
  rw [poolFn_append, poolFn_append, ← inv.1]
  refine inv.2.update ?_ (by simp) ?_ ?_ ?_ ?_
  · intro j o' p _ hf hp
    exact frame p (live_lt (inv.2.live j o' p hf hp))
  · intro o' t' ho ht
    rw [← Option.some.inj ho, ← Option.some.inj ht]; exact hview
  · intro o' p ho hp
    rw [← Option.some.inj ho] at hp
    exact (hnew p hp).1
  · intro o' ho
    rw [← Option.some.inj ho]; exact hdist
  · intro o' p ho hp j o'' _ hf hp'
    rw [← Option.some.inj ho] at hp
    have := live_lt (inv.2.live j o'' p hf hp')
    have := (hnew p hp).2
    omega

theorem NoLeak.push {s : MtpState} (nl : NoLeak s.heap (poolFn s.pool)) {h' : MtpHeap} {o : MtpObj}
    (hnew : ∀ p, Live h' p → Live s.heap p ∨ Owns o p) : NoLeak h' (poolFn (s.pool ++ [some o])) := by
  rw [poolFn_append]
  refine nl.update ?_
  intro p hp
  rcases hnew p hp with h | h
  · refine .inl ⟨h, ?_⟩
    intro o' ho'
    rw [poolFn_out _ (le_refl _)] at ho'
    exact absurd ho' (by simp)
  · exact .inr ⟨o, rfl, h⟩

theorem empty_owns (p : ℕ) : ¬ Owns mtpEmpty p := by
  unfold Owns mtpEmpty; simp

theorem empty_view (h : MtpHeap) : mtpView h mtpEmpty = .ok noTables := by
  refine mtpView_eq_ok.2 ⟨[], ?_, ?_, ?_, rfl, rfl, rfl, rfl, rfl⟩ <;>
    exact heapRead_zero _ _

theorem empty_distinct : Distinct3 mtpEmpty := by
  intro p; simp [mtpEmpty]

/-- Assignments between objects without empty tables. -/
def StrictOp (v : List (Option MtpTables)) : MtpOp → Prop
  | .assign x y => ∀ a, (v[x]?.join = some a ∨ v[y]?.join = some a) →
      a.basicCount ≠ 0 ∧ a.timesCount ≠ 0 ∧ a.scalarCount ≠ 0
  | _ => True

theorem step_spec {s : MtpState} {v v' : List (Option MtpTables)} {op : MtpOp} (inv : StateInv s v)
    (hsafe : SafeOp v op) (hv : valueStep v op = some v') :
    ∃ s', mtpStep s op = .ok s' ∧ StateInv s' v' ∧
      (StrictOp v op → NoLeak s.heap (poolFn s.pool) → NoLeak s'.heap (poolFn s'.pool)) := by
  cases op with
  | dflt =>
    have := Option.some.inj hv
    subst this
    refine ⟨_, rfl, inv.push (fun _ _ => rfl) (empty_view _) (fun p hp => absurd hp (empty_owns p))
      empty_distinct, fun _ nl => nl.push (fun p hp => .inl hp)⟩
  | load t =>
    have := Option.some.inj hv
    subst this
    obtain ⟨a1, a2, a3, a4, a5⟩ := mtpStore_spec s.heap hsafe
    exact ⟨_, rfl, inv.push a1 a2 a3 a4, fun _ nl => nl.push a5⟩
  | copy y =>
    obtain ⟨t, ht, rfl⟩ := Option.map_eq_some_iff.1 hv
    obtain ⟨r, hr, hobj, hview⟩ := inv.obj ht
    obtain ⟨h', o, c, a1, a2, a3, a4, a5⟩ := mtpCopy_spec (fun p hp => inv.2.live y r p hr hp) hview
    refine ⟨⟨h', s.pool ++ [some o]⟩, ?_, inv.push a1 a2 a3 a4, fun _ nl => nl.push a5⟩
    simp only [mtpStep]
    rw [hobj, ok_bind, c, ok_bind]
    rfl
  | move y =>
    obtain ⟨t, ht, rfl⟩ := Option.map_eq_some_iff.1 hv
    obtain ⟨r, hr, hobj, hview⟩ := inv.obj ht
    have hy := poolFn_lt hr
    have hyv : y < v.length := by rw [← inv.1]; exact hy
    refine ⟨⟨s.heap, s.pool.set y (some mtpEmpty) ++ [some r]⟩, ?_, ⟨by simp [inv.1], ?_⟩, ?_⟩
    · simp only [mtpStep]
      rw [hobj, ok_bind]
      rfl
    · simp only
      rw [poolFn_append, poolFn_append, poolFn_set hy, poolFn_set hyv]
      simp only [List.length_set]
      rw [← inv.1]
      have inv1 : PoolInv s.heap (Function.update (poolFn s.pool) y (some mtpEmpty))
          (Function.update (poolFn v) y (some noTables)) := by
        refine inv.2.update (fun _ _ _ _ _ _ => rfl) (by simp) ?_ ?_ ?_ ?_
        · intro o t ho ht
          rw [← Option.some.inj ho, ← Option.some.inj ht]; exact empty_view _
        · intro o p ho hp
          rw [← Option.some.inj ho] at hp; exact absurd hp (empty_owns p)
        · intro o ho
          rw [← Option.some.inj ho]; exact empty_distinct
        · intro o p ho hp
          rw [← Option.some.inj ho] at hp; exact absurd hp (empty_owns p)
      refine inv1.update (fun _ _ _ _ _ _ => rfl) (by simp) ?_ ?_ ?_ ?_
      · intro o t' ho ht'
        rw [← Option.some.inj ho, ← Option.some.inj ht']; exact hview
      · intro o p ho hp
        rw [← Option.some.inj ho] at hp; exact inv.2.live y r p hr hp
      · intro o ho
        rw [← Option.some.inj ho]; exact inv.2.dist y r hr
      · intro o p ho hp j o' hj hf
        rw [← Option.some.inj ho] at hp
        by_cases hjy : j = y
        · subst hjy
          simp at hf
          rw [← hf]; exact empty_owns p
        · rw [Function.update_of_ne hjy] at hf
          exact inv.2.sep y j r o' p (fun h => hjy h.symm) hr hf hp
    · intro _ nl p hp
      obtain ⟨j, o, hf, ho⟩ := nl p hp
      simp only
      rw [poolFn_append, poolFn_set hy]
      simp only [List.length_set]
      by_cases hjy : j = y
      · subst hjy
        rw [hr] at hf
        rw [← Option.some.inj hf] at ho
        exact ⟨s.pool.length, r, by simp, ho⟩
      · have := poolFn_lt hf
        exact ⟨j, o, by rw [Function.update_of_ne (by omega), Function.update_of_ne hjy]; exact hf, ho⟩
  | assign x y =>
    simp only [valueStep] at hv
    obtain ⟨a, hax, hv⟩ := Option.bind_eq_some_iff.1 hv
    obtain ⟨t, hty, hv⟩ := Option.bind_eq_some_iff.1 hv
    have := Option.some.inj hv
    subst this
    obtain ⟨hxy, hz⟩ := hsafe
    obtain ⟨z1, z2, z3⟩ := hz a t hax hty
    obtain ⟨o, ho, hobjx, hviewx⟩ := inv.obj hax
    obtain ⟨r, hr, hobjy, hviewy⟩ := inv.obj hty
    have hx := poolFn_lt ho
    have hxv : x < v.length := by rw [← inv.1]; exact hx
    obtain ⟨h', o', c, a1, a2, a3, a4, a5⟩ := mtpAssign_spec (inv.2.dist x o ho)
      (fun p hp => inv.2.live x o p ho hp) (fun p hp => inv.2.live y r p hr hp)
      (fun p hp => inv.2.sep y x r o p (fun h => hxy h.symm) hr ho hp) hviewx hviewy z1 z2 z3
    refine ⟨⟨h', s.pool.set x (some o')⟩, ?_, ⟨by simp [inv.1], ?_⟩, ?_⟩
    · simp only [mtpStep]
      rw [hobjx, ok_bind, hobjy, ok_bind, if_neg hxy, c, ok_bind]
      rfl
    · simp only
      rw [poolFn_set hx, poolFn_set hxv]
      refine inv.2.update ?_ (by simp) ?_ ?_ ?_ ?_
      · intro j oj p hj hf hp
        exact a1 p (live_lt (inv.2.live j oj p hf hp)) (inv.2.sep j x oj o p hj hf ho hp)
      · intro o1 t1 h1 h2
        rw [← Option.some.inj h1, ← Option.some.inj h2]; exact a2
      · intro o1 p h1 hp
        rw [← Option.some.inj h1] at hp; exact (a3 p hp).1
      · intro o1 h1
        rw [← Option.some.inj h1]; exact a4
      · intro o1 p h1 hp j oj hj hf hpj
        rw [← Option.some.inj h1] at hp
        rcases (a3 p hp).2 with h | h
        · have := live_lt (inv.2.live j oj p hf hpj)
          omega
        · exact inv.2.sep j x oj o p hj hf ho hpj h
    · intro hstrict nl
      simp only
      rw [poolFn_set hx]
      refine nl.update ?_
      intro p hp
      rcases a5 (hstrict a (.inl hax)) p hp with ⟨h1, h2⟩ | h
      · refine .inl ⟨h1, ?_⟩
        intro o1 ho1
        rw [ho] at ho1
        rw [← Option.some.inj ho1]; exact h2
      · exact .inr ⟨o', rfl, h⟩
  | moveAssign x y => exact absurd hsafe (by simp [SafeOp])
  | destroy x =>
    obtain ⟨t, ht, rfl⟩ := Option.map_eq_some_iff.1 hv
    obtain ⟨o, ho, hobj, hview⟩ := inv.obj ht
    have hx := poolFn_lt ho
    have hxv : x < v.length := by rw [← inv.1]; exact hx
    obtain ⟨h', c, l, a1, a2⟩ := mtpDestroy_spec (inv.2.dist x o ho)
      (fun p hp => inv.2.live x o p ho hp)
    refine ⟨⟨h', s.pool.set x none⟩, ?_, ⟨by simp [inv.1], ?_⟩, ?_⟩
    · simp only [mtpStep]
      rw [hobj, ok_bind, c, ok_bind]
      rfl
    · simp only
      rw [poolFn_set hx, poolFn_set hxv]
      refine inv.2.update ?_ (by simp) (by simp) (by simp) (by simp) (by simp)
      intro j oj p hj hf hp
      exact a2 p (inv.2.sep j x oj o p hj hf ho hp)
    · intro _ nl
      simp only
      rw [poolFn_set hx]
      refine nl.update ?_
      intro p hp
      left
      have hno : ¬ Owns o p := by
        intro h
        obtain ⟨b, hb⟩ := hp
        rw [a1 p h] at hb
        exact absurd hb (by simp)
      refine ⟨(live_congr (a2 p hno)).1 hp, ?_⟩
      intro o1 ho1
      rw [ho] at ho1
      rw [← Option.some.inj ho1]; exact hno

theorem run_spec : ∀ {ops : List MtpOp} {s : MtpState} {v v' : List (Option MtpTables)},
    StateInv s v → SafeRun v ops → valueRun v ops = some v' →
    ∃ s', mtpRun s ops = .ok s' ∧ StateInv s' v' ∧
      (NoEmptyAssign v ops → NoLeak s.heap (poolFn s.pool) → NoLeak s'.heap (poolFn s'.pool))
  | [], s, v, v', inv, _, hv => by
    have := Option.some.inj hv
    subst this
    exact ⟨s, rfl, inv, fun _ h => h⟩
  | op :: ops, s, v, v', inv, hs, hv => by
    unfold valueRun at hv
    rw [List.foldlM_cons] at hv
    obtain ⟨w, hw, hv⟩ := Option.bind_eq_some_iff.1 hv
    obtain ⟨s1, e1, inv1, nl1⟩ := step_spec inv hs.1 hw
    obtain ⟨s2, e2, inv2, nl2⟩ := run_spec inv1 (hs.2 w hw) hv
    refine ⟨s2, ?_, inv2, ?_⟩
    · unfold mtpRun
      rw [List.foldlM_cons, e1, ok_bind]
      exact e2
    · intro hne nl
      have hst : StrictOp v op := by
        have := hne.1
        cases op <;> trivial
      exact nl2 (hne.2 w hw) (nl1 hst nl)

theorem shows_of_inv {s : MtpState} {v : List (Option MtpTables)} (inv : StateInv s v) : Shows s v := by
  refine ⟨inv.1, ?_⟩
  intro i
  have ha := inv.2.alive i
  have hv := inv.2.view i
  unfold poolFn at ha hv
  revert ha hv
  cases s.pool[i]?.join with
  | none =>
    intro ha _
    rw [ha.1 rfl]
    trivial
  | some o =>
    intro ha hv
    cases h : v[i]?.join with
    | none => exact absurd (ha.2 h) (by simp)
    | some t => exact hv o t rfl h

theorem stateInv_nil : StateInv ⟨[], []⟩ [] := by
  refine ⟨rfl, ⟨?_, ?_, ?_, ?_, ?_⟩⟩ <;> simp [poolFn]

theorem noLeak_nil : NoLeak [] (poolFn []) := by
  rintro p ⟨b, hb⟩
  simp at hb

end MaterSDK
