import Verif.Spec.TildeRHeap
import Verif.Lemmas.StructObj

/-!
# The heap of the `TildeR` objects: ownership
-/

namespace MaterSDK

variable {α : Type}

/-- A pointer to a block with the ints `l`. -/
def HasInts (h : IntHeap) (p : Option ℕ) (l : List ℤ) : Prop :=
  ∃ a, p = some a ∧ h[a]? = some (some (.val l))

/-- The addresses an object will free. -/
def tPtrs (o : TildeObj α) : List ℕ :=
  if o.nC = 0 then []
  else o.pC.toList ++ (o.pCA.toList ++ (o.pN.toList ++ o.pNA.toList))

/-- The object has the value `v`. -/
structure Holds (h : IntHeap) (o : TildeObj α) (v : TildeVal α) : Prop where
  nbr : o.nbr = v.nbr
  lc : o.nC = v.c.length
  lca : v.ca.length = v.c.length
  ln : o.nN = v.n.length
  lna : v.na.length = v.n.length
  bal : v.c = [] ↔ v.n = []
  arr : v.c ≠ [] → HasInts h o.pC v.c ∧ HasInts h o.pCA v.ca ∧ HasInts h o.pN v.n ∧
    HasInts h o.pNA v.na

theorem HasInts.congr {h h' : IntHeap} {p : Option ℕ} {l : List ℤ}
    (he : ∀ q ∈ p.toList, h'[q]? = h[q]?) (hi : HasInts h p l) : HasInts h' p l := by
  obtain ⟨a, rfl, ha⟩ := hi
  exact ⟨a, rfl, by rw [he a (by simp), ha]⟩

theorem HasInts.push {h : IntHeap} {p : Option ℕ} {l : List ℤ} (c : Option (Block (List ℤ)))
    (hi : HasInts h p l) : HasInts (h ++ [c]) p l := by
  obtain ⟨a, rfl, ha⟩ := hi
  refine ⟨a, rfl, ?_⟩
  rw [List.getElem?_append_left (List.getElem?_eq_some_iff.1 ha).1, ha]

theorem hasInts_new (h : IntHeap) (l : List ℤ) :
    HasInts (h ++ [some (.val l)]) (some h.length) l := ⟨_, rfl, by simp⟩

theorem Holds.ne {h : IntHeap} {o : TildeObj α} {v : TildeVal α} (hh : Holds h o v)
    (hc : v.c ≠ []) : o.nC ≠ 0 ∧ o.nN ≠ 0 ∧ v.n ≠ [] := by
  have hn : v.n ≠ [] := fun h' => hc (hh.bal.2 h')
  refine ⟨?_, ?_, hn⟩
  · rw [hh.lc]; simpa using hc
  · rw [hh.ln]; simpa using hn

theorem Holds.eq {h : IntHeap} {o : TildeObj α} {v : TildeVal α} (hh : Holds h o v)
    (hc : v.c = []) : o.nC = 0 ∧ o.nN = 0 ∧ v = ⟨v.nbr, [], [], [], []⟩ := by
  have hn : v.n = [] := hh.bal.1 hc
  have h1 := hh.lc
  have h2 := hh.ln
  have h3 := hh.lca
  have h4 := hh.lna
  obtain ⟨nbr, c, ca, n, na⟩ := v
  simp only at hc hn h1 h2 h3 h4
  subst hc hn
  refine ⟨h1, h2, ?_⟩
  rw [List.length_nil, List.length_eq_zero_iff] at h3 h4
  rw [h3, h4]

theorem Holds.congr {h h' : IntHeap} {o : TildeObj α} {v : TildeVal α}
    (he : ∀ q ∈ tPtrs o, h'[q]? = h[q]?) (hh : Holds h o v) : Holds h' o v := by
  refine ⟨hh.nbr, hh.lc, hh.lca, hh.ln, hh.lna, hh.bal, fun hc => ?_⟩
  obtain ⟨h1, h2, h3, h4⟩ := hh.arr hc
  have hn := (hh.ne hc).1
  have key : ∀ q, q ∈ o.pC.toList ∨ q ∈ o.pCA.toList ∨ q ∈ o.pN.toList ∨ q ∈ o.pNA.toList →
      h'[q]? = h[q]? := by
    intro q hq
    apply he
    unfold tPtrs
    rw [if_neg hn]
    simpa only [List.mem_append] using hq
  exact ⟨h1.congr fun q hq => key q (.inl hq), h2.congr fun q hq => key q (.inr (.inl hq)),
    h3.congr fun q hq => key q (.inr (.inr (.inl hq))),
    h4.congr fun q hq => key q (.inr (.inr (.inr hq)))⟩

theorem readInts_eq {h : IntHeap} {p : Option ℕ} {l : List ℤ} (hi : HasInts h p l) :
    readInts h l.length p = some l := by
  obtain ⟨a, rfl, ha⟩ := hi
  unfold readInts
  split
  · rename_i h0; rw [List.length_eq_zero_iff.1 h0]
  · simp [ha]

theorem Holds.see {h : IntHeap} {o : TildeObj α} {v : TildeVal α} (hh : Holds h o v) :
    tildeSee h o = some v := by
  unfold tildeSee
  by_cases hc : v.c = []
  · obtain ⟨h1, h2, h3⟩ := hh.eq hc
    rw [h3]
    simp [readInts, h1, h2, hh.nbr]
  · obtain ⟨h1, h2, h3, h4⟩ := hh.arr hc
    have e1 := readInts_eq h1
    have e2 := readInts_eq h2
    have e3 := readInts_eq h3
    have e4 := readInts_eq h4
    rw [hh.lca] at e2
    rw [hh.lna] at e4
    rw [hh.lc, hh.ln, e1, e2, e3, e4, hh.nbr]
    rfl

/-! ## Frees -/

theorem freePtr_spec {h : IntHeap} {p : Option ℕ} {R : List ℕ}
    (ho : OwnsAll h (p.toList ++ R)) :
    ∃ h', freePtr h p = .ok h' ∧ OwnsAll h' R ∧ ∀ q ∈ R, h'[q]? = h[q]? := by
  cases p with
  | none => exact ⟨h, rfl, by simpa using ho, fun _ _ => rfl⟩
  | some p => exact owns_free (by simpa using ho)

theorem release_spec {h : IntHeap} (x : TildeObj α) {R : List ℕ}
    (ho : OwnsAll h (tPtrs x ++ R)) :
    ∃ h', tildeRelease h x = .ok h' ∧ OwnsAll h' R ∧ ∀ q ∈ R, h'[q]? = h[q]? := by
  unfold tildeRelease
  unfold tPtrs at ho
  by_cases hn : x.nC = 0
  · rw [if_pos hn] at ho
    simp only [hn, ne_eq, not_true_eq_false, if_false]
    exact ⟨h, rfl, by simpa using ho, fun _ _ => rfl⟩
  · rw [if_neg hn] at ho
    simp only [List.append_assoc] at ho
    obtain ⟨h1, e1, o1, k1⟩ := freePtr_spec ho
    obtain ⟨h2, e2, o2, k2⟩ := freePtr_spec o1
    obtain ⟨h3, e3, o3, k3⟩ := freePtr_spec o2
    obtain ⟨h4, e4, o4, k4⟩ := freePtr_spec o3
    rw [if_pos hn, e1, ok_bind, e2, ok_bind, e3, ok_bind]
    refine ⟨h4, e4, o4, fun q hq => ?_⟩
    rw [k4 q hq, k3 q (by simp [hq]), k2 q (by simp [hq]), k1 q (by simp [hq])]

theorem destroy_eq_release {h : IntHeap} {x : TildeObj α} (hb : x.nC = 0 ↔ x.nN = 0) :
    tildeDestroy h x = tildeRelease h x := by
  unfold tildeDestroy tildeRelease
  by_cases hn : x.nC = 0
  · have := hb.1 hn
    simp [hn, this]
  · have : x.nN ≠ 0 := fun h' => hn (hb.2 h')
    simp only [ne_eq, hn, not_false_eq_true, if_true, this]
    cases h1 : freePtr h x.pC with
    | error e => rfl
    | ok h1 =>
      simp only [ok_bind]

/-! ## Allocations -/

theorem copyInts_spec {h : IntHeap} {p : Option ℕ} {l : List ℤ} {cap n : ℕ} (hi : HasInts h p l)
    (hn : n = l.length) (h0 : n ≠ 0) :
    copyInts h cap n p = if cap < n then .error .outOfBounds
      else .ok (h ++ [some (.val l)], some h.length) := by
  obtain ⟨a, rfl, ha⟩ := hi
  subst hn
  unfold copyInts
  rw [if_neg h0]
  have : objRead h a = .ok (.val l) := by simp [objRead, ha]
  simp only [this, ok_bind, lt_irrefl, false_or, objAlloc, List.take_length]
  rfl

theorem four_owns {h : IntHeap} {R : List ℕ} (ho : OwnsAll h R) (a b c d : Block (List ℤ)) :
    OwnsAll (h ++ [some a] ++ [some b] ++ [some c] ++ [some d])
      (h.length :: (h.length + 1) :: (h.length + 2) :: (h.length + 3) :: R) ∧
    ∀ q ∈ R, (h ++ [some a] ++ [some b] ++ [some c] ++ [some d])[q]? = h[q]? := by
  obtain ⟨o1, k1, _⟩ := owns_alloc a ho
  obtain ⟨o2, k2, _⟩ := owns_alloc b o1
  obtain ⟨o3, k3, _⟩ := owns_alloc c o2
  obtain ⟨o4, k4, _⟩ := owns_alloc d o3
  simp only [List.length_append, List.length_singleton] at o4
  refine ⟨OwnsAll.perm ?_ o4, fun q hq => ?_⟩
  · rw [Nat.add_assoc, Nat.add_assoc]
    refine (List.Perm.cons _ (List.Perm.cons _ (List.Perm.swap _ _ _))).trans ?_
    refine (List.Perm.cons _ (List.Perm.swap _ _ _)).trans ?_
    refine (List.Perm.swap _ _ _).trans (List.Perm.cons _ ?_)
    refine (List.Perm.cons _ (List.Perm.swap _ _ _)).trans ?_
    refine (List.Perm.swap _ _ _).trans (List.Perm.cons _ ?_)
    exact List.Perm.swap _ _ _
  · rw [k4 q (by simp [hq]), k3 q (by simp [hq]), k2 q (by simp [hq]), k1 q hq]

/-! ## All objects of a program -/

/-- The addresses which the living objects will free. -/
def allT (objs : List (Option (TildeObj α))) : List ℕ :=
  objs.flatMap fun o => (o.map tPtrs).getD []

theorem allT_set : ∀ (objs : List (Option (TildeObj α))) (x : ℕ) (o : Option (TildeObj α)),
    objs[x]? = some o → (allT objs).Perm ((o.map tPtrs).getD [] ++ allT (objs.set x none))
  | [], x, o, h => by simp at h
  | a :: objs, 0, o, h => by
    obtain rfl : a = o := by simpa using h
    simp [allT]
  | a :: objs, x + 1, o, h => by
    have := allT_set objs x o (by simpa using h)
    have h2 : (allT (a :: objs)) = (a.map tPtrs).getD [] ++ allT objs := rfl
    have h3 : (allT ((a :: objs).set (x + 1) none)) =
      (a.map tPtrs).getD [] ++ allT (objs.set x none) := rfl
    rw [h2, h3]
    refine (List.Perm.append_left _ this).trans ?_
    rw [← List.append_assoc, ← List.append_assoc]
    exact List.Perm.append_right _ List.perm_append_comm

theorem mem_allT {objs : List (Option (TildeObj α))} {i : ℕ} {o : TildeObj α}
    (h : objs[i]? = some (some o)) {p : ℕ} (hp : p ∈ tPtrs o) : p ∈ allT objs :=
  List.mem_flatMap.2 ⟨some o, List.mem_of_getElem? h, by simpa using hp⟩

/-- One object and its value, or both gone. -/
def RelAt (h : IntHeap) : Option (Option (TildeObj α)) → Option (Option (TildeVal α)) → Prop
  | none, none => True
  | some none, some none => True
  | some (some o), some (some v) => Holds h o v
  | _, _ => False

/-- A state and the values of its objects; `L` are blocks which nobody will free. -/
structure TRel (s : TildeState α) (pool : List (Option (TildeVal α))) (L : List ℕ) : Prop where
  owns : OwnsAll s.heap (allT s.objs ++ L)
  rel : ∀ i : ℕ, RelAt s.heap s.objs[i]? pool[i]?

theorem TRel.length {s : TildeState α} {pool : List (Option (TildeVal α))} {L : List ℕ}
    (hr : TRel s pool L) : s.objs.length = pool.length := by
  rcases Nat.lt_trichotomy s.objs.length pool.length with h | h | h
  · have := hr.rel s.objs.length
    rw [List.getElem?_eq_none (Nat.le_refl _), List.getElem?_eq_getElem h] at this
    simp [RelAt] at this
  · exact h
  · have := hr.rel pool.length
    rw [List.getElem?_eq_none (l := pool) (Nat.le_refl _), List.getElem?_eq_getElem h] at this
    cases h' : s.objs[pool.length] <;> simp [RelAt, h'] at this

theorem relAt_congr {h h' : IntHeap} {o : Option (Option (TildeObj α))}
    {v : Option (Option (TildeVal α))} (hr : RelAt h o v)
    (he : ∀ x, o = some (some x) → ∀ q ∈ tPtrs x, h'[q]? = h[q]?) : RelAt h' o v := by
  match o, v, hr with
  | none, none, _ => trivial
  | some none, some none, _ => trivial
  | some (some o), some (some v), hr => exact Holds.congr (he o rfl) hr

theorem TRel.get {s : TildeState α} {pool : List (Option (TildeVal α))} {L : List ℕ}
    (hr : TRel s pool L) (x : ℕ) :
    (∃ o v, objGet s.objs x = .ok o ∧ poolGet pool x = .ok v ∧ s.objs[x]? = some (some o) ∧
      pool[x]? = some (some v) ∧ Holds s.heap o v) ∨
    (objGet s.objs x = .error .undefined ∧ poolGet pool x = .error .undefined) := by
  have := hr.rel x
  unfold objGet poolGet
  match h1 : s.objs[x]?, h2 : pool[x]? with
  | none, none => exact Or.inr ⟨rfl, rfl⟩
  | some none, some none => exact Or.inr ⟨rfl, rfl⟩
  | some (some o), some (some v) =>
    rw [h1, h2] at this
    exact Or.inl ⟨o, v, rfl, rfl, rfl, rfl, this⟩
  | none, some _ => rw [h1, h2] at this; exact absurd this (by simp [RelAt])
  | some none, none => rw [h1, h2] at this; exact absurd this (by simp [RelAt])
  | some (some _), none => rw [h1, h2] at this; exact absurd this (by simp [RelAt])
  | some none, some (some _) => rw [h1, h2] at this; exact absurd this (by simp [RelAt])
  | some (some _), some none => rw [h1, h2] at this; exact absurd this (by simp [RelAt])

theorem TRel.push {s : TildeState α} {pool : List (Option (TildeVal α))} {L L' : List ℕ}
    (hr : TRel s pool L) {h' : IntHeap} {o : TildeObj α} {v : TildeVal α}
    (ho : OwnsAll h' (tPtrs o ++ (allT s.objs ++ L')))
    (hk : ∀ q ∈ allT s.objs, h'[q]? = s.heap[q]?) (hh : Holds h' o v) :
    TRel ⟨h', s.objs ++ [some o]⟩ (pool ++ [some v]) L' := by
  refine ⟨?_, fun i => ?_⟩
  · refine OwnsAll.perm ?_ ho
    have : allT (s.objs ++ [some o]) = allT s.objs ++ tPtrs o := by simp [allT]
    show (tPtrs o ++ (allT s.objs ++ L')).Perm (allT (s.objs ++ [some o]) ++ L')
    rw [this, ← List.append_assoc]
    exact List.Perm.append_right _ List.perm_append_comm
  · have hl := hr.length
    show RelAt h' (s.objs ++ [some o])[i]? (pool ++ [some v])[i]?
    rcases Nat.lt_trichotomy i s.objs.length with hi | hi | hi
    · rw [List.getElem?_append_left hi, List.getElem?_append_left (hl ▸ hi)]
      exact relAt_congr (hr.rel i) fun x hx q hq => hk q (mem_allT hx hq)
    · subst hi
      have : (pool ++ [some v])[s.objs.length]? = some (some v) := by rw [hl]; simp
      rw [this]
      simpa [RelAt] using hh
    · have e1 : (s.objs ++ [some o])[i]? = none := by simp; omega
      have e2 : (pool ++ [some v])[i]? = none := by simp; omega
      rw [e1, e2]
      trivial

theorem TRel.split {s : TildeState α} {pool : List (Option (TildeVal α))} {L : List ℕ}
    (hr : TRel s pool L) {x : ℕ} {o : TildeObj α} (hx : s.objs[x]? = some (some o)) :
    OwnsAll s.heap (tPtrs o ++ (allT (s.objs.set x none) ++ L)) := by
  refine OwnsAll.perm ?_ hr.owns
  rw [← List.append_assoc]
  exact List.Perm.append_right _ (allT_set s.objs x _ hx)

theorem TRel.setAt {s : TildeState α} {pool : List (Option (TildeVal α))} {L L' : List ℕ}
    (hr : TRel s pool L) {x : ℕ} (hx : x < s.objs.length) {h' : IntHeap}
    {o : Option (TildeObj α)} {v : Option (TildeVal α)}
    (ho : OwnsAll h' ((o.map tPtrs).getD [] ++ (allT (s.objs.set x none) ++ L')))
    (hk : ∀ q ∈ allT (s.objs.set x none), h'[q]? = s.heap[q]?) (hh : RelAt h' (some o) (some v)) :
    TRel ⟨h', s.objs.set x o⟩ (pool.set x v) L' := by
  refine ⟨?_, fun i => ?_⟩
  · refine OwnsAll.perm ?_ ho
    have := allT_set (s.objs.set x o) x o (by simp [hx])
    rw [List.set_set] at this
    rw [← List.append_assoc]
    exact (List.Perm.append_right _ this).symm
  · show RelAt h' (s.objs.set x o)[i]? (pool.set x v)[i]?
    by_cases e : x = i
    · subst e
      have e1 : (s.objs.set x o)[x]? = some o := by simp [hx]
      have e2 : (pool.set x v)[x]? = some v := by simp [hr.length ▸ hx]
      rw [e1, e2]
      exact hh
    · rw [List.getElem?_set, if_neg e, List.getElem?_set, if_neg e]
      exact relAt_congr (hr.rel i) fun y hy q hq => hk q (mem_allT (i := i) (by
        rw [List.getElem?_set, if_neg e]; exact hy) hq)

theorem TRel.view {s : TildeState α} {pool : List (Option (TildeVal α))} {L : List ℕ}
    (hr : TRel s pool L) : s.view = pool.map (Option.map some) := by
  unfold TildeState.view
  apply List.ext_getElem?
  intro i
  rw [List.getElem?_map, List.getElem?_map]
  have := hr.rel i
  match h1 : s.objs[i]?, h2 : pool[i]? with
  | none, none => rfl
  | some none, some none => rfl
  | some (some o), some (some v) =>
    rw [h1, h2] at this
    simp [Holds.see this]
  | none, some _ => rw [h1, h2] at this; exact absurd this (by simp [RelAt])
  | some none, none => rw [h1, h2] at this; exact absurd this (by simp [RelAt])
  | some (some _), none => rw [h1, h2] at this; exact absurd this (by simp [RelAt])
  | some none, some (some _) => rw [h1, h2] at this; exact absurd this (by simp [RelAt])
  | some (some _), some none => rw [h1, h2] at this; exact absurd this (by simp [RelAt])

/-! ## One statement -/

theorem holds_make (h : IntHeap) (a : α) (c ca n na : List ℤ) (h1 : ca.length = c.length)
    (h2 : na.length = n.length) (hb : c = [] ↔ n = []) :
    Holds (h ++ [some (.val c)] ++ [some (.val n)] ++ [some (.val ca)] ++ [some (.val na)])
      ⟨a, c.length, n.length, some h.length, some (h.length + 2), some (h.length + 1),
        some (h.length + 3)⟩ ⟨a, c, ca, n, na⟩ := by
  refine ⟨rfl, rfl, h1, rfl, h2, hb, fun _ => ⟨?_, ?_, ?_, ?_⟩⟩
  · exact (((hasInts_new h c).push _).push _).push _
  · have := (hasInts_new (h ++ [some (.val c)] ++ [some (.val n)]) ca).push (some (.val na))
    simpa using this
  · have := ((hasInts_new (h ++ [some (.val c)]) n).push (some (.val ca))).push (some (.val na))
    simpa using this
  · have := hasInts_new (h ++ [some (.val c)] ++ [some (.val n)] ++ [some (.val ca)]) na
    simpa using this

theorem holds_assign (h : IntHeap) (a : α) (c ca n na : List ℤ) (h1 : ca.length = c.length)
    (h2 : na.length = n.length) (hb : c = [] ↔ n = []) :
    Holds (h ++ [some (.val c)] ++ [some (.val ca)] ++ [some (.val n)] ++ [some (.val na)])
      ⟨a, c.length, n.length, some h.length, some (h.length + 1), some (h.length + 2),
        some (h.length + 3)⟩ ⟨a, c, ca, n, na⟩ := by
  refine ⟨rfl, rfl, h1, rfl, h2, hb, fun _ => ⟨?_, ?_, ?_, ?_⟩⟩
  · exact (((hasInts_new h c).push _).push _).push _
  · have := ((hasInts_new (h ++ [some (.val c)]) ca).push (some (.val n))).push (some (.val na))
    simpa using this
  · have := (hasInts_new (h ++ [some (.val c)] ++ [some (.val ca)]) n).push (some (.val na))
    simpa using this
  · have := hasInts_new (h ++ [some (.val c)] ++ [some (.val ca)] ++ [some (.val n)]) na
    simpa using this

theorem holds_empty (h : IntHeap) (a : α) (p q r t : Option ℕ) :
    Holds h ⟨a, 0, 0, p, q, r, t⟩ ⟨a, [], [], [], []⟩ :=
  ⟨rfl, rfl, rfl, rfl, rfl, Iff.rfl, fun h => absurd rfl h⟩

theorem tPtrs_empty (a : α) (m : ℕ) (p q r t : Option ℕ) :
    tPtrs (⟨a, 0, m, p, q, r, t⟩ : TildeObj α) = [] := rfl

/-- A new object with four new blocks. -/
theorem TRel.pushFour {s : TildeState α} {pool : List (Option (TildeVal α))} {L : List ℕ}
    (hr : TRel s pool L) (b1 b2 b3 b4 : Block (List ℤ)) (o : TildeObj α) (v : TildeVal α)
    (hp : o.pC = some s.heap.length ∧ o.pCA = some (s.heap.length + 2) ∧
      o.pN = some (s.heap.length + 1) ∧ o.pNA = some (s.heap.length + 3))
    (hh : Holds (s.heap ++ [some b1] ++ [some b2] ++ [some b3] ++ [some b4]) o v) :
    ∃ L', L'.length = L.length + (if v.c = [] then 4 else 0) ∧
      TRel ⟨s.heap ++ [some b1] ++ [some b2] ++ [some b3] ++ [some b4], s.objs ++ [some o]⟩
        (pool ++ [some v]) L' := by
  obtain ⟨o4, k4⟩ := four_owns hr.owns b1 b2 b3 b4
  by_cases hc : v.c = []
  · refine ⟨s.heap.length :: (s.heap.length + 1) :: (s.heap.length + 2) :: (s.heap.length + 3) :: L,
      by simp [hc], hr.push ?_ (fun q hq => k4 q (by simp [hq])) hh⟩
    have h0 := (hh.eq hc).1
    refine OwnsAll.perm ?_ o4
    have : tPtrs o = [] := by unfold tPtrs; rw [if_pos h0]
    rw [this, List.nil_append]
    have hcomm : (([s.heap.length, s.heap.length + 1, s.heap.length + 2, s.heap.length + 3] ++
        allT s.objs) ++ L).Perm ((allT s.objs ++ [s.heap.length, s.heap.length + 1,
        s.heap.length + 2, s.heap.length + 3]) ++ L) :=
      List.Perm.append_right _ List.perm_append_comm
    simpa using hcomm
  · refine ⟨L, by simp [hc], hr.push ?_ (fun q hq => k4 q (by simp [hq])) hh⟩
    have h0 := (hh.ne hc).1
    refine OwnsAll.perm ?_ o4
    have : tPtrs o = [s.heap.length, s.heap.length + 2, s.heap.length + 1, s.heap.length + 3] := by
      unfold tPtrs
      rw [if_neg h0, hp.1, hp.2.1, hp.2.2.1, hp.2.2.2]
      rfl
    rw [this]
    exact List.Perm.cons _ (List.Perm.swap _ _ _)

theorem tildeCopy_spec {h : IntHeap} {o : TildeObj α} {v : TildeVal α} (hh : Holds h o v) :
    (oneType v = false ∧ tildeCopy h o = .error .outOfBounds) ∨
    (oneType v = true ∧ ∃ b1 b2 b3 b4 o', tildeCopy h o =
      .ok (h ++ [some b1] ++ [some b2] ++ [some b3] ++ [some b4], o') ∧
      (o'.pC = some h.length ∧ o'.pCA = some (h.length + 2) ∧
        o'.pN = some (h.length + 1) ∧ o'.pNA = some (h.length + 3)) ∧
      Holds (h ++ [some b1] ++ [some b2] ++ [some b3] ++ [some b4]) o' v) := by
  by_cases hc : v.c = []
  · obtain ⟨e1, e2, e3⟩ := hh.eq hc
    refine Or.inr ⟨by rw [e3]; rfl, .uninit, .uninit, .uninit, .uninit,
      ⟨o.nbr, o.nC, o.nN, some h.length, some (h.length + 2), some (h.length + 1),
        some (h.length + 3)⟩, ?_, ⟨rfl, rfl, rfl, rfl⟩, ?_⟩
    · simp only [tildeCopy, copyInts, e1, e2, if_true, objAlloc, ok_bind, List.length_append,
        List.length_singleton, Nat.add_assoc]
      rfl
    · rw [e1, e2, e3, hh.nbr]
      exact holds_empty _ _ _ _ _ _
  · obtain ⟨n1, n2, n3⟩ := hh.ne hc
    obtain ⟨a1, a2, a3, a4⟩ := hh.arr hc
    unfold tildeCopy
    rw [copyInts_spec a1 hh.lc n1]
    by_cases g1 : 1 < o.nC
    · refine Or.inl ⟨?_, by rw [if_pos g1]; rfl⟩
      rw [hh.lc] at g1
      simp only [oneType, decide_eq_false_iff_not]
      omega
    · rw [if_neg g1, ok_bind]
      simp only []
      rw [copyInts_spec (a3.push _) hh.ln n2]
      by_cases g2 : 1 < o.nN
      · refine Or.inl ⟨?_, by rw [if_pos g2]; rfl⟩
        rw [hh.ln] at g2
        simp only [oneType, decide_eq_false_iff_not]
        omega
      · refine Or.inr ⟨?_, .val v.c, .val v.n, .val v.ca, .val v.na,
          ⟨o.nbr, o.nC, o.nN, some h.length, some (h.length + 2), some (h.length + 1),
            some (h.length + 3)⟩, ?_, ⟨rfl, rfl, rfl, rfl⟩, ?_⟩
        · rw [hh.lc] at g1
          rw [hh.ln] at g2
          simp only [oneType, decide_eq_true_eq]
          omega
        · rw [if_neg g2, ok_bind]
          simp only []
          rw [copyInts_spec ((a2.push _).push _) (hh.lc.trans hh.lca.symm) n1, if_neg (lt_irrefl _),
            ok_bind]
          simp only []
          rw [copyInts_spec (((a4.push _).push _).push _) (hh.ln.trans hh.lna.symm) n2,
            if_neg (lt_irrefl _), ok_bind]
          simp only [List.length_append, List.length_singleton, Nat.add_assoc]
          rfl
        · have := holds_make h v.nbr v.c v.ca v.n v.na hh.lca hh.lna hh.bal
          rw [hh.nbr, hh.lc, hh.ln]
          exact this

theorem tildeAssign_spec {h : IntHeap} {x y : TildeObj α} {v : TildeVal α} {R : List ℕ}
    (ho : OwnsAll h (tPtrs x ++ R)) (hy : Holds h y v) (hR : ∀ q ∈ tPtrs y, q ∈ R) :
    ∃ h' x', tildeAssign h x y = .ok (h', x') ∧ OwnsAll h' (tPtrs x' ++ R) ∧
      (∀ q ∈ R, h'[q]? = h[q]?) ∧ Holds h' x' v := by
  obtain ⟨h1, e1, o1, k1⟩ := release_spec x ho
  have hy1 : Holds h1 y v := hy.congr fun q hq => k1 q (hR q hq)
  unfold tildeAssign
  rw [e1, ok_bind]
  by_cases hc : v.c = []
  · obtain ⟨c1, c2, c3⟩ := hy.eq hc
    simp only [c1, c2, ne_eq, not_true_eq_false, if_false]
    refine ⟨h1, ⟨y.nbr, 0, 0, x.pC, x.pCA, x.pN, x.pNA⟩, rfl, o1, k1, ?_⟩
    rw [c3, hy.nbr]
    exact holds_empty _ _ _ _ _ _
  · obtain ⟨n1, n2, n3⟩ := hy1.ne hc
    obtain ⟨a1, a2, a3, a4⟩ := hy1.arr hc
    obtain ⟨o4, k4⟩ := four_owns o1 (.val v.c) (.val v.ca) (.val v.n) (.val v.na)
    refine ⟨_, ⟨y.nbr, y.nC, y.nN, some h1.length, some (h1.length + 1), some (h1.length + 2),
      some (h1.length + 3)⟩, ?_, ?_, fun q hq => (k4 q hq).trans (k1 q hq), ?_⟩
    · rw [if_pos n1, copyInts_spec a1 hy1.lc n1, if_neg (lt_irrefl _), ok_bind]
      simp only []
      rw [copyInts_spec (a2.push _) (hy1.lc.trans hy1.lca.symm) n1, if_neg (lt_irrefl _), ok_bind]
      simp only [pure_bind]
      rw [if_pos n2, copyInts_spec ((a3.push _).push _) hy1.ln n2, if_neg (lt_irrefl _), ok_bind]
      simp only []
      rw [copyInts_spec (((a4.push _).push _).push _) (hy1.ln.trans hy1.lna.symm) n2,
        if_neg (lt_irrefl _), ok_bind]
      simp only [List.length_append, List.length_singleton, Nat.add_assoc]
      rfl
    · have : tPtrs (⟨y.nbr, y.nC, y.nN, some h1.length, some (h1.length + 1), some (h1.length + 2),
          some (h1.length + 3)⟩ : TildeObj α) =
          [h1.length, h1.length + 1, h1.length + 2, h1.length + 3] := by
        unfold tPtrs; rw [if_neg n1]; rfl
      rw [this]
      exact o4
    · have := holds_assign h1 v.nbr v.c v.ca v.n v.na hy1.lca hy1.lna hy1.bal
      rw [hy1.nbr, hy1.lc, hy1.ln]
      exact this

/-- A statement on objects and on values. -/
theorem tildeStep_rel (d : α) (wreck : α → α) {s : TildeState α}
    {pool : List (Option (TildeVal α))} {L : List ℕ} (hr : TRel s pool L) (op : TildeOp α)
    (hb : op.balanced) :
    (∃ e, tildeStep d wreck s op = .error e ∧
      tildeValStep d (tildeWrecked wreck) oneType pool op = .error e) ∨
    (∃ s' pool' L', tildeStep d wreck s op = .ok s' ∧
      tildeValStep d (tildeWrecked wreck) oneType pool op = .ok pool' ∧ TRel s' pool' L' ∧
      L'.length = L.length + tildeWaste pool op) := by
  cases op with
  | dflt =>
    exact Or.inr ⟨_, _, L, rfl, rfl, hr.push (by simpa [tildeDflt, tPtrs] using hr.owns)
      (fun _ _ => rfl) (holds_empty _ _ _ _ _ _), rfl⟩
  | make a c ca n na =>
    simp only [tildeStep, tildeValStep]
    by_cases hl : ca.length = c.length ∧ na.length = n.length
    · rw [if_pos hl, if_pos hl]
      obtain ⟨L', l1, r1⟩ := hr.pushFour (.val c) (.val n) (.val ca) (.val na)
        ⟨a, c.length, n.length, some s.heap.length, some (s.heap.length + 2),
          some (s.heap.length + 1), some (s.heap.length + 3)⟩ ⟨a, c, ca, n, na⟩
        ⟨rfl, rfl, rfl, rfl⟩ (holds_make _ _ _ _ _ _ hl.1 hl.2 hb)
      refine Or.inr ⟨_, _, L', rfl, rfl, ?_, l1⟩
      have e : tildeMake s.heap a c ca n na =
          (s.heap ++ [some (.val c)] ++ [some (.val n)] ++ [some (.val ca)] ++ [some (.val na)],
            ⟨a, c.length, n.length, some s.heap.length, some (s.heap.length + 2),
              some (s.heap.length + 1), some (s.heap.length + 3)⟩) := by
        simp only [tildeMake, objAlloc, List.length_append, List.length_singleton]
      rw [e]
      exact r1
    · rw [if_neg hl, if_neg hl]
      exact Or.inl ⟨_, rfl, rfl⟩
  | copy y =>
    simp only [tildeStep, tildeValStep]
    rcases hr.get y with ⟨o, v, g1, g2, g3, g4, hh⟩ | ⟨g1, g2⟩
    · rw [g1, g2, ok_bind, ok_bind]
      rcases tildeCopy_spec hh with ⟨t, e⟩ | ⟨t, b1, b2, b3, b4, o', e, hp, hh'⟩
      · refine Or.inl ⟨.outOfBounds, ?_, ?_⟩
        · rw [e]; rfl
        · rw [t]; rfl
      · obtain ⟨L', l1, r1⟩ := hr.pushFour b1 b2 b3 b4 o' v hp hh'
        refine Or.inr ⟨_, pool ++ [some v], L', ?_, ?_, r1, ?_⟩
        · rw [e]; rfl
        · rw [t]; rfl
        · rw [l1]; simp [tildeWaste, g4]
    · exact Or.inl ⟨.undefined, by rw [g1]; rfl, by rw [g2]; rfl⟩
  | assign x y =>
    simp only [tildeStep, tildeValStep]
    rcases hr.get x with ⟨o, v, g1, g2, g3, g4, hh⟩ | ⟨g1, g2⟩
    · rw [g1, g2, ok_bind, ok_bind]
      have hlt := (List.getElem?_eq_some_iff.1 g3).1
      have hsp := hr.split g3
      by_cases e : x = y
      · subst e
        rw [g1, g2, ok_bind, ok_bind]
        simp only [if_true]
        obtain ⟨h', e1, o1, k1⟩ := release_spec o hsp
        have hs : tildeSelf wreck s.heap o =
            .ok (h', ⟨wreck o.nbr, 0, 0, o.pC, o.pCA, o.pN, o.pNA⟩) := by
          unfold tildeSelf
          rw [e1, ok_bind]
          by_cases hc : v.c = []
          · obtain ⟨c1, c2, _⟩ := hh.eq hc
            simp only [c1, c2, ne_eq, not_true_eq_false, if_false]
            rfl
          · rw [if_pos (hh.ne hc).1]
            rfl
        refine Or.inr ⟨_, _, L, by rw [hs, ok_bind]; rfl, rfl, hr.setAt hlt ?_ ?_ ?_, rfl⟩
        · simpa [tPtrs] using o1
        · exact fun q hq => k1 q (List.mem_append_left _ hq)
        · show Holds _ _ _
          rw [hh.nbr]
          exact holds_empty _ _ _ _ _ _
      · simp only [if_neg e]
        rcases hr.get y with ⟨oy, vy, f1, f2, f3, f4, hhy⟩ | ⟨f1, f2⟩
        · rw [f1, f2, ok_bind, ok_bind]
          have f3' : (s.objs.set x none)[y]? = some (some oy) := by
            rw [List.getElem?_set, if_neg e]; exact f3
          obtain ⟨h', x', e1, o1, k1, hh'⟩ := tildeAssign_spec hsp hhy
            (fun q hq => List.mem_append_left _ (mem_allT f3' hq))
          refine Or.inr ⟨_, _, L, by rw [e1, ok_bind]; rfl, rfl, hr.setAt hlt ?_ ?_ ?_, rfl⟩
          · simpa using o1
          · exact fun q hq => k1 q (List.mem_append_left _ hq)
          · exact hh'
        · exact Or.inl ⟨.undefined, by rw [f1]; rfl, by rw [f2]; rfl⟩
    · exact Or.inl ⟨.undefined, by rw [g1]; rfl, by rw [g2]; rfl⟩
  | destroy x =>
    simp only [tildeStep, tildeValStep]
    rcases hr.get x with ⟨o, v, g1, g2, g3, g4, hh⟩ | ⟨g1, g2⟩
    · rw [g1, g2, ok_bind, ok_bind]
      have hlt := (List.getElem?_eq_some_iff.1 g3).1
      obtain ⟨h', e1, o1, k1⟩ := release_spec o (hr.split g3)
      have hbal : o.nC = 0 ↔ o.nN = 0 := by
        rw [hh.lc, hh.ln, List.length_eq_zero_iff, List.length_eq_zero_iff]
        exact hh.bal
      refine Or.inr ⟨_, _, L, by rw [destroy_eq_release hbal, e1, ok_bind]; rfl, rfl,
        hr.setAt (o := none) (v := none) hlt ?_ ?_ trivial, rfl⟩
      · simpa using o1
      · exact fun q hq => k1 q (List.mem_append_left _ hq)
    · exact Or.inl ⟨.undefined, by rw [g1]; rfl, by rw [g2]; rfl⟩

/-- A program on objects and on values. -/
theorem tildeRun_rel (d : α) (wreck : α → α) : ∀ (ops : List (TildeOp α)) (s : TildeState α)
    (pool : List (Option (TildeVal α))) (L : List ℕ) (w : ℕ), TRel s pool L → L.length = w →
    (∀ op ∈ ops, op.balanced) →
    (∃ e, ops.foldlM (tildeStep d wreck) s = .error e ∧
      ops.foldlM (tildeValStep d (tildeWrecked wreck) oneType) pool = .error e ∧
      ops.foldlM (fun pw op => do
        let p ← tildeValStep d (tildeWrecked wreck) oneType pw.1 op
        return (p, pw.2 + tildeWaste pw.1 op)) (pool, w) = .error e) ∨
    (∃ s' pool' L', ops.foldlM (tildeStep d wreck) s = .ok s' ∧
      ops.foldlM (tildeValStep d (tildeWrecked wreck) oneType) pool = .ok pool' ∧
      ops.foldlM (fun pw op => do
        let p ← tildeValStep d (tildeWrecked wreck) oneType pw.1 op
        return (p, pw.2 + tildeWaste pw.1 op)) (pool, w) = .ok (pool', L'.length) ∧
      TRel s' pool' L')
  | [], s, pool, L, w, hr, hw, _ => Or.inr ⟨s, pool, L, rfl, rfl, by rw [hw]; rfl, hr⟩
  | op :: ops, s, pool, L, w, hr, hw, hb => by
    simp only [List.foldlM_cons]
    rcases tildeStep_rel d wreck hr op (hb op (by simp)) with
      ⟨e, h1, h2⟩ | ⟨s', pool', L', h1, h2, h3, h4⟩
    · rw [h1, h2]
      exact Or.inl ⟨e, rfl, rfl, rfl⟩
    · rw [h1, h2]
      simp only [ok_bind]
      exact tildeRun_rel d wreck ops s' pool' L' (w + tildeWaste pool op) h3 (by rw [h4, hw])
        (fun o ho => hb o (by simp [ho]))

theorem tRel_start : TRel (⟨[], []⟩ : TildeState α) [] [] :=
  ⟨⟨by simp [allT], fun p => by simp [allT, LiveAt]⟩, fun i => by simp [RelAt]⟩

theorem TRel.live {s : TildeState α} {pool : List (Option (TildeVal α))} {L : List ℕ}
    (hr : TRel s pool L) : liveBlocks s.heap = shownInts pool + L.length := by
  rw [countP_live _ _ hr.owns, List.length_append]
  congr 1
  have key : ∀ (objs : List (Option (TildeObj α))) (pool : List (Option (TildeVal α))),
      (∀ i : ℕ, RelAt s.heap objs[i]? pool[i]?) → (allT objs).length = shownInts pool := by
    intro objs
    induction objs with
    | nil =>
      intro pool hp
      cases pool with
      | nil => rfl
      | cons v pool => have := hp 0; simp [RelAt] at this
    | cons o objs ih =>
      intro pool hp
      cases pool with
      | nil => have := hp 0; cases o <;> simp [RelAt] at this
      | cons v pool =>
        have h0 := hp 0
        have h1 := ih pool fun i => by simpa using hp (i + 1)
        have e1 : (allT (o :: objs)).length = ((o.map tPtrs).getD []).length + (allT objs).length := by
          simp [allT]
        rw [e1, h1]
        unfold shownInts
        rw [List.countP_cons]
        simp only [List.getElem?_cons_zero] at h0
        cases o with
        | none =>
          cases v with
          | none => simp
          | some v => exact absurd h0 (by simp [RelAt])
        | some o =>
          cases v with
          | none => exact absurd h0 (by simp [RelAt])
          | some v =>
            have hh : Holds s.heap o v := h0
            by_cases hc : v.c = []
            · have := (hh.eq hc).1
              simp [tPtrs, this, hc]
            · have hn := (hh.ne hc).1
              obtain ⟨⟨a1, b1, _⟩, ⟨a2, b2, _⟩, ⟨a3, b3, _⟩, ⟨a4, b4, _⟩⟩ := hh.arr hc
              have : v.c.isEmpty = false := by simpa using hc
              simp [tPtrs, hn, b1, b2, b3, b4, this]
              omega
  exact key _ _ hr.rel

/-- Without `x = x` and copies it does not matter what these do. -/
theorem tildeValRun_congr (d : α) (f g : TildeVal α → TildeVal α) (k l : TildeVal α → Bool)
    (ops : List (TildeOp α)) (h : ∀ op ∈ ops, op.notSelf) (h' : k = l ∨ ∀ op ∈ ops, op.notCopy) :
    tildeValRun d f k ops = tildeValRun d g l ops := by
  have step : ∀ pool (op : TildeOp α), op.notSelf → (k = l ∨ op.notCopy) →
      tildeValStep d f k pool op = tildeValStep d g l pool op := by
    intro pool op hop hc
    cases op with
    | assign x y =>
      have : x ≠ y := hop
      simp only [tildeValStep, if_neg this]
    | copy y =>
      rcases hc with hc | hc
      · rw [hc]; rfl
      · exact absurd hc (by simp [TildeOp.notCopy])
    | _ => rfl
  unfold tildeValRun
  generalize ([] : List (Option (TildeVal α))) = pool
  induction ops generalizing pool with
  | nil => rfl
  | cons op ops ih =>
    rw [List.foldlM_cons, List.foldlM_cons, step pool op (h op (by simp))
      (h'.imp id fun h => h op (by simp))]
    congr 1
    funext p
    exact ih (fun o ho => h o (List.mem_cons_of_mem _ ho))
      (h'.imp id fun h o ho => h o (List.mem_cons_of_mem _ ho)) p

end MaterSDK
