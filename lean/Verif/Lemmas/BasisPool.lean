import Verif.Spec.BasisHeap
import Verif.Lemmas.StructObj

/-!
# Programs with objects which own blocks

If the single operations of a class keep track of the blocks an object owns, then whole programs see
values.  This file is about any class; `Lemmas/BasisHeap` proves the single operations of the four
classes.
-/

namespace MaterSDK

variable {O α γ δ : Type}

/-- The single operations of a class, for objects which own the blocks `own` and have the value of
`inv`.  `L` are blocks an operation loses; none if `exact`. -/
structure ClassOK (C : BasisClass O α γ δ) (z : α) (zero : γ) (B : BasisRule α γ δ)
    (g : BasisGuard) (exact : Bool) (need : ℕ) where
  own : O → List ℕ
  inv : RowHeap γ → O → BasisVal α γ → Prop
  inv_congr : ∀ {h h' : RowHeap γ} {o v}, (∀ q ∈ own o, h'[q]? = h[q]?) → inv h o v → inv h' o v
  see : ∀ {h : RowHeap γ} {o v}, inv h o v → C.see h o = .ok v
  count : ∀ {h : RowHeap γ} {o v}, exact = true → inv h o v →
    (own o).length = if v.rows.isEmpty then 0 else need
  dflt : g.dflt = true → own C.dflt = [] ∧ ∀ h, inv h C.dflt ⟨z, []⟩
  make : ∀ {h : RowHeap γ} {R : List ℕ} (a n), (g.make0 || n != 0) = true → OwnsAll h R →
    ∃ h' o, C.make h a n = .ok (h', o) ∧ OwnsAll h' (own o ++ R) ∧ (∀ q ∈ R, h'[q]? = h[q]?) ∧
      inv h' o ⟨a, List.replicate n zero⟩
  copy : ∀ {h : RowHeap γ} {R : List ℕ} {y v}, (g.copy0 || !v.rows.isEmpty) = true →
    OwnsAll h R → (∀ q ∈ own y, q ∈ R) → inv h y v →
    ∃ h' o, C.copy h y = .ok (h', o) ∧ OwnsAll h' (own o ++ R) ∧ (∀ q ∈ R, h'[q]? = h[q]?) ∧
      inv h' o v
  move : ∀ {h : RowHeap γ} {R : List ℕ} {y v}, (g.move0 || !v.rows.isEmpty) = true →
    OwnsAll h (own y ++ R) → inv h y v →
    ∃ h' o y' L, C.move h y = .ok (h', o, y') ∧ OwnsAll h' (own o ++ (own y' ++ (L ++ R))) ∧
      (∀ q ∈ R, h'[q]? = h[q]?) ∧ inv h' o v ∧ inv h' y' ⟨z, []⟩ ∧ (exact = true → L = [])
  assign : ∀ {h : RowHeap γ} {R : List ℕ} {x y u v},
    ((if u.rows.isEmpty then g.assign00 else g.assign0) || !v.rows.isEmpty) = true →
    OwnsAll h (own x ++ R) → (∀ q ∈ own y, q ∈ R) → inv h x u → inv h y v →
    ∃ h' x' L, C.assign h x y = .ok (h', x') ∧ OwnsAll h' (own x' ++ (L ++ R)) ∧
      (∀ q ∈ R, h'[q]? = h[q]?) ∧ inv h' x' v ∧ (exact = true → L = [])
  moveAssign : ∀ {h : RowHeap γ} {R : List ℕ} {x y u v}, (g.move0 || !v.rows.isEmpty) = true →
    OwnsAll h (own x ++ (own y ++ R)) → inv h x u → inv h y v →
    ∃ h' x' y' L, C.moveAssign h x y = .ok (h', x', y') ∧
      OwnsAll h' (own x' ++ (own y' ++ (L ++ R))) ∧ (∀ q ∈ R, h'[q]? = h[q]?) ∧
      inv h' x' v ∧ inv h' y' ⟨z, []⟩ ∧ (exact = true → L = [])
  build : ∀ {h : RowHeap γ} {R : List ℕ} {x v} (d), (g.build0 || !v.rows.isEmpty) = true →
    OwnsAll h (own x ++ R) → inv h x v →
    if B.dom v.par d = true then
      ∃ h', C.build h x d = .ok h' ∧ OwnsAll h' (own x ++ R) ∧ (∀ q ∈ R, h'[q]? = h[q]?) ∧
        inv h' x ⟨v.par, (List.range v.rows.length).map (B.row v.par d)⟩
    else C.build h x d = .error .assertFail
  destroy : ∀ {h : RowHeap γ} {R : List ℕ} {x v}, OwnsAll h (own x ++ R) → inv h x v →
    ∃ h', C.destroy h x = .ok h' ∧ OwnsAll h' R ∧ ∀ q ∈ R, h'[q]? = h[q]?

namespace ClassOK

variable {C : BasisClass O α γ δ} {z : α} {zero : γ} {B : BasisRule α γ δ} {g : BasisGuard}
  {exact : Bool} {need : ℕ} (K : ClassOK C z zero B g exact need)

/-- All blocks the living objects own. -/
def all (objs : List (Option O)) : List ℕ := objs.flatMap fun o => (o.map K.own).getD []

theorem all_set : ∀ (objs : List (Option O)) (x : ℕ) (o : Option O),
    objs[x]? = some o → (K.all objs).Perm ((o.map K.own).getD [] ++ K.all (objs.set x none))
  | [], x, o, h => by simp at h
  | a :: objs, 0, o, h => by
    obtain rfl : a = o := by simpa using h
    simp [all]
  | a :: objs, x + 1, o, h => by
    have := all_set objs x o (by simpa using h)
    have h2 : (K.all (a :: objs)) = (a.map K.own).getD [] ++ K.all objs := rfl
    have h3 : (K.all ((a :: objs).set (x + 1) none)) =
      (a.map K.own).getD [] ++ K.all (objs.set x none) := rfl
    rw [h2, h3]
    refine (List.Perm.append_left _ this).trans ?_
    rw [← List.append_assoc, ← List.append_assoc]
    exact List.Perm.append_right _ List.perm_append_comm

theorem mem_all {objs : List (Option O)} {i : ℕ} {o : O} (h : objs[i]? = some (some o)) {p : ℕ}
    (hp : p ∈ K.own o) : p ∈ K.all objs :=
  List.mem_flatMap.2 ⟨some o, List.mem_of_getElem? h, by simpa using hp⟩

/-- One object and its value, or both gone. -/
def at' (h : RowHeap γ) : Option (Option O) → Option (Option (BasisVal α γ)) → Prop
  | none, none => True
  | some none, some none => True
  | some (some o), some (some v) => K.inv h o v
  | _, _ => False

/-- A state and the values of its objects; `L` are blocks which nobody will free. -/
structure Rel (s : BasisState O γ) (pool : List (Option (BasisVal α γ))) (L : List ℕ) : Prop where
  owns : OwnsAll s.heap (K.all s.objs ++ L)
  rel : ∀ i : ℕ, K.at' s.heap s.objs[i]? pool[i]?

variable {K}

theorem Rel.length {s : BasisState O γ} {pool : List (Option (BasisVal α γ))} {L : List ℕ}
    (hr : K.Rel s pool L) : s.objs.length = pool.length := by
  rcases Nat.lt_trichotomy s.objs.length pool.length with h | h | h
  · have := hr.rel s.objs.length
    rw [List.getElem?_eq_none (Nat.le_refl _), List.getElem?_eq_getElem h] at this
    simp [at'] at this
  · exact h
  · have := hr.rel pool.length
    rw [List.getElem?_eq_none (l := pool) (Nat.le_refl _), List.getElem?_eq_getElem h] at this
    cases h' : s.objs[pool.length] <;> simp [at', h'] at this

theorem at_congr {h h' : RowHeap γ} {o : Option (Option O)} {v : Option (Option (BasisVal α γ))}
    (hr : K.at' h o v) (he : ∀ x, o = some (some x) → ∀ q ∈ K.own x, h'[q]? = h[q]?) :
    K.at' h' o v := by
  match o, v, hr with
  | none, none, _ => trivial
  | some none, some none, _ => trivial
  | some (some o), some (some v), hr => exact K.inv_congr (he o rfl) hr

theorem Rel.get {s : BasisState O γ} {pool : List (Option (BasisVal α γ))} {L : List ℕ}
    (hr : K.Rel s pool L) (x : ℕ) :
    (∃ o v, objGet s.objs x = .ok o ∧ basisGet pool x = .ok v ∧ s.objs[x]? = some (some o) ∧
      pool[x]? = some (some v) ∧ K.inv s.heap o v) ∨
    (objGet s.objs x = .error .undefined ∧ basisGet pool x = .error .undefined) := by
  have := hr.rel x
  unfold objGet basisGet
  match h1 : s.objs[x]?, h2 : pool[x]? with
  | none, none => exact Or.inr ⟨rfl, rfl⟩
  | some none, some none => exact Or.inr ⟨rfl, rfl⟩
  | some (some o), some (some v) =>
    rw [h1, h2] at this
    exact Or.inl ⟨o, v, rfl, rfl, rfl, rfl, this⟩
  | none, some _ => rw [h1, h2] at this; exact absurd this (by simp [at'])
  | some none, none => rw [h1, h2] at this; exact absurd this (by simp [at'])
  | some (some _), none => rw [h1, h2] at this; exact absurd this (by simp [at'])
  | some none, some (some _) => rw [h1, h2] at this; exact absurd this (by simp [at'])
  | some (some _), some none => rw [h1, h2] at this; exact absurd this (by simp [at'])

theorem Rel.split {s : BasisState O γ} {pool : List (Option (BasisVal α γ))} {L : List ℕ}
    (hr : K.Rel s pool L) {x : ℕ} {o : O} (hx : s.objs[x]? = some (some o)) :
    OwnsAll s.heap (K.own o ++ (K.all (s.objs.set x none) ++ L)) := by
  refine OwnsAll.perm ?_ hr.owns
  rw [← List.append_assoc]
  exact List.Perm.append_right _ (K.all_set s.objs x _ hx)

theorem Rel.split2 {s : BasisState O γ} {pool : List (Option (BasisVal α γ))} {L : List ℕ}
    (hr : K.Rel s pool L) {x y : ℕ} {o p : O} (hxy : x ≠ y) (hx : s.objs[x]? = some (some o))
    (hy : s.objs[y]? = some (some p)) :
    OwnsAll s.heap (K.own o ++ (K.own p ++ (K.all ((s.objs.set x none).set y none) ++ L))) := by
  refine OwnsAll.perm ?_ (hr.split hx)
  refine List.Perm.append_left _ ?_
  rw [← List.append_assoc]
  exact List.Perm.append_right _ (K.all_set (s.objs.set x none) y (some p)
    (by rw [List.getElem?_set, if_neg hxy]; exact hy))

theorem Rel.push {s : BasisState O γ} {pool : List (Option (BasisVal α γ))} {L L' : List ℕ}
    (hr : K.Rel s pool L) {h' : RowHeap γ} {o : O} {v : BasisVal α γ}
    (ho : OwnsAll h' (K.own o ++ (K.all s.objs ++ L')))
    (hk : ∀ q ∈ K.all s.objs, h'[q]? = s.heap[q]?) (hh : K.inv h' o v) :
    K.Rel ⟨h', s.objs ++ [some o]⟩ (pool ++ [some v]) L' := by
  refine ⟨?_, fun i => ?_⟩
  · refine OwnsAll.perm ?_ ho
    have : K.all (s.objs ++ [some o]) = K.all s.objs ++ K.own o := by simp [all]
    show (K.own o ++ (K.all s.objs ++ L')).Perm (K.all (s.objs ++ [some o]) ++ L')
    rw [this, ← List.append_assoc]
    exact List.Perm.append_right _ List.perm_append_comm
  · have hl := hr.length
    show K.at' h' (s.objs ++ [some o])[i]? (pool ++ [some v])[i]?
    rcases Nat.lt_trichotomy i s.objs.length with hi | hi | hi
    · rw [List.getElem?_append_left hi, List.getElem?_append_left (hl ▸ hi)]
      exact at_congr (hr.rel i) fun x hx q hq => hk q (K.mem_all hx hq)
    · subst hi
      have : (pool ++ [some v])[s.objs.length]? = some (some v) := by rw [hl]; simp
      rw [this]
      simpa [at'] using hh
    · have e1 : (s.objs ++ [some o])[i]? = none := by simp; omega
      have e2 : (pool ++ [some v])[i]? = none := by simp; omega
      rw [e1, e2]
      trivial

theorem Rel.setAt {s : BasisState O γ} {pool : List (Option (BasisVal α γ))} {L L' : List ℕ}
    (hr : K.Rel s pool L) {x : ℕ} (hx : x < s.objs.length) {h' : RowHeap γ}
    {o : Option O} {v : Option (BasisVal α γ)}
    (ho : OwnsAll h' ((o.map K.own).getD [] ++ (K.all (s.objs.set x none) ++ L')))
    (hk : ∀ q ∈ K.all (s.objs.set x none), h'[q]? = s.heap[q]?)
    (hh : K.at' h' (some o) (some v)) :
    K.Rel ⟨h', s.objs.set x o⟩ (pool.set x v) L' := by
  refine ⟨?_, fun i => ?_⟩
  · refine OwnsAll.perm ?_ ho
    have := K.all_set (s.objs.set x o) x o (by simp [hx])
    rw [List.set_set] at this
    rw [← List.append_assoc]
    exact (List.Perm.append_right _ this).symm
  · show K.at' h' (s.objs.set x o)[i]? (pool.set x v)[i]?
    by_cases e : x = i
    · subst e
      have e1 : (s.objs.set x o)[x]? = some o := by simp [hx]
      have e2 : (pool.set x v)[x]? = some v := by simp [hr.length ▸ hx]
      rw [e1, e2]
      exact hh
    · rw [List.getElem?_set, if_neg e, List.getElem?_set, if_neg e]
      exact at_congr (hr.rel i) fun y hy q hq => hk q (K.mem_all (i := i) (by
        rw [List.getElem?_set, if_neg e]; exact hy) hq)

theorem Rel.setTwo {s : BasisState O γ} {pool : List (Option (BasisVal α γ))} {L L' : List ℕ}
    (hr : K.Rel s pool L) {x y : ℕ} (hxy : x ≠ y) (hx : x < s.objs.length)
    (hy : y < s.objs.length) {h' : RowHeap γ} {o p : O} {v w : BasisVal α γ}
    (ho : OwnsAll h' (K.own o ++ (K.own p ++ (K.all ((s.objs.set x none).set y none) ++ L'))))
    (hk : ∀ q ∈ K.all ((s.objs.set x none).set y none), h'[q]? = s.heap[q]?)
    (h1 : K.inv h' o v) (h2 : K.inv h' p w) :
    K.Rel ⟨h', (s.objs.set x (some o)).set y (some p)⟩ ((pool.set x (some v)).set y (some w)) L' := by
  have lx : x < pool.length := hr.length ▸ hx
  have ly : y < pool.length := hr.length ▸ hy
  refine ⟨?_, fun i => ?_⟩
  · refine OwnsAll.perm ?_ ho
    set T := (s.objs.set x (some o)).set y (some p) with hT
    have gx : T[x]? = some (some o) := by
      rw [hT, List.getElem?_set, if_neg (fun e => hxy e.symm)]; simp [hx]
    have a1 := K.all_set T x (some o) gx
    have gy : (T.set x none)[y]? = some (some p) := by
      rw [List.getElem?_set, if_neg hxy, hT]; simp [hy]
    have a2 := K.all_set (T.set x none) y (some p) gy
    have e : (T.set x none).set y none = (s.objs.set x none).set y none := by
      apply List.ext_getElem?
      intro i
      simp only [hT, List.getElem?_set, List.length_set]
      by_cases i1 : y = i
      · simp only [i1, if_true]
      · simp only [if_neg i1]
        by_cases i2 : x = i
        · simp only [i2, if_true]
        · simp only [if_neg i2]
    rw [e] at a2
    have a3 := a1.trans (List.Perm.append_left _ a2)
    have a4 := List.Perm.append_right L' a3
    simp only [Option.map_some, Option.getD_some, List.append_assoc] at a4
    exact a4.symm
  · show K.at' h' ((s.objs.set x (some o)).set y (some p))[i]?
      ((pool.set x (some v)).set y (some w))[i]?
    by_cases i1 : y = i
    · subst i1
      have e1 : ((s.objs.set x (some o)).set y (some p))[y]? = some (some p) := by simp [hy]
      have e2 : ((pool.set x (some v)).set y (some w))[y]? = some (some w) := by simp [ly]
      rw [e1, e2]; exact h2
    · rw [List.getElem?_set, if_neg i1, List.getElem?_set (l := pool.set x (some v)), if_neg i1]
      by_cases i2 : x = i
      · subst i2
        have e1 : (s.objs.set x (some o))[x]? = some (some o) := by simp [hx]
        have e2 : (pool.set x (some v))[x]? = some (some v) := by simp [lx]
        rw [e1, e2]; exact h1
      · rw [List.getElem?_set, if_neg i2, List.getElem?_set (l := pool), if_neg i2]
        exact at_congr (hr.rel i) fun a ha q hq => hk q (K.mem_all (i := i) (by
          rw [List.getElem?_set, if_neg i1, List.getElem?_set, if_neg i2]; exact ha) hq)

theorem Rel.view {s : BasisState O γ} {pool : List (Option (BasisVal α γ))} {L : List ℕ}
    (hr : K.Rel s pool L) : s.view C = pool.map (Option.map .ok) := by
  unfold BasisState.view
  apply List.ext_getElem?
  intro i
  rw [List.getElem?_map, List.getElem?_map]
  have := hr.rel i
  match h1 : s.objs[i]?, h2 : pool[i]? with
  | none, none => rfl
  | some none, some none => rfl
  | some (some o), some (some v) =>
    rw [h1, h2] at this
    simp [K.see this]
  | none, some _ => rw [h1, h2] at this; exact absurd this (by simp [at'])
  | some none, none => rw [h1, h2] at this; exact absurd this (by simp [at'])
  | some (some _), none => rw [h1, h2] at this; exact absurd this (by simp [at'])
  | some none, some (some _) => rw [h1, h2] at this; exact absurd this (by simp [at'])
  | some (some _), some none => rw [h1, h2] at this; exact absurd this (by simp [at'])

theorem lt_of_get {τ : Type} {l : List τ} {x : ℕ} {a : τ} (h : l[x]? = some a) : x < l.length :=
  (List.getElem?_eq_some_iff.1 h).1

theorem noRows_get {pool : List (Option (BasisVal α γ))} {x : ℕ} {v : BasisVal α γ}
    (h : pool[x]? = some (some v)) : noRows pool x = v.rows.isEmpty := by
  simp [noRows, h]

/-- What one statement does. -/
theorem step_rel {s : BasisState O γ} {pool : List (Option (BasisVal α γ))} {L : List ℕ}
    (hr : K.Rel s pool L) (op : BasisOp α δ) (hg : basisAllowed g pool op = true) :
    (∃ e, basisStep C s op = .error e ∧ basisValStep z zero B pool op = .error e) ∨
    (∃ s' pool' L', basisStep C s op = .ok s' ∧ basisValStep z zero B pool op = .ok pool' ∧
      K.Rel s' pool' L' ∧ (exact = true → L = [] → L' = [])) := by
  cases op with
  | dflt =>
    obtain ⟨h1, h2⟩ := K.dflt hg
    exact Or.inr ⟨_, _, L, rfl, rfl,
      hr.push (by rw [h1]; exact hr.owns) (fun _ _ => rfl) (h2 _), fun _ h => h⟩
  | make a n =>
    obtain ⟨h', o, e1, o1, k1, i1⟩ := K.make a n hg hr.owns
    refine Or.inr ⟨_, _, L, by simp only [basisStep, e1, ok_bind]; rfl, rfl,
      hr.push o1 (fun q hq => k1 q (by simp [hq])) i1, fun _ h => h⟩
  | copy y =>
    rcases hr.get y with ⟨o, v, g1, g2, g3, g4, i⟩ | ⟨g1, g2⟩
    · have hg' : (g.copy0 || !v.rows.isEmpty) = true := by
        simpa [basisAllowed, noRows_get g4] using hg
      obtain ⟨h', o', e1, o1, k1, i1⟩ := K.copy hg' hr.owns
        (fun q hq => by simp [K.mem_all g3 hq]) i
      refine Or.inr ⟨_, _, L, by simp only [basisStep, g1, e1, ok_bind]; rfl,
        by simp only [basisValStep, g2, ok_bind]; rfl,
        hr.push o1 (fun q hq => k1 q (by simp [hq])) i1, fun _ h => h⟩
    · exact Or.inl ⟨.undefined, by simp only [basisStep, g1]; rfl,
        by simp only [basisValStep, g2]; rfl⟩
  | move y =>
    rcases hr.get y with ⟨o, v, g1, g2, g3, g4, i⟩ | ⟨g1, g2⟩
    · have hg' : (g.move0 || !v.rows.isEmpty) = true := by
        simpa [basisAllowed, noRows_get g4] using hg
      obtain ⟨h', o', y', M, e1, o1, k1, i1, i2, hM⟩ := K.move hg' (hr.split g3) i
      refine Or.inr ⟨_, _, M ++ L, by simp only [basisStep, g1, e1, ok_bind]; rfl,
        by simp only [basisValStep, g2, ok_bind]; rfl, ?_, fun he hL => by simp [hM he, hL]⟩
      have r1 : K.Rel ⟨h', s.objs.set y (some y')⟩ (pool.set y (some ⟨z, []⟩)) (K.own o' ++ (M ++ L)) := by
        refine hr.setAt (lt_of_get g3) (o := some y') ?_ (fun q hq => k1 q (by simp [hq])) i2
        refine OwnsAll.perm ?_ o1
        simp only [Option.map_some, Option.getD_some]
        exact List.perm_iff_count.2 fun a => by simp only [List.count_append]; omega
      refine r1.push (s := ⟨h', s.objs.set y (some y')⟩) ?_ (fun _ _ => rfl) i1
      refine OwnsAll.perm ?_ r1.owns
      exact List.perm_append_comm_assoc _ _ _
    · exact Or.inl ⟨.undefined, by simp only [basisStep, g1]; rfl,
        by simp only [basisValStep, g2]; rfl⟩
  | assign x y =>
    simp only [basisAllowed, Bool.and_eq_true, bne_iff_ne, ne_eq] at hg
    obtain ⟨hxy, hg⟩ := hg
    rcases hr.get x with ⟨o, u, g1, g2, g3, g4, i⟩ | ⟨g1, g2⟩
    · rcases hr.get y with ⟨p, v, f1, f2, f3, f4, j⟩ | ⟨f1, f2⟩
      · rw [noRows_get g4, noRows_get f4] at hg
        obtain ⟨h', x', M, e1, o1, k1, i1, hM⟩ := K.assign hg (hr.split g3)
          (fun q hq => by
            have : (s.objs.set x none)[y]? = some (some p) := by
              rw [List.getElem?_set, if_neg hxy]; exact f3
            simp [K.mem_all this hq]) i j
        refine Or.inr ⟨_, _, M ++ L, by simp only [basisStep, g1, f1, if_neg hxy, e1, ok_bind]; rfl,
          by simp only [basisValStep, g2, f2, ok_bind]; rfl, ?_, fun he hL => by simp [hM he, hL]⟩
        refine hr.setAt (lt_of_get g3) (o := some x') ?_ (fun q hq => k1 q (by simp [hq])) i1
        refine OwnsAll.perm ?_ o1
        simp only [Option.map_some, Option.getD_some]
        exact List.Perm.append_left _ (List.perm_append_comm_assoc _ _ _)
      · exact Or.inl ⟨.undefined, by simp only [basisStep, g1, f1, ok_bind]; rfl,
          by simp only [basisValStep, g2, f2, ok_bind]; rfl⟩
    · exact Or.inl ⟨.undefined, by simp only [basisStep, g1]; rfl,
        by simp only [basisValStep, g2]; rfl⟩
  | moveAssign x y =>
    rcases hr.get x with ⟨o, u, g1, g2, g3, g4, i⟩ | ⟨g1, g2⟩
    · rcases hr.get y with ⟨p, v, f1, f2, f3, f4, j⟩ | ⟨f1, f2⟩
      · by_cases hxy : x = y
        · exact Or.inr ⟨s, pool, L, by simp only [basisStep, g1, f1, ok_bind, if_pos hxy]; rfl,
            by simp only [basisValStep, g2, f2, ok_bind, if_pos hxy]; rfl, hr, fun _ h => h⟩
        · have hg' : (g.move0 || !v.rows.isEmpty) = true := by
            simpa [basisAllowed, noRows_get f4] using hg
          obtain ⟨h', x', y', M, e1, o1, k1, i1, i2, hM⟩ := K.moveAssign hg' (hr.split2 hxy g3 f3) i j
          refine Or.inr ⟨_, _, M ++ L, by simp only [basisStep, g1, f1, if_neg hxy, e1, ok_bind]; rfl,
            by simp only [basisValStep, g2, f2, ok_bind, if_neg hxy]; rfl, ?_,
            fun he hL => by simp [hM he, hL]⟩
          refine hr.setTwo hxy (lt_of_get g3) (lt_of_get f3) ?_ (fun q hq => k1 q (by simp [hq])) i1 i2
          refine OwnsAll.perm ?_ o1
          exact List.Perm.append_left _ (List.Perm.append_left _ (List.perm_append_comm_assoc _ _ _))
      · exact Or.inl ⟨.undefined, by simp only [basisStep, g1, f1, ok_bind]; rfl,
          by simp only [basisValStep, g2, f2, ok_bind]; rfl⟩
    · exact Or.inl ⟨.undefined, by simp only [basisStep, g1]; rfl,
        by simp only [basisValStep, g2]; rfl⟩
  | build x d =>
    rcases hr.get x with ⟨o, v, g1, g2, g3, g4, i⟩ | ⟨g1, g2⟩
    · have hg' : (g.build0 || !v.rows.isEmpty) = true := by
        simpa [basisAllowed, noRows_get g4] using hg
      have hb := K.build d hg' (hr.split g3) i
      by_cases hd : B.dom v.par d = true
      · rw [if_pos hd] at hb
        obtain ⟨h', e1, o1, k1, i1⟩ := hb
        refine Or.inr ⟨_, _, L, by simp only [basisStep, g1, e1, ok_bind]; rfl,
          by simp only [basisValStep, g2, ok_bind, if_pos hd]; rfl, ?_, fun _ h => h⟩
        have := hr.setAt (lt_of_get g3) (o := some o) (v := some _) o1
          (fun q hq => k1 q (by simp [hq])) i1
        rwa [set_same g3] at this
      · rw [if_neg hd] at hb
        exact Or.inl ⟨.assertFail, by simp only [basisStep, g1, hb, ok_bind]; rfl,
          by simp only [basisValStep, g2, ok_bind, if_neg hd]⟩
    · exact Or.inl ⟨.undefined, by simp only [basisStep, g1]; rfl,
        by simp only [basisValStep, g2]; rfl⟩
  | destroy x =>
    rcases hr.get x with ⟨o, v, g1, g2, g3, g4, i⟩ | ⟨g1, g2⟩
    · obtain ⟨h', e1, o1, k1⟩ := K.destroy (hr.split g3) i
      refine Or.inr ⟨_, _, L, by simp only [basisStep, g1, e1, ok_bind]; rfl,
        by simp only [basisValStep, g2, ok_bind]; rfl, ?_, fun _ h => h⟩
      exact hr.setAt (lt_of_get g3) (o := none) (v := none) (by simpa using o1)
        (fun q hq => k1 q (by simp [hq])) trivial
    · exact Or.inl ⟨.undefined, by simp only [basisStep, g1]; rfl,
        by simp only [basisValStep, g2]; rfl⟩

theorem run_rel (K : ClassOK C z zero B g exact need) : ∀ (ops : List (BasisOp α δ))
    (s : BasisState O γ) (pool : List (Option (BasisVal α γ))) (L : List ℕ), K.Rel s pool L →
    basisAvoids z zero B g pool ops →
    (∃ e, ops.foldlM (basisStep C) s = .error e ∧
      ops.foldlM (basisValStep z zero B) pool = .error e) ∨
    (∃ s' pool' L', ops.foldlM (basisStep C) s = .ok s' ∧
      ops.foldlM (basisValStep z zero B) pool = .ok pool' ∧ K.Rel s' pool' L' ∧
      (exact = true → L = [] → L' = []))
  | [], s, pool, L, hr, _ => Or.inr ⟨s, pool, L, rfl, rfl, hr, fun _ h => h⟩
  | op :: ops, s, pool, L, hr, ha => by
    obtain ⟨ha1, ha2⟩ := ha
    simp only [List.foldlM_cons]
    rcases step_rel hr op ha1 with ⟨e, h1, h2⟩ | ⟨s1, p1, L1, h1, h2, h3, h4⟩
    · exact Or.inl ⟨e, by rw [h1]; rfl, by rw [h2]; rfl⟩
    · rw [h1, h2, ok_bind, ok_bind]
      rcases run_rel K ops s1 p1 L1 h3 (ha2 p1 h2) with h | ⟨s2, p2, L2, f1, f2, f3, f4⟩
      · exact Or.inl h
      · exact Or.inr ⟨s2, p2, L2, f1, f2, f3, fun he hL => f4 he (h4 he hL)⟩

theorem rel_start (K : ClassOK C z zero B g exact need) :
    K.Rel (⟨[], []⟩ : BasisState O γ) [] [] :=
  ⟨⟨by simp [all], fun p => by simp [all, LiveAt]⟩, fun i => by simp [at']⟩

/-- A program sees values. -/
theorem run_view (K : ClassOK C z zero B g exact need) (ops : List (BasisOp α δ))
    (ha : basisAvoids z zero B g [] ops) :
    (basisRun C ops).map (BasisState.view C) =
      (basisValRun z zero B ops).map (fun pool => pool.map (Option.map .ok)) := by
  unfold basisRun basisValRun
  rcases K.run_rel ops _ _ [] K.rel_start ha with ⟨e, h1, h2⟩ | ⟨s, p, L, h1, h2, h3, _⟩
  · rw [h1, h2]; rfl
  · rw [h1, h2]
    simp only [Except.map, h3.view]

theorem Rel.live {s : BasisState O γ} {pool : List (Option (BasisVal α γ))} {L : List ℕ}
    (hr : K.Rel s pool L) (he : exact = true) :
    liveBlocks s.heap = need * withRows pool + L.length := by
  rw [countP_live _ _ hr.owns, List.length_append]
  congr 1
  have key : ∀ (objs : List (Option O)) (pool : List (Option (BasisVal α γ))),
      (∀ i : ℕ, K.at' s.heap objs[i]? pool[i]?) → (K.all objs).length = need * withRows pool := by
    intro objs
    induction objs with
    | nil =>
      intro pool hp
      cases pool with
      | nil => simp [all, withRows]
      | cons v pool => have := hp 0; simp [at'] at this
    | cons o objs ih =>
      intro pool hp
      cases pool with
      | nil => have := hp 0; cases o <;> simp [at'] at this
      | cons v pool =>
        have h0 := hp 0
        have h1 := ih pool fun i => by simpa using hp (i + 1)
        have e1 : (K.all (o :: objs)).length = ((o.map K.own).getD []).length + (K.all objs).length := by
          simp [all]
        rw [e1, h1]
        unfold withRows
        rw [List.countP_cons]
        simp only [List.getElem?_cons_zero] at h0
        cases o with
        | none =>
          cases v with
          | none => simp
          | some v => exact absurd h0 (by simp [at'])
        | some o =>
          cases v with
          | none => exact absurd h0 (by simp [at'])
          | some v =>
            have hh : K.inv s.heap o v := h0
            simp only [Option.map_some, Option.getD_some, K.count he hh, Option.any_some]
            by_cases hv : v.rows = []
            · simp [hv]
            · have : v.rows.isEmpty = false := by simpa using hv
              simp only [this, Bool.not_false, if_true, Nat.mul_add, Nat.mul_one,
                Bool.false_eq_true, if_false]
              omega
  exact key _ _ hr.rel

/-- No block is lost. -/
theorem run_live (K : ClassOK C z zero B g exact need) (he : exact = true)
    (ops : List (BasisOp α δ)) (ha : basisAvoids z zero B g [] ops) (s : BasisState O γ)
    (hs : basisRun C ops = .ok s) :
    ∃ pool, basisValRun z zero B ops = .ok pool ∧ liveBlocks s.heap = need * withRows pool := by
  unfold basisRun at hs
  unfold basisValRun
  rcases K.run_rel ops _ _ [] K.rel_start ha with ⟨e, h1, h2⟩ | ⟨s', p, L, h1, h2, h3, h4⟩
  · rw [h1] at hs; cases hs
  · rw [h1] at hs
    cases hs
    refine ⟨p, h2, ?_⟩
    rw [h3.live he, h4 he rfl]
    simp

end ClassOK

end MaterSDK
