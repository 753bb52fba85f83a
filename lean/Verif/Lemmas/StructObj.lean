import Verif.Spec.StructObj
import Verif.Lemmas.Except
import Mathlib.Data.List.Perm.Basic
import Mathlib.Data.List.Perm.Lattice
import Mathlib.Data.List.Nodup

/-!
# The heap of the neighbour list objects: ownership
-/

namespace MaterSDK

variable {α β : Type}

/-- A block which is allocated. -/
def LiveAt (h : ObjHeap β) (p : ℕ) : Prop := ∃ c, h[p]? = some (some c)

/-- The blocks in `l` are the allocated ones, each listed once. -/
def OwnsAll (h : ObjHeap β) (l : List ℕ) : Prop := l.Nodup ∧ ∀ p, p ∈ l ↔ LiveAt h p

/-- The addresses an object holds. -/
def ptrs (l : List (Lvl α)) : List ℕ := l.filterMap (fun x => x.own)

theorem OwnsAll.perm {h : ObjHeap β} {l l' : List ℕ} (hp : l.Perm l') (ho : OwnsAll h l) : OwnsAll h l' :=
  ⟨hp.nodup_iff.1 ho.1, fun p => by rw [← ho.2 p]; exact hp.mem_iff.symm⟩

theorem owns_free {h : ObjHeap β} {p : ℕ} {R : List ℕ} (ho : OwnsAll h (p :: R)) :
    ∃ h', objFree h p = .ok h' ∧ OwnsAll h' R ∧ ∀ q ∈ R, h'[q]? = h[q]? := by
  obtain ⟨c, hc⟩ := (ho.2 p).1 (by simp)
  have hn := List.nodup_cons.1 ho.1
  refine ⟨h.set p none, by simp [objFree, hc], ⟨hn.2, ?_⟩, ?_⟩
  · intro q
    have hq := ho.2 q
    by_cases e : q = p
    · subst e
      constructor
      · intro hm; exact absurd hm hn.1
      · rintro ⟨c', hc'⟩
        rw [List.getElem?_set] at hc'
        simp only [if_true] at hc'
        split at hc' <;> simp at hc'
    · simp only [List.mem_cons, e, false_or] at hq
      rw [hq]
      unfold LiveAt
      rw [List.getElem?_set, if_neg (fun h => e h.symm)]
  · intro q hq
    have : p ≠ q := by rintro rfl; exact hn.1 hq
    rw [List.getElem?_set, if_neg this]

theorem owns_alloc {h : ObjHeap β} {R : List ℕ} (c : Block β) (ho : OwnsAll h R) :
    OwnsAll (h ++ [some c]) (h.length :: R) ∧ (∀ q ∈ R, (h ++ [some c])[q]? = h[q]?) ∧
      (h ++ [some c])[h.length]? = some (some c) := by
  have hlt : ∀ q ∈ R, q < h.length := by
    intro q hq
    obtain ⟨c', hc'⟩ := (ho.2 q).1 hq
    exact (List.getElem?_eq_some_iff.1 hc').1
  refine ⟨⟨List.nodup_cons.2 ⟨fun hm => lt_irrefl _ (hlt _ hm), ho.1⟩, ?_⟩, ?_, by simp⟩
  · intro p
    rw [List.mem_cons, ho.2 p]
    unfold LiveAt
    rcases lt_trichotomy p h.length with hp | hp | hp
    · rw [List.getElem?_append_left hp]
      constructor
      · rintro (h1 | h1)
        · omega
        · exact h1
      · exact Or.inr
    · subst hp; simp
    · have h1 : (h ++ [some c])[p]? = none := by simp; omega
      have h2 : h[p]? = none := by simp; omega
      rw [h1, h2]
      simp
      omega
  · intro q hq
    rw [List.getElem?_append_left (hlt q hq)]

theorem owns_write {h : ObjHeap β} {p : ℕ} {R : List ℕ} (c : Block β) (ho : OwnsAll h (p :: R)) :
    objWrite h p c = .ok (h.set p (some c)) ∧ OwnsAll (h.set p (some c)) (p :: R) ∧
      (∀ q ∈ R, (h.set p (some c))[q]? = h[q]?) ∧ (h.set p (some c))[p]? = some (some c) := by
  obtain ⟨c0, hc⟩ := (ho.2 p).1 (by simp)
  have hn := List.nodup_cons.1 ho.1
  have hlt := (List.getElem?_eq_some_iff.1 hc).1
  refine ⟨by simp [objWrite, hc], ⟨ho.1, ?_⟩, ?_, by simp [hlt]⟩
  · intro q
    rw [ho.2 q]
    unfold LiveAt
    by_cases e : q = p
    · subst e
      exact ⟨fun _ => ⟨c, by simp [hlt]⟩, fun _ => ⟨c0, hc⟩⟩
    · rw [List.getElem?_set, if_neg (fun h => e h.symm)]
  · intro q hq
    have : p ≠ q := by rintro rfl; exact hn.1 hq
    rw [List.getElem?_set, if_neg this]

theorem objContent_congr {h h' : ObjHeap β} {p : ℕ} (he : h'[p]? = h[p]?) :
    objContent h' p = objContent h p := by
  unfold objContent; rw [he]

theorem objView_congr {h h' : ObjHeap β} (l : List (Lvl α))
    (he : ∀ p ∈ ptrs l, h'[p]? = h[p]?) : objView h' l = objView h l := by
  unfold objView
  refine List.map_congr_left fun x hx => ?_
  cases ho : x.own with
  | none => rfl
  | some p =>
    have : p ∈ ptrs l := List.mem_filterMap.2 ⟨x, hx, ho⟩
    simp [objContent_congr (he p this)]

/-! ## Freeing one level -/

theorem ptrs_cons (x : Lvl α) (xs : List (Lvl α)) :
    ptrs (x :: xs) = x.own.toList ++ ptrs xs := by
  unfold ptrs
  cases h : x.own <;> simp [h]

theorem freeOwn_spec {h : ObjHeap β} (x : Lvl α) {R : List ℕ} (ho : OwnsAll h (x.own.toList ++ R)) :
    ∃ h', freeOwn h x = .ok h' ∧ OwnsAll h' R ∧ ∀ q ∈ R, h'[q]? = h[q]? := by
  unfold freeOwn
  cases hx : x.own with
  | none => rw [hx] at ho; exact ⟨h, rfl, by simpa using ho, fun _ _ => rfl⟩
  | some p => rw [hx] at ho; exact owns_free (by simpa using ho)

/-! ## Values -/

/-- An empty level has the default members, and so have all levels inside it. -/
def Canon (d : α) : ObjVal α β → Prop
  | [] => True
  | (a, none) :: vs => a = d ∧ vs = vs.map (fun _ => (d, none))
  | (_, some _) :: vs => Canon d vs

theorem canon_empty (d : α) (n : ℕ) : Canon d (List.replicate n ((d, none) : α × Option (Block β))) := by
  cases n with
  | zero => trivial
  | succ n => exact ⟨rfl, by simp⟩

theorem canon_map_empty {γ : Type} (d : α) (l : List γ) :
    Canon d (l.map (fun _ => ((d, none) : α × Option (Block β)))) := by
  cases l with
  | nil => trivial
  | cons a l => exact ⟨rfl, by simp⟩

theorem objView_empty {γ : Type} (h : ObjHeap β) (d : α) (l : List γ) :
    objView h (l.map (fun _ => (⟨d, none⟩ : Lvl α))) = l.map (fun _ => (d, none)) := by
  unfold objView; rw [List.map_map]; rfl

theorem ptrs_empty {γ : Type} (d : α) (l : List γ) :
    ptrs (l.map (fun _ => (⟨d, none⟩ : Lvl α))) = [] := by
  unfold ptrs
  induction l with
  | nil => rfl
  | cons a l ih => simp

theorem assignObj_spec (d : α) : ∀ (x y : List (Lvl α)) (top : Bool) (h : ObjHeap β) (R : List ℕ),
    x.length = y.length → OwnsAll h (ptrs x ++ R) → (∀ p ∈ ptrs y, p ∈ R) → Canon d (objView h y) →
    ∃ h' x', assignObj d top x y h = .ok (h', x') ∧ x'.length = y.length ∧
      OwnsAll h' (ptrs x' ++ R) ∧ (∀ q ∈ R, h'[q]? = h[q]?) ∧ objView h' x' = objView h y
  | [], [], top, h, R, _, ho, _, _ => ⟨h, [], rfl, rfl, ho, fun _ _ => rfl, rfl⟩
  | x :: xs, y :: ys, top, h, R, hl, ho, hy, hc => by
    have hl' : xs.length = ys.length := by simpa using hl
    rw [ptrs_cons, List.append_assoc] at ho
    obtain ⟨h1, e1, o1, k1⟩ := freeOwn_spec x ho
    have hR1 : ∀ q ∈ R, h1[q]? = h[q]? := fun q hq => k1 q (List.mem_append_right _ hq)
    rw [ptrs_cons] at hy
    unfold assignObj
    rw [e1, ok_bind]
    cases hyo : y.own with
    | none =>
      simp only [Option.isSome_none, Bool.or_false]
      have hv : objView h (y :: ys) = (y.data, none) :: objView h ys := by
        simp [objView, hyo]
      rw [hv] at hc
      obtain ⟨hd, hds⟩ := hc
      have hys : ∀ h' : ObjHeap β, objView h' (ys.map (fun _ => (⟨d, none⟩ : Lvl α))) = objView h ys := by
        intro h'
        rw [objView_empty, hds]
        unfold objView
        rw [List.map_map]
        rfl
      have key : ∀ src : List (Lvl α), (src = ys ∨ src = ys.map (fun _ => (⟨d, none⟩ : Lvl α))) →
          ∃ h' x', assignObj d false xs src h1 = .ok (h', x') ∧ x'.length = ys.length ∧
            OwnsAll h' (ptrs x' ++ R) ∧ (∀ q ∈ R, h'[q]? = h1[q]?) ∧ objView h' x' = objView h ys := by
        intro src hsrc
        rcases hsrc with rfl | rfl
        · have hvs : objView h1 src = objView h src :=
            objView_congr _ (fun p hp => hR1 p (hy p (List.mem_append_right _ hp)))
          obtain ⟨h2, x2, e2, l2, o2, k2, v2⟩ := assignObj_spec d xs src false h1 R hl' o1
            (fun p hp => hy p (List.mem_append_right _ hp)) (by
              rw [hvs, hds]; exact canon_map_empty d _)
          exact ⟨h2, x2, e2, l2, o2, k2, v2.trans hvs⟩
        · obtain ⟨h2, x2, e2, l2, o2, k2, v2⟩ := assignObj_spec d xs
            (ys.map (fun _ => (⟨d, none⟩ : Lvl α))) false h1 R (by simpa using hl') o1
            (fun p hp => by rw [ptrs_empty] at hp; simp at hp)
            (by rw [objView_empty]; exact canon_map_empty d _)
          exact ⟨h2, x2, e2, by simpa using l2, o2, k2, v2.trans (hys h1)⟩
      have hsrc : (if top = true then ys else ys.map (fun _ => (⟨d, none⟩ : Lvl α))) = ys ∨
          (if top = true then ys else ys.map (fun _ => (⟨d, none⟩ : Lvl α))) =
            ys.map (fun _ => (⟨d, none⟩ : Lvl α)) := by
        cases top <;> simp
      obtain ⟨h2, x2, e2, l2, o2, k2, v2⟩ := key _ hsrc
      rw [e2, ok_bind]
      refine ⟨h2, ⟨if top then y.data else d, none⟩ :: x2, rfl, by simp [l2], ?_,
        fun q hq => (k2 q hq).trans (hR1 q hq), ?_⟩
      · rw [ptrs_cons]; simpa using o2
      · rw [hv, ← v2]
        have : (if top = true then y.data else d) = y.data := by
          cases top
          · exact hd.symm
          · rfl
        simp [objView, this]
    | some p =>
      simp only [Option.isSome_some, Bool.or_true, if_true]
      have hpR : p ∈ R := hy p (by rw [hyo]; simp)
      have hv : objView h (y :: ys) = (y.data, some (objContent h p)) :: objView h ys := by
        simp [objView, hyo]
      rw [hv] at hc
      have hvs : objView h1 ys = objView h ys :=
        objView_congr _ (fun p hp => hR1 p (hy p (List.mem_append_right _ hp)))
      obtain ⟨h2, x2, e2, l2, o2, k2, v2⟩ := assignObj_spec d xs ys false h1 R hl' o1
        (fun p hp => hy p (List.mem_append_right _ hp)) (by rw [hvs]; exact hc)
      rw [e2, ok_bind]
      obtain ⟨c, hcp⟩ := (o2.2 p).1 (List.mem_append_right _ hpR)
      have hread : objRead h2 p = .ok c := by simp [objRead, hcp]
      simp only [hread, ok_bind, objAlloc]
      obtain ⟨o3, k3, g3⟩ := owns_alloc c o2
      refine ⟨h2 ++ [some c], ⟨y.data, some h2.length⟩ :: x2, rfl, by simp [l2], ?_, ?_, ?_⟩
      · rw [ptrs_cons]; simpa using o3
      · intro q hq
        rw [k3 q (List.mem_append_right _ hq), k2 q hq, hR1 q hq]
      · rw [hv]
        have hcont : objContent (h2 ++ [some c]) h2.length = objContent h p := by
          have : h[p]? = some (some c) := by rw [← hR1 p hpR, ← k2 p hpR, hcp]
          unfold objContent
          rw [g3, this]
        have hx2 : objView (h2 ++ [some c]) x2 = objView h ys := by
          rw [objView_congr x2 (fun q hq => k3 q (List.mem_append_left _ hq)), v2, hvs]
        rw [← hx2, ← hcont]
        rfl

theorem wrecked_canon (d : α) : ∀ (top : Bool) (v : ObjVal α β), Canon d v → Canon d (wrecked d top v)
  | _, [], _ => trivial
  | _, [_], _ => ⟨rfl, rfl⟩
  | top, (a, some c) :: v :: vs, h => by
    have := wrecked_canon d false (v :: vs) h
    simpa [wrecked, Canon] using this
  | _, (a, none) :: v :: vs, h => by simpa [wrecked] using h

theorem wrecked_empty {γ : Type} (d : α) (top : Bool) (l : List γ) :
    wrecked d top (l.map (fun _ => ((d, none) : α × Option (Block β)))) =
      l.map (fun _ => (d, none)) := by
  match l with
  | [] => rfl
  | [_] => rfl
  | _ :: _ :: _ => rfl

theorem selfAssignObj_spec (d : α) : ∀ (x : List (Lvl α)) (top : Bool) (h : ObjHeap β) (R : List ℕ),
    OwnsAll h (ptrs x ++ R) → Canon d (objView h x) →
    ∃ h' x', selfAssignObj d top x h = .ok (h', x') ∧ x'.length = x.length ∧
      OwnsAll h' (ptrs x' ++ R) ∧ (∀ q ∈ R, h'[q]? = h[q]?) ∧
      objView h' x' = wrecked d top (objView h x)
  | [], top, h, R, ho, _ => ⟨h, [], by simp [selfAssignObj, pure, Except.pure], rfl, ho, fun _ _ => rfl, by
      simp [objView, wrecked]⟩
  | [x], top, h, R, ho, _ => by
    rw [ptrs_cons, List.append_assoc] at ho
    obtain ⟨h1, e1, o1, k1⟩ := freeOwn_spec x ho
    refine ⟨h1, [⟨d, none⟩], ?_, rfl, ?_, fun q hq => k1 q (List.mem_append_right _ hq), ?_⟩
    · unfold selfAssignObj; rw [e1, ok_bind]; rfl
    · simpa [ptrs] using o1
    · simp [objView, wrecked]
  | x :: x' :: xs, top, h, R, ho, hc => by
    rw [ptrs_cons, List.append_assoc] at ho
    obtain ⟨h1, e1, o1, k1⟩ := freeOwn_spec x ho
    have hR1 : ∀ q ∈ R, h1[q]? = h[q]? := fun q hq => k1 q (List.mem_append_right _ hq)
    have hvs : objView h1 (x' :: xs) = objView h (x' :: xs) :=
      objView_congr _ (fun p hp => k1 p (List.mem_append_left _ hp))
    unfold selfAssignObj
    rw [e1, ok_bind]
    cases hx : x.own with
    | some p =>
      have hv : objView h (x :: x' :: xs) = (x.data, some (objContent h p)) :: objView h (x' :: xs) := by
        simp [objView, hx]
      rw [hv] at hc
      obtain ⟨h2, x2, e2, l2, o2, k2, v2⟩ := selfAssignObj_spec d (x' :: xs) false h1 R o1
        (by rw [hvs]; exact hc)
      simp only [e2, ok_bind, objAlloc]
      obtain ⟨o3, k3, g3⟩ := owns_alloc (if top then .emptied else .uninit : Block β) o2
      refine ⟨_, ⟨x.data, some h2.length⟩ :: x2, rfl, by simpa using l2, ?_, ?_, ?_⟩
      · rw [ptrs_cons]; simpa using o3
      · intro q hq
        rw [k3 q (List.mem_append_right _ hq), k2 q hq, hR1 q hq]
      · have hx2 : objView (h2 ++ [some (if top then .emptied else .uninit : Block β)]) x2 =
            wrecked d false (objView h (x' :: xs)) := by
          rw [objView_congr x2 (fun q hq => k3 q (List.mem_append_left _ hq)), v2, hvs]
        have hcont : objContent (h2 ++ [some (if top then .emptied else .uninit : Block β)]) h2.length =
            (if top then .emptied else .uninit : Block β) := by
          unfold objContent; rw [g3]
        rw [hv]
        have : ∀ (g : ObjHeap β), objView g (⟨x.data, some h2.length⟩ :: x2) =
            (x.data, some (objContent g h2.length)) :: objView g x2 := fun _ => rfl
        rw [this, hx2, hcont]
        rfl
    | none =>
      have hv : objView h (x :: x' :: xs) = (x.data, none) :: objView h (x' :: xs) := by
        simp [objView, hx]
      rw [hv] at hc
      obtain ⟨hd, hds⟩ := hc
      have hw : wrecked d top (objView h (x :: x' :: xs)) = (x.data, none) :: objView h (x' :: xs) := by
        rw [hv]; rfl
      have hsub : Canon d (objView h1 (x' :: xs)) := by
        rw [hvs, hds]; exact canon_map_empty d _
      have hcv : wrecked d false (objView h1 (x' :: xs)) = objView h (x' :: xs) := by
        rw [hvs, hds]; exact wrecked_empty d false _
      cases top with
      | true =>
        obtain ⟨h2, x2, e2, l2, o2, k2, v2⟩ := selfAssignObj_spec d (x' :: xs) false h1 R o1 hsub
        simp only [if_true, e2, ok_bind]
        refine ⟨h2, ⟨x.data, none⟩ :: x2, rfl, by simpa using l2, ?_,
          fun q hq => (k2 q hq).trans (hR1 q hq), ?_⟩
        · rw [ptrs_cons]; simpa using o2
        · rw [hw, ← hcv, ← v2]; rfl
      | false =>
        obtain ⟨h2, x2, e2, l2, o2, k2, v2⟩ := assignObj_spec d (x' :: xs)
          ((x' :: xs).map (fun _ => (⟨d, none⟩ : Lvl α))) false h1 R (by simp) o1
          (fun p hp => by rw [ptrs_empty] at hp; simp at hp)
          (by rw [objView_empty]; exact canon_map_empty d _)
        simp only [Bool.false_eq_true, if_false, e2, ok_bind]
        refine ⟨h2, ⟨d, none⟩ :: x2, rfl, by simpa using l2, ?_,
          fun q hq => (k2 q hq).trans (hR1 q hq), ?_⟩
        · rw [ptrs_cons]; simpa using o2
        · rw [hw, hd]
          have : objView h2 x2 = objView h (x' :: xs) := by
            rw [v2, objView_empty, hds]
            unfold objView
            rw [List.map_map]
            rfl
          rw [← this]; rfl

theorem destroyObj_spec : ∀ (x : List (Lvl α)) (h : ObjHeap β) (R : List ℕ),
    OwnsAll h (ptrs x ++ R) →
    ∃ h', destroyObj x h = .ok h' ∧ OwnsAll h' R ∧ ∀ q ∈ R, h'[q]? = h[q]?
  | [], h, R, ho => ⟨h, rfl, ho, fun _ _ => rfl⟩
  | x :: xs, h, R, ho => by
    rw [ptrs_cons, List.append_assoc] at ho
    obtain ⟨h1, e1, o1, k1⟩ := freeOwn_spec x ho
    obtain ⟨h2, e2, o2, k2⟩ := destroyObj_spec xs h1 R o1
    refine ⟨h2, ?_, o2, fun q hq => (k2 q hq).trans (k1 q (List.mem_append_right _ hq))⟩
    unfold destroyObj
    rw [e1, ok_bind, e2]

theorem makeObj_spec : ∀ (vs : List (α × Block β)) (h : ObjHeap β) (R : List ℕ), OwnsAll h R →
    (makeObj vs h).2.length = vs.length ∧ OwnsAll (makeObj vs h).1 (ptrs (makeObj vs h).2 ++ R) ∧
      (∀ q ∈ R, (makeObj vs h).1[q]? = h[q]?) ∧
      objView (makeObj vs h).1 (makeObj vs h).2 = vs.map (fun v => (v.1, some v.2))
  | [], h, R, ho => ⟨rfl, ho, fun _ _ => rfl, rfl⟩
  | v :: vs, h, R, ho => by
    obtain ⟨l1, o1, k1, v1⟩ := makeObj_spec vs h R ho
    obtain ⟨o3, k3, g3⟩ := owns_alloc v.2 o1
    refine ⟨by simp [makeObj, l1], ?_, ?_, ?_⟩
    · simp only [makeObj, objAlloc, ptrs_cons]
      simpa using o3
    · intro q hq
      simp only [makeObj, objAlloc]
      rw [k3 q (List.mem_append_right _ hq), k1 q hq]
    · have hx2 := objView_congr (h := (makeObj vs h).1) (h' := (makeObj vs h).1 ++ [some v.2])
        (makeObj vs h).2 (fun q hq => k3 q (List.mem_append_left _ hq))
      have hcont : objContent ((makeObj vs h).1 ++ [some v.2]) (makeObj vs h).1.length = v.2 := by
        unfold objContent; rw [g3]
      simp only [makeObj, objAlloc, List.map_cons]
      rw [← v1, ← hx2]
      have : ∀ (g : ObjHeap β) (n : ℕ) (l : List (Lvl α)), objView g (⟨v.1, some n⟩ :: l) =
          (v.1, some (objContent g n)) :: objView g l := fun _ _ _ => rfl
      rw [this, hcont]

/-! ## All objects of a program -/

/-- The addresses all living objects hold. -/
def allPtrs (objs : List (Option (List (Lvl α)))) : List ℕ :=
  objs.flatMap fun o => (o.map ptrs).getD []

theorem allPtrs_set : ∀ (objs : List (Option (List (Lvl α)))) (x : ℕ) (o : Option (List (Lvl α))),
    objs[x]? = some o → (allPtrs objs).Perm ((o.map ptrs).getD [] ++ allPtrs (objs.set x none))
  | [], x, o, h => by simp at h
  | a :: objs, 0, o, h => by
    obtain rfl : a = o := by simpa using h
    simp [allPtrs]
  | a :: objs, x + 1, o, h => by
    have := allPtrs_set objs x o (by simpa using h)
    have h2 : (allPtrs (a :: objs)) = (a.map ptrs).getD [] ++ allPtrs objs := rfl
    have h3 : (allPtrs ((a :: objs).set (x + 1) none)) =
      (a.map ptrs).getD [] ++ allPtrs (objs.set x none) := rfl
    rw [h2, h3]
    refine (List.Perm.append_left _ this).trans ?_
    rw [← List.append_assoc, ← List.append_assoc]
    exact List.Perm.append_right _ List.perm_append_comm

theorem mem_allPtrs {objs : List (Option (List (Lvl α)))} {i : ℕ} {l : List (Lvl α)}
    (h : objs[i]? = some (some l)) {p : ℕ} (hp : p ∈ ptrs l) : p ∈ allPtrs objs :=
  List.mem_flatMap.2 ⟨some l, List.mem_of_getElem? h, by simpa using hp⟩

/-- Ownership in a state; `L` are the blocks which nobody can free any more. -/
structure ObjInv (cls : ObjClass α β) (s : ObjState α β) (L : List ℕ) : Prop where
  owns : OwnsAll s.heap (allPtrs s.objs ++ L)
  shape : ∀ l, some l ∈ s.objs → l.length = cls.depth ∧ Canon cls.d (objView s.heap l)

theorem view_get (s : ObjState α β) (x : ℕ) :
    valGet s.view x = (objGet s.objs x).map (objView s.heap) := by
  unfold valGet objGet ObjState.view
  rw [List.getElem?_map]
  cases h : s.objs[x]? with
  | none => rfl
  | some o => cases o <;> rfl

theorem view_congr_set (s : ObjState α β) (h' : ObjHeap β) (x : ℕ) (o : Option (List (Lvl α)))
    (R : List ℕ) (hR : ∀ p ∈ allPtrs (s.objs.set x none), p ∈ R)
    (hk : ∀ q ∈ R, h'[q]? = s.heap[q]?) :
    (⟨h', s.objs.set x o⟩ : ObjState α β).view = s.view.set x (o.map (objView h')) := by
  unfold ObjState.view
  apply List.ext_getElem?
  intro i
  simp only [List.getElem?_map, List.getElem?_set, List.length_map]
  by_cases e : x = i
  · subst e
    simp only [if_true]
    split <;> rfl
  · simp only [if_neg e]
    cases hi : s.objs[i]? with
    | none => rfl
    | some o' =>
      cases o' with
      | none => rfl
      | some l =>
        simp only [Option.map_some]
        rw [objView_congr l fun p hp => hk p (hR p (mem_allPtrs (i := i) (by
          rw [List.getElem?_set, if_neg e]; exact hi) hp))]

theorem inv_set {cls : ObjClass α β} {s : ObjState α β} {L : List ℕ} (hi : ObjInv cls s L) {x : ℕ}
    {o : Option (List (Lvl α))} (hx : ∃ l, s.objs[x]? = some (some l)) {h' : ObjHeap β} {L' : List ℕ}
    (ho : OwnsAll h' ((o.map ptrs).getD [] ++ (allPtrs (s.objs.set x none) ++ L')))
    (hk : ∀ q ∈ allPtrs (s.objs.set x none), h'[q]? = s.heap[q]?)
    (hc : ∀ l, o = some l → l.length = cls.depth ∧ Canon cls.d (objView h' l)) :
    ObjInv cls ⟨h', s.objs.set x o⟩ L' := by
  obtain ⟨l0, hx⟩ := hx
  have hlt := (List.getElem?_eq_some_iff.1 hx).1
  refine ⟨?_, ?_⟩
  · refine OwnsAll.perm ?_ ho
    have := allPtrs_set (s.objs.set x o) x o (by simp [hlt])
    rw [List.set_set] at this
    rw [← List.append_assoc]
    exact (List.Perm.append_right _ this).symm
  · intro l hl
    obtain ⟨i, hi'⟩ := List.mem_iff_getElem?.1 hl
    by_cases e : x = i
    · subst e
      refine hc l ?_
      have : (s.objs.set x o)[x]? = some o := by simp [hlt]
      exact Option.some.inj (this.symm.trans hi')
    · have hio : s.objs[i]? = some (some l) := by
        rw [List.getElem?_set, if_neg e] at hi'; exact hi'
      obtain ⟨h1, h2⟩ := hi.shape l (List.mem_of_getElem? hio)
      refine ⟨h1, ?_⟩
      have : objView h' l = objView s.heap l := objView_congr l fun p hp => hk p
        (mem_allPtrs (i := i) (by rw [List.getElem?_set, if_neg e]; exact hio) hp)
      rw [this]
      exact h2

theorem inv_push {cls : ObjClass α β} {s : ObjState α β} {L : List ℕ} (hi : ObjInv cls s L)
    {l : List (Lvl α)} {h' : ObjHeap β} (ho : OwnsAll h' (ptrs l ++ (allPtrs s.objs ++ L)))
    (hk : ∀ q ∈ allPtrs s.objs, h'[q]? = s.heap[q]?)
    (hl : l.length = cls.depth) (hc : Canon cls.d (objView h' l)) :
    ObjInv cls ⟨h', s.objs ++ [some l]⟩ L ∧
      (⟨h', s.objs ++ [some l]⟩ : ObjState α β).view = s.view ++ [some (objView h' l)] := by
  have hv : ∀ o ∈ s.objs, Option.map (objView h') o = Option.map (objView s.heap) o := by
    intro o ho'
    cases o with
    | none => rfl
    | some l' =>
      obtain ⟨i, hi'⟩ := List.mem_iff_getElem?.1 ho'
      simp only [Option.map_some]
      rw [objView_congr l' fun p hp => hk p (mem_allPtrs hi' hp)]
  refine ⟨⟨?_, ?_⟩, ?_⟩
  · refine OwnsAll.perm ?_ ho
    have : allPtrs (s.objs ++ [some l]) = allPtrs s.objs ++ ptrs l := by simp [allPtrs]
    show (ptrs l ++ (allPtrs s.objs ++ L)).Perm (allPtrs (s.objs ++ [some l]) ++ L)
    rw [this, ← List.append_assoc]
    exact List.Perm.append_right _ List.perm_append_comm
  · intro l' hl'
    rcases List.mem_append.1 hl' with h1 | h1
    · obtain ⟨h2, h3⟩ := hi.shape l' h1
      refine ⟨h2, ?_⟩
      have := hv _ h1
      simp only [Option.map_some, Option.some.injEq] at this
      show Canon cls.d (objView h' l')
      rw [this]; exact h3
    · obtain rfl : l' = l := by simpa using h1
      exact ⟨hl, hc⟩
  · unfold ObjState.view
    rw [List.map_append]
    congr 1
    exact List.map_congr_left hv

theorem canon_all_some (d : α) (l : List α) (f : α → Block β) :
    Canon d (l.map fun v => (v, some (f v))) := by
  induction l with
  | nil => trivial
  | cons a l ih => exact ih

theorem canon_some (d : α) : ∀ (vs : List (α × Block β)), Canon d (vs.map fun v => (v.1, some v.2))
  | [] => trivial
  | _ :: vs => canon_some d vs

theorem emptyObj_eq (cls : ObjClass α β) :
    emptyObj cls = (List.replicate cls.depth ()).map (fun _ => (⟨cls.d, none⟩ : Lvl α)) := by
  simp [emptyObj]

theorem objGet_ok {τ : Type} {objs : List (Option τ)} {x : ℕ} {l : τ} (h : objGet objs x = .ok l) :
    objs[x]? = some (some l) := by
  unfold objGet at h
  split at h
  · rename_i h'; cases h; exact h'
  · cases h

/-- What the state and the values after one statement have in common. -/
def StepRel (cls : ObjClass α β) (L : List ℕ) (zero : Prop)
    (r : Except CErr (ObjState α β)) (v : Except CErr (List (Option (ObjVal α β)))) : Prop :=
  r.map ObjState.view = v ∧ ∀ s', r = .ok s' → ∃ L', ObjInv cls s' L' ∧ (zero → L' = L)

theorem stepRel_ok {cls : ObjClass α β} {L L' : List ℕ} {zero : Prop} {s' : ObjState α β}
    {v : List (Option (ObjVal α β))} (hv : s'.view = v) (hi : ObjInv cls s' L') (hz : zero → L' = L) :
    StepRel cls L zero (.ok s') (.ok v) :=
  ⟨by simp [Except.map, hv], fun s'' h => ⟨L', by cases h; exact hi, hz⟩⟩

theorem stepRel_error {cls : ObjClass α β} {L : List ℕ} {zero : Prop} (e : CErr) :
    StepRel (α := α) (β := β) cls L zero (.error e) (.error e) :=
  ⟨rfl, fun _ h => by cases h⟩

theorem owns_split {cls : ObjClass α β} {s : ObjState α β} {L : List ℕ} (hi : ObjInv cls s L) {x : ℕ}
    {l : List (Lvl α)} (hx : s.objs[x]? = some (some l)) :
    OwnsAll s.heap (ptrs l ++ (allPtrs (s.objs.set x none) ++ L)) := by
  refine OwnsAll.perm ?_ hi.owns
  rw [← List.append_assoc]
  exact List.Perm.append_right _ (allPtrs_set s.objs x _ hx)

theorem objStep_rel (cls : ObjClass α β) (s : ObjState α β) (L : List ℕ) (hi : ObjInv cls s L)
    (op : ObjOp α β) :
    StepRel cls L op.noZero (objStep cls s op) (valStep cls (wrecked cls.d cls.isList) s.view op) := by
  cases op with
  | dflt =>
    obtain ⟨h1, h2⟩ := inv_push hi (l := emptyObj cls) (h' := s.heap)
      (by rw [emptyObj_eq, ptrs_empty]; exact hi.owns) (fun _ _ => rfl) (by simp [emptyObj])
      (by rw [emptyObj_eq, objView_empty]; exact canon_map_empty _ _)
    refine stepRel_ok ?_ h1 (fun _ => rfl)
    rw [h2, emptyObj_eq, objView_empty]
    simp
  | make vs =>
    simp only [objStep, valStep]
    by_cases hl : vs.length = cls.depth
    · rw [if_pos hl, if_pos hl]
      obtain ⟨l1, o1, k1, v1⟩ := makeObj_spec (vs.map fun v => (v.1, Block.val v.2)) s.heap _ hi.owns
      obtain ⟨h1, h2⟩ := inv_push hi o1 (fun q hq => k1 q (List.mem_append_left _ hq))
        (by rw [l1]; simpa using hl) (by rw [v1]; exact canon_some _ _)
      refine stepRel_ok ?_ h1 (fun _ => rfl)
      rw [h2, v1, List.map_map]
      rfl
    · rw [if_neg hl, if_neg hl]
      exact stepRel_error _
  | raw a =>
    simp only [objStep, valStep]
    by_cases hl : cls.depth = 1
    · rw [if_pos hl, if_pos hl]
      obtain ⟨l1, o1, k1, v1⟩ := makeObj_spec [(a, (Block.uninit : Block β))] s.heap _ hi.owns
      obtain ⟨h1, h2⟩ := inv_push hi o1 (fun q hq => k1 q (List.mem_append_left _ hq))
        (by rw [l1, hl]; rfl) (by rw [v1]; exact canon_some _ _)
      refine stepRel_ok ?_ h1 (fun _ => rfl)
      rw [h2, v1]
      rfl
    · rw [if_neg hl, if_neg hl]
      exact stepRel_error _
  | copy y =>
    simp only [objStep, valStep]
    rw [view_get]
    cases hy : objGet s.objs y with
    | error e => exact stepRel_error _
    | ok ly =>
      have hy' := objGet_ok hy
      obtain ⟨c1, c2⟩ := hi.shape ly (List.mem_of_getElem? hy')
      obtain ⟨h', x', e1, l1, o1, k1, v1⟩ := assignObj_spec cls.d (emptyObj cls) ly cls.isList s.heap
        (allPtrs s.objs ++ L) (by simp [emptyObj, c1])
        (by rw [emptyObj_eq, ptrs_empty]; exact hi.owns)
        (fun p hp => List.mem_append_left _ (mem_allPtrs hy' hp)) c2
      obtain ⟨h1, h2⟩ := inv_push hi o1 (fun q hq => k1 q (List.mem_append_left _ hq))
        (l1.trans c1) (by rw [v1]; exact c2)
      simp only [ok_bind, e1, Except.map]
      refine stepRel_ok ?_ h1 (fun _ => rfl)
      rw [h2, v1]
  | assign x y =>
    simp only [objStep, valStep]
    rw [view_get, view_get]
    cases hx : objGet s.objs x with
    | error e => exact stepRel_error _
    | ok lx =>
      have hx' := objGet_ok hx
      obtain ⟨b1, b2⟩ := hi.shape lx (List.mem_of_getElem? hx')
      have hsp := owns_split hi hx'
      by_cases e : x = y
      · subst e
        simp only [hx, ok_bind, Except.map, if_true]
        obtain ⟨h', x', e1, l1, o1, k1, v1⟩ := selfAssignObj_spec cls.d lx cls.isList s.heap _ hsp b2
        simp only [e1, ok_bind]
        refine stepRel_ok (L' := L) ?_ (inv_set hi ⟨lx, hx'⟩ (by simpa using o1)
          (fun q hq => k1 q (List.mem_append_left _ hq)) ?_) (fun _ => rfl)
        · rw [view_congr_set s h' x _ _ (fun p hp => List.mem_append_left _ hp) k1]
          simp [v1]
        · intro l hl
          obtain rfl : x' = l := by simpa using hl
          refine ⟨l1.trans b1, ?_⟩
          rw [v1]
          exact wrecked_canon _ _ _ b2
      · simp only [ok_bind, Except.map, if_neg e]
        cases hy : objGet s.objs y with
        | error e => exact stepRel_error _
        | ok ly =>
          have hy' := objGet_ok hy
          obtain ⟨c1, c2⟩ := hi.shape ly (List.mem_of_getElem? hy')
          have hy'' : (s.objs.set x none)[y]? = some (some ly) := by
            rw [List.getElem?_set, if_neg e]; exact hy'
          obtain ⟨h', x', e1, l1, o1, k1, v1⟩ := assignObj_spec cls.d lx ly cls.isList s.heap _
            (b1.trans c1.symm) hsp (fun p hp => List.mem_append_left _ (mem_allPtrs hy'' hp)) c2
          simp only [e1, ok_bind]
          refine stepRel_ok (L' := L) ?_ (inv_set hi ⟨lx, hx'⟩ (by simpa using o1)
            (fun q hq => k1 q (List.mem_append_left _ hq)) ?_) (fun _ => rfl)
          · rw [view_congr_set s h' x _ _ (fun p hp => List.mem_append_left _ hp) k1]
            simp [v1]
          · intro l hl
            obtain rfl : x' = l := by simpa using hl
            exact ⟨l1.trans c1, by rw [v1]; exact c2⟩
  | destroy x =>
    simp only [objStep, valStep]
    rw [view_get]
    cases hx : objGet s.objs x with
    | error e => exact stepRel_error _
    | ok lx =>
      have hx' := objGet_ok hx
      obtain ⟨h', e1, o1, k1⟩ := destroyObj_spec lx s.heap _ (owns_split hi hx')
      simp only [ok_bind, Except.map, e1]
      refine stepRel_ok (L' := L) ?_ (inv_set hi ⟨lx, hx'⟩ (by simpa using o1)
        (fun q hq => k1 q (List.mem_append_left _ hq)) (by simp)) (fun _ => rfl)
      rw [view_congr_set s h' x _ _ (fun p hp => List.mem_append_left _ hp) k1]
      rfl
  | supercell x sc =>
    simp only [objStep, valStep]
    rw [view_get]
    cases hx : objGet s.objs x with
    | error e => exact stepRel_error _
    | ok lx =>
      have hx' := objGet_ok hx
      obtain ⟨b1, b2⟩ := hi.shape lx (List.mem_of_getElem? hx')
      have hsp := owns_split hi hx'
      simp only [ok_bind, Except.map]
      match lx, hx', b1, b2, hsp with
      | [], _, _, _, _ => exact stepRel_error _
      | l :: l' :: ls, _, _, _, _ =>
        obtain ⟨a, o⟩ := l
        cases o <;> exact stepRel_error _
      | [l], hx', b1, b2, hsp =>
        obtain ⟨a, o⟩ := l
        cases o with
        | none => exact stepRel_error _
        | some p =>
          have hsp' : OwnsAll s.heap (p :: (allPtrs (s.objs.set x none) ++ L)) := by
            simpa [ptrs] using hsp
          obtain ⟨c, hc⟩ := (hsp'.2 p).1 (by simp)
          have hread : objRead s.heap p = .ok c := by simp [objRead, hc]
          have hcont : objContent s.heap p = c := by simp [objContent, hc]
          simp only [objView, List.map_cons, List.map_nil, Option.map_some, hcont, hread, ok_bind]
          by_cases hz : sc 0 * sc 1 * sc 2 = 0
          · rw [if_pos hz, if_pos hz]
            refine stepRel_ok (L' := p :: L) ?_ (inv_set hi ⟨_, hx'⟩ ?_ (fun _ _ => rfl) ?_)
              (fun h => absurd hz h)
            · rw [view_congr_set s s.heap x _ _ (fun p hp => hp) (fun _ _ => rfl)]
              rfl
            · refine OwnsAll.perm ?_ hsp'
              simpa [ptrs] using (List.perm_middle (a := p) (l₁ := allPtrs (s.objs.set x none))
                (l₂ := L)).symm
            · intro l hl
              obtain rfl : [(⟨cls.d, none⟩ : Lvl α)] = l := by simpa using hl
              exact ⟨b1, rfl, rfl⟩
          · rw [if_neg hz, if_neg hz]
            obtain ⟨w1, w2, w3, w4⟩ := owns_write (c.map (cls.grow sc)) hsp'
            generalize c.map (cls.grow sc) = c' at *
            rw [w1, ok_bind]
            have hset : s.objs = s.objs.set x (some [⟨a, some p⟩]) := by
              apply List.ext_getElem?
              intro i
              rw [List.getElem?_set]
              by_cases e : x = i
              · subst e
                rw [if_pos rfl, hx', if_pos (List.getElem?_eq_some_iff.1 hx').1]
              · rw [if_neg e]
            have hcont' : objContent (s.heap.set p (some c')) p = c' := by
              unfold objContent; rw [w4]
            have hst : (⟨s.heap.set p (some c'), s.objs⟩ : ObjState α β) =
                ⟨s.heap.set p (some c'), s.objs.set x (some [⟨a, some p⟩])⟩ := by rw [← hset]
            rw [hst]
            refine stepRel_ok (L' := L) ?_ (inv_set hi ⟨_, hx'⟩ ?_
              (fun q hq => w3 q (List.mem_append_left _ hq)) ?_) (fun _ => rfl)
            · rw [view_congr_set s _ x _ _ (fun p hp => List.mem_append_left _ hp) w3]
              simp [objView, hcont']
            · simpa [ptrs] using w2
            · intro l hl
              obtain rfl : [(⟨a, some p⟩ : Lvl α)] = l := by simpa using hl
              exact ⟨b1, trivial⟩

theorem objRun_rel (cls : ObjClass α β) : ∀ (ops : List (ObjOp α β)) (s : ObjState α β) (L : List ℕ),
    ObjInv cls s L →
    StepRel cls L (∀ op ∈ ops, op.noZero) (ops.foldlM (objStep cls) s)
      (ops.foldlM (valStep cls (wrecked cls.d cls.isList)) s.view)
  | [], s, L, hi => stepRel_ok rfl hi (fun _ => rfl)
  | op :: ops, s, L, hi => by
    obtain ⟨h1, h2⟩ := objStep_rel cls s L hi op
    rw [List.foldlM_cons, List.foldlM_cons]
    cases hs : objStep cls s op with
    | error e =>
      rw [hs] at h1
      rw [← h1]
      exact stepRel_error _
    | ok s' =>
      rw [hs] at h1
      rw [← h1]
      obtain ⟨L', i1, z1⟩ := h2 s' hs
      obtain ⟨h3, h4⟩ := objRun_rel cls ops s' L' i1
      refine ⟨h3, fun s'' hs'' => ?_⟩
      obtain ⟨L'', i2, z2⟩ := h4 s'' hs''
      refine ⟨L'', i2, fun hz => ?_⟩
      rw [z2 fun o ho => hz o (List.mem_cons_of_mem _ ho), z1 (hz op (by simp))]

theorem objInv_start (cls : ObjClass α β) : ObjInv cls ⟨[], []⟩ [] :=
  ⟨⟨by simp [allPtrs], fun p => by simp [allPtrs, LiveAt]⟩, by simp⟩

/-- Without `x = x` it does not matter what `x = x` does. -/
theorem valRun_notSelf (cls : ObjClass α β) (f g : ObjVal α β → ObjVal α β)
    (ops : List (ObjOp α β)) (h : ∀ op ∈ ops, op.notSelf) : valRun cls f ops = valRun cls g ops := by
  have step : ∀ pool (op : ObjOp α β), op.notSelf → valStep cls f pool op = valStep cls g pool op := by
    intro pool op hop
    cases op with
    | assign x y =>
      have : x ≠ y := hop
      simp only [valStep, if_neg this]
    | _ => rfl
  unfold valRun
  generalize ([] : List (Option (ObjVal α β))) = pool
  induction ops generalizing pool with
  | nil => rfl
  | cons op ops ih =>
    rw [List.foldlM_cons, List.foldlM_cons, step pool op (h op (by simp))]
    congr 1
    funext p
    exact ih (fun o ho => h o (List.mem_cons_of_mem _ ho)) p

theorem countP_live (h : ObjHeap β) (l : List ℕ) (ho : OwnsAll h l) : liveBlocks h = l.length := by
  unfold liveBlocks
  have h1 : h.countP Option.isSome =
      ((List.range h.length).filter (fun i => (h[i]?.join).isSome)).length := by
    clear ho
    rw [← List.countP_eq_length_filter]
    induction h using List.reverseRecOn with
    | nil => rfl
    | append_singleton h a ih =>
      rw [List.countP_append, List.length_append, List.length_singleton, List.range_succ,
        List.countP_append, ih]
      congr 1
      · apply List.countP_congr
        intro i hi
        rw [List.getElem?_append_left (List.mem_range.1 hi)]
      · cases a <;> simp
  rw [h1]
  apply List.Perm.length_eq
  refine (List.perm_ext_iff_of_nodup (List.nodup_range.filter _) ho.1).2 fun p => ?_
  rw [ho.2 p]
  unfold LiveAt
  simp only [List.mem_filter, List.mem_range]
  constructor
  · rintro ⟨_, h3⟩
    cases hp : h[p]? with
    | none => simp [hp] at h3
    | some o =>
      cases o with
      | none => simp [hp] at h3
      | some c => exact ⟨c, rfl⟩
  · rintro ⟨c, hc⟩
    exact ⟨(List.getElem?_eq_some_iff.1 hc).1, by simp [hc]⟩

theorem ptrs_length (h : ObjHeap β) (l : List (Lvl α)) :
    (ptrs l).length = (objView h l).countP (fun v => v.2.isSome) := by
  induction l with
  | nil => rfl
  | cons x xs ih =>
    rw [ptrs_cons, List.length_append, ih]
    simp only [objView, List.map_cons, List.countP_cons]
    cases x.own
    · simp
    · simp; omega

theorem allPtrs_length (s : ObjState α β) : (allPtrs s.objs).length = shownArrays s.view := by
  unfold shownArrays ObjState.view allPtrs
  induction s.objs with
  | nil => rfl
  | cons o objs ih =>
    rw [List.flatMap_cons, List.length_append, ih]
    simp only [List.map_cons, List.sum_cons]
    congr 1
    cases o with
    | none => rfl
    | some l => exact ptrs_length s.heap l

/-- The living values of a pool. -/
def alive (pool : List (Option (ObjVal α β))) : List Bool := pool.map Option.isSome

theorem alive_get (pool : List (Option (ObjVal α β))) (x : ℕ) :
    (∃ v, valGet pool x = .ok v) ↔ (alive pool)[x]? = some true := by
  unfold valGet alive
  rw [List.getElem?_map]
  cases h : pool[x]? with
  | none => simp
  | some o => cases o <;> simp

theorem valGet_cases (pool : List (Option (ObjVal α β))) (x : ℕ) :
    (∃ v, valGet pool x = .ok v ∧ (alive pool)[x]? = some true) ∨
      (valGet pool x = .error .undefined ∧ (alive pool)[x]? ≠ some true) := by
  have hg := alive_get pool x
  cases h : valGet pool x with
  | ok v => exact Or.inl ⟨v, rfl, hg.1 ⟨v, h⟩⟩
  | error e =>
    refine Or.inr ⟨?_, fun h' => ?_⟩
    · unfold valGet at h
      split at h
      · cases h
      · exact h.symm
    · obtain ⟨v, hv⟩ := hg.2 h'
      rw [h] at hv; cases hv

theorem alive_set (pool : List (Option (ObjVal α β))) (x : ℕ) (v : Option (ObjVal α β)) :
    alive (pool.set x v) = (alive pool).set x v.isSome := by
  unfold alive; rw [List.map_set]

theorem alive_push (pool : List (Option (ObjVal α β))) (v : Option (ObjVal α β)) :
    alive (pool ++ [v]) = alive pool ++ [v.isSome] := by
  unfold alive; simp

theorem set_same {τ : Type} {l : List τ} {x : ℕ} {a : τ} (h : l[x]? = some a) : l.set x a = l := by
  apply List.ext_getElem?
  intro i
  rw [List.getElem?_set]
  by_cases e : x = i
  · subst e
    rw [if_pos rfl, h, if_pos (List.getElem?_eq_some_iff.1 h).1]
  · rw [if_neg e]

theorem valStep_life (cls : ObjClass α β) (self : ObjVal α β → ObjVal α β)
    (pool : List (Option (ObjVal α β))) (op : ObjOp α β) (hf : op.fits cls) :
    (∃ pool', valStep cls self pool op = .ok pool' ∧ lifeStep (alive pool) op = some (alive pool')) ∨
      (valStep cls self pool op = .error .undefined ∧ lifeStep (alive pool) op = none) := by
  cases op with
  | dflt => exact Or.inl ⟨_, rfl, by simp [lifeStep, alive_push]⟩
  | make vs =>
    have : vs.length = cls.depth := hf
    exact Or.inl ⟨pool ++ [some (vs.map fun v => (v.1, some (.val v.2)))],
      by simp only [valStep, if_pos this], by simp [lifeStep, alive_push]⟩
  | raw a =>
    have : cls.depth = 1 := hf
    exact Or.inl ⟨pool ++ [some [(a, some .uninit)]],
      by simp only [valStep, if_pos this], by simp [lifeStep, alive_push]⟩
  | copy y =>
    rcases valGet_cases pool y with ⟨v, h1, h2⟩ | ⟨h1, h2⟩
    · exact Or.inl ⟨pool ++ [some v], by simp only [valStep, h1, ok_bind]; rfl,
        by simp [lifeStep, h2, alive_push]⟩
    · exact Or.inr ⟨by simp only [valStep, h1, error_bind], by simp [lifeStep, h2]⟩
  | assign x y =>
    rcases valGet_cases pool x with ⟨v, h1, h2⟩ | ⟨h1, h2⟩
    · rcases valGet_cases pool y with ⟨w, h3, h4⟩ | ⟨h3, h4⟩
      · refine Or.inl ⟨pool.set x (some (if x = y then self w else w)),
          by simp only [valStep, h1, h3, ok_bind]; rfl, ?_⟩
        simp [lifeStep, h2, h4, alive_set, set_same h2]
      · exact Or.inr ⟨by simp only [valStep, h1, h3, ok_bind, error_bind], by simp [lifeStep, h4]⟩
    · exact Or.inr ⟨by simp only [valStep, h1, error_bind], by simp [lifeStep, h2]⟩
  | destroy x =>
    rcases valGet_cases pool x with ⟨v, h1, h2⟩ | ⟨h1, h2⟩
    · exact Or.inl ⟨pool.set x none, by simp only [valStep, h1, ok_bind]; rfl,
        by simp [lifeStep, h2, alive_set]⟩
    · exact Or.inr ⟨by simp only [valStep, h1, error_bind], by simp [lifeStep, h2]⟩
  | supercell x sc => exact absurd hf (by simp [ObjOp.fits])

theorem valRun_life (cls : ObjClass α β) (self : ObjVal α β → ObjVal α β) :
    ∀ (ops : List (ObjOp α β)) (pool : List (Option (ObjVal α β))), (∀ op ∈ ops, op.fits cls) →
      (∃ pool', ops.foldlM (valStep cls self) pool = .ok pool' ∧
        ops.foldlM lifeStep (alive pool) = some (alive pool')) ∨
      (ops.foldlM (valStep cls self) pool = .error .undefined ∧ ops.foldlM lifeStep (alive pool) = none)
  | [], pool, _ => Or.inl ⟨pool, rfl, rfl⟩
  | op :: ops, pool, hf => by
    rw [List.foldlM_cons, List.foldlM_cons]
    rcases valStep_life cls self pool op (hf op (by simp)) with ⟨p, h1, h2⟩ | ⟨h1, h2⟩
    · rw [h1, h2, ok_bind]
      exact valRun_life cls self ops p fun o ho => hf o (List.mem_cons_of_mem _ ho)
    · rw [h1, h2]
      exact Or.inr ⟨rfl, rfl⟩

end MaterSDK
