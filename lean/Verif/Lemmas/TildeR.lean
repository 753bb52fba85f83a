import Verif.Spec.TildeR
import Verif.Lemmas.EnvMatrixUse
import Verif.Lemmas.CellListMore
import Mathlib.Tactic.FinCases

/-! # Filling the tables of `PairTildeR` and `TildeR` -/

namespace MaterSDK

open Classical

/-- The source reads exactly these centres. -/
def PairSrc.Reads (S : PairSrc) (sites : List Centre) : Prop :=
  S.num = sites.length ∧ ∀ (ii : ℕ) (s : Centre), sites[ii]? = some s →
    ∃ (i : ℤ) (l : List ℤ), S.centre ii = .ok i ∧ S.ty i = .ok s.z ∧ S.pos i = .ok s.c ∧
      S.nbrs ii = .ok l ∧ List.Forall₂ (fun k e => S.ty k = .ok e.1 ∧ S.pos k = .ok e.2) l s.nbrs

theorem diff_eq (q c : Vec ℝ) : (![q 0 - c 0, q 1 - c 1, q 2 - c 2] : Vec ℝ) = q - c := by
  funext i
  fin_cases i <;> rfl

theorem slotsOf_length {α : Type} (zero : α) (f : Vec ℝ → α) (nbrs : List (ℤ × Vec ℝ)) (e : ℤ × ℕ)
    (h : nbrs.countP (fun q => decide (q.1 = e.1)) ≤ e.2) : (slotsOf zero f nbrs e).length = e.2 := by
  unfold slotsOf
  rw [List.length_append, List.length_map, List.length_replicate, ← List.countP_eq_length_filter]
  omega

theorem slotsOf_pos {α : Type} (zero : α) (f : Vec ℝ → α) (e : ℤ × Vec ℝ) (nbrs : List (ℤ × Vec ℝ)) (nz : ℤ)
    (w : ℕ) (h : e.1 = nz) : slotsOf zero f (e :: nbrs) (nz, w) = f e.2 :: slotsOf zero f nbrs (nz, w - 1) := by
  have hf : (e :: nbrs).filter (fun q => decide (q.1 = nz)) = e :: nbrs.filter (fun q => decide (q.1 = nz)) := by
    rw [List.filter_cons, if_pos (by simpa using h)]
  have hc : (e :: nbrs).countP (fun q => decide (q.1 = nz)) = nbrs.countP (fun q => decide (q.1 = nz)) + 1 :=
    List.countP_cons_of_pos (by simpa using h)
  simp only [slotsOf, hf, hc, List.map_cons, List.cons_append]
  congr 3
  omega

theorem slotsOf_neg {α : Type} (zero : α) (f : Vec ℝ → α) (e : ℤ × Vec ℝ) (nbrs : List (ℤ × Vec ℝ)) (nz : ℤ)
    (w : ℕ) (h : e.1 ≠ nz) : slotsOf zero f (e :: nbrs) (nz, w) = slotsOf zero f nbrs (nz, w) := by
  have hf : (e :: nbrs).filter (fun q => decide (q.1 = nz)) = nbrs.filter (fun q => decide (q.1 = nz)) := by
    rw [List.filter_cons, if_neg (by simpa using h)]
  have hc : (e :: nbrs).countP (fun q => decide (q.1 = nz)) = nbrs.countP (fun q => decide (q.1 = nz)) :=
    List.countP_cons_of_neg (by simpa using h)
  simp only [slotsOf, hf, hc]

/-- Writing into row `c` of a table. -/
theorem writeSlot_ok {α : Type} (A B : List (List α)) (pre post : List α) (old a : α) :
    writeSlot (A ++ (pre ++ old :: post) :: B) (A.length : ℤ) (pre.length : ℤ) a
      = .ok (A ++ (pre ++ a :: post) :: B) := by
  unfold writeSlot
  rw [cGet_nat (a := pre ++ old :: post) (by simp), ok_bind,
    cSet_ok ⟨by positivity, by simp⟩, ok_bind, cSet_ok ⟨by positivity, by simp⟩]
  simp

/-- A write outside the row, or outside the table. -/
theorem writeSlot_oob {α : Type} (arr : List (List α)) (c k : ℤ) (a : α)
    (h : ∀ row, cGet arr c = .ok row → k < 0 ∨ (row.length : ℤ) ≤ k) :
    writeSlot arr c k a = .error .outOfBounds := by
  unfold writeSlot
  rcases cGet_total arr c with ⟨row, hr⟩ | hr
  · rw [hr, ok_bind, cSet_oob (h row hr), error_bind]
  · rw [hr, error_bind]

/-- The loop over the neighbours of one centre. -/
theorem nbrLoop_ok {α : Type} (S : PairSrc) (nz : ℤ) (val : Vec ℝ → α) (c : Vec ℝ) (zero : α) (w : ℕ)
    (A B : List (List α)) (l : List ℤ) (nbrs : List (ℤ × Vec ℝ))
    (hl : List.Forall₂ (fun k e => S.ty k = .ok e.1 ∧ S.pos k = .ok e.2) l nbrs) :
    ∀ done : List α, done.length + nbrs.countP (fun q => decide (q.1 = nz)) ≤ w →
    l.foldlM (pairNbrStep S nz val c A.length)
        (A ++ (done ++ List.replicate (w - done.length) zero) :: B, done.length)
      = .ok (A ++ (done ++ slotsOf zero (fun q => val (q - c)) nbrs (nz, w - done.length)) :: B,
          done.length + nbrs.countP (fun q => decide (q.1 = nz))) := by
  induction hl with
  | nil =>
    intro done _
    simp [slotsOf, pure, Except.pure]
  | @cons k e l nbrs hke _ ih =>
    intro done hw
    rw [List.foldlM_cons]
    unfold pairNbrStep
    rw [hke.1, ok_bind]
    by_cases hz : e.1 = nz
    · rw [if_neg (by simpa using hz), hke.2, ok_bind]
      have hcount : (e :: nbrs).countP (fun q => decide (q.1 = nz))
          = nbrs.countP (fun q => decide (q.1 = nz)) + 1 := List.countP_cons_of_pos (by simpa using hz)
      rw [hcount] at hw
      have hrep : List.replicate (w - done.length) zero
          = zero :: List.replicate (w - (done.length + 1)) zero := by
        rw [← List.replicate_succ]
        congr 1
        omega
      rw [hrep, writeSlot_ok, ok_bind]
      have := ih (done ++ [val (e.2 - c)]) (by simp; omega)
      unfold pairNbrStep at this
      simp only [List.length_append, List.length_singleton, List.append_assoc, List.singleton_append]
        at this
      rw [diff_eq]
      show List.foldlM _ _ l = _
      rw [this, hcount]
      refine congrArg Except.ok (Prod.ext ?_ (by simp; omega))
      simp only
      rw [slotsOf_pos _ _ _ _ _ _ hz]
      congr 5
    · rw [if_pos (by simpa using hz)]
      have hcount : (e :: nbrs).countP (fun q => decide (q.1 = nz))
          = nbrs.countP (fun q => decide (q.1 = nz)) := List.countP_cons_of_neg (by simpa using hz)
      rw [hcount] at hw ⊢
      have := ih done hw
      unfold pairNbrStep at this
      show List.foldlM _ _ l = _
      rw [this]
      refine congrArg Except.ok (Prod.ext ?_ rfl)
      simp only
      rw [slotsOf_neg _ _ _ _ _ _ hz]

/-- More neighbours than slots. -/
theorem nbrLoop_oob {α : Type} (S : PairSrc) (nz : ℤ) (val : Vec ℝ → α) (c : Vec ℝ) (zero : α) (w : ℕ)
    (A B : List (List α)) (l : List ℤ) (nbrs : List (ℤ × Vec ℝ))
    (hl : List.Forall₂ (fun k e => S.ty k = .ok e.1 ∧ S.pos k = .ok e.2) l nbrs) :
    ∀ done : List α, done.length ≤ w → w < done.length + nbrs.countP (fun q => decide (q.1 = nz)) →
    l.foldlM (pairNbrStep S nz val c A.length)
        (A ++ (done ++ List.replicate (w - done.length) zero) :: B, done.length)
      = .error .outOfBounds := by
  induction hl with
  | nil =>
    intro done h1 h2
    simp at h2
    omega
  | @cons k e l nbrs hke _ ih =>
    intro done h1 hw
    rw [List.foldlM_cons]
    unfold pairNbrStep
    rw [hke.1, ok_bind]
    by_cases hz : e.1 = nz
    · rw [if_neg (by simpa using hz), hke.2, ok_bind]
      have hcount : (e :: nbrs).countP (fun q => decide (q.1 = nz))
          = nbrs.countP (fun q => decide (q.1 = nz)) + 1 := List.countP_cons_of_pos (by simpa using hz)
      rw [hcount] at hw
      rcases Nat.lt_or_ge done.length w with hlt | hge
      · have hrep : List.replicate (w - done.length) zero
            = zero :: List.replicate (w - (done.length + 1)) zero := by
          rw [← List.replicate_succ]
          congr 1
          omega
        rw [hrep, writeSlot_ok, ok_bind]
        have := ih (done ++ [val (e.2 - c)]) (by simp; omega) (by simp; omega)
        unfold pairNbrStep at this
        simp only [List.length_append, List.length_singleton, List.append_assoc, List.singleton_append]
          at this
        rw [diff_eq]
        show List.foldlM _ _ l = _
        exact this
      · rw [writeSlot_oob, error_bind]
        · rfl
        · intro row hrow
          rw [cGet_nat (a := done ++ List.replicate (w - done.length) zero) (by simp)] at hrow
          have := Except.ok.inj hrow
          right
          rw [← this, List.length_append, List.length_replicate]
          omega
    · rw [if_pos (by simpa using hz)]
      have hcount : (e :: nbrs).countP (fun q => decide (q.1 = nz))
          = nbrs.countP (fun q => decide (q.1 = nz)) := List.countP_cons_of_neg (by simpa using hz)
      rw [hcount] at hw
      have := ih done h1 hw
      unfold pairNbrStep at this
      show List.foldlM _ _ l = _
      exact this

/-! ## Loops over a range -/

theorem foldlM_range_ok {ε σ : Type} (f : σ → ℕ → Except ε σ) (st : ℕ → σ) (n : ℕ)
    (h : ∀ k < n, f (st k) k = .ok (st (k + 1))) : (List.range n).foldlM f (st 0) = .ok (st n) := by
  induction n with
  | zero => rfl
  | succ n ih =>
    rw [List.range_succ, List.foldlM_append, ih (fun k hk => h k (by omega))]
    show (List.foldlM f (st n) [n]) = _
    rw [List.foldlM_cons, h n (by omega)]
    rfl

theorem foldlM_error {ε σ α : Type} (f : σ → α → Except ε σ) (l₁ l₂ : List α) (a : α) (s s' : σ) (e : ε)
    (h1 : l₁.foldlM f s = .ok s') (h2 : f s' a = .error e) : (l₁ ++ a :: l₂).foldlM f s = .error e := by
  rw [List.foldlM_append, h1]
  show List.foldlM f s' (a :: l₂) = _
  rw [List.foldlM_cons, h2]
  rfl

theorem foldlM_range_error {ε σ : Type} (f : σ → ℕ → Except ε σ) (st : ℕ → σ) (n k : ℕ) (e : ε) (hk : k < n)
    (h : ∀ j < k, f (st j) j = .ok (st (j + 1))) (he : f (st k) k = .error e) :
    (List.range n).foldlM f (st 0) = .error e := by
  have hs : List.range n = List.range k ++ k :: (List.range' (k + 1) (n - k - 1)) := by
    have : List.range n = List.range k ++ List.range' k (n - k) := by
      have h0 := List.range'_append_1 (s := 0) (m := k) (n := n - k)
      rw [List.range_eq_range', List.range_eq_range']
      rw [Nat.zero_add] at h0
      rw [h0]
      congr 1
      omega
    rw [this]
    congr 1
    have e2 : n - k = (n - k - 1) + 1 := by omega
    rw [e2, List.range'_succ]
    rfl
  rw [hs]
  exact foldlM_error f _ _ _ _ _ _ (foldlM_range_ok f st k h) he

/-! ## All centres -/

/-- The slots of one pair of elements. -/
def pairRows {α : Type} (zero : α) (val : Vec ℝ → α) (cz nz : ℤ) (w : ℕ) (sites : List Centre) :
    List (List α) :=
  (sites.filter (fun s => decide (s.z = cz))).map (fun s =>
    slotsOf zero (fun q => val (q - s.c)) s.nbrs (nz, w))

theorem pairRows_length {α : Type} (zero : α) (val : Vec ℝ → α) (cz nz : ℤ) (w : ℕ) (sites : List Centre) :
    (pairRows zero val cz nz w sites).length = sites.countP (fun s => decide (s.z = cz)) := by
  unfold pairRows
  rw [List.length_map, ← List.countP_eq_length_filter]

theorem take_succ_get {α : Type} {l : List α} {k : ℕ} {a : α} (h : l[k]? = some a) :
    l.take (k + 1) = l.take k ++ [a] := by
  rw [List.take_add_one, h]
  rfl

theorem pairRows_snoc_pos {α : Type} (zero : α) (val : Vec ℝ → α) (cz nz : ℤ) (w : ℕ) (sites : List Centre)
    (s : Centre) (h : s.z = cz) : pairRows zero val cz nz w (sites ++ [s])
      = pairRows zero val cz nz w sites ++ [slotsOf zero (fun q => val (q - s.c)) s.nbrs (nz, w)] := by
  unfold pairRows
  simp [List.filter_append, h]

theorem pairRows_snoc_neg {α : Type} (zero : α) (val : Vec ℝ → α) (cz nz : ℤ) (w : ℕ) (sites : List Centre)
    (s : Centre) (h : s.z ≠ cz) : pairRows zero val cz nz w (sites ++ [s])
      = pairRows zero val cz nz w sites := by
  unfold pairRows
  simp [List.filter_append, h]

/-- The state after `k` centres. -/
def pairState {α : Type} (zero : α) (val : Vec ℝ → α) (cz nz : ℤ) (w : ℕ) (sites : List Centre) (n k : ℕ) :
    List (List α) × ℕ :=
  (pairRows zero val cz nz w (sites.take k) ++
      List.replicate (n - (sites.take k).countP (fun s => decide (s.z = cz))) (List.replicate w zero),
    (sites.take k).countP (fun s => decide (s.z = cz)))

/-- One centre of the loop in `pairFill`. -/
def centreStep {α : Type} (S : PairSrc) (cz nz : ℤ) (val : Vec ℝ → α) (roomy : Bool)
    (st : List (List α) × ℕ) (ii : ℕ) : Except CErr (List (List α) × ℕ) := do
  let i ← S.centre ii
  let c ← S.pos i
  let t ← S.ty i
  if t ≠ cz then return st
  else if roomy = false then .error .assertFail
  else do
    let l ← S.nbrs ii
    let r ← l.foldlM (pairNbrStep S nz val c st.2) (st.1, 0)
    return (r.1, st.2 + 1)

theorem pairFill_eq {α : Type} (S : PairSrc) (cz nz : ℤ) (val : Vec ℝ → α) (roomy : Bool)
    (arr : List (List α)) :
    pairFill S cz nz val roomy arr = (List.range S.num).foldlM (centreStep S cz nz val roomy) (arr, 0) := rfl

theorem centreStep_ok {α : Type} (S : PairSrc) (sites : List Centre) (hS : S.Reads sites) (cz nz : ℤ)
    (val : Vec ℝ → α) (zero : α) (w k : ℕ) (s : Centre) (hs : sites[k]? = some s)
    (hroom : s.z = cz → s.nbrs.countP (fun q => decide (q.1 = nz)) ≤ w) (n : ℕ)
    (hn : sites.countP (fun s => decide (s.z = cz)) ≤ n) :
    centreStep S cz nz val true (pairState zero val cz nz w sites n k) k
      = .ok (pairState zero val cz nz w sites n (k + 1)) := by
  obtain ⟨i, l, h1, h2, h3, h4, h5⟩ := hS.2 k s hs
  unfold centreStep
  rw [h1, ok_bind, h3, ok_bind, h2, ok_bind]
  have ht := take_succ_get hs
  by_cases hz : s.z = cz
  · rw [if_neg (by simpa using hz), if_neg (by simp), h4, ok_bind]
    have hc : (sites.take (k + 1)).countP (fun s => decide (s.z = cz))
        = (sites.take k).countP (fun s => decide (s.z = cz)) + 1 := by
      rw [ht, List.countP_append]
      simp [hz]
    have hle : (sites.take (k + 1)).countP (fun s => decide (s.z = cz)) ≤ n :=
      le_trans (List.Sublist.countP_le (List.take_sublist _ _)) hn
    rw [hc] at hle
    have hrep : List.replicate (n - (sites.take k).countP (fun s => decide (s.z = cz))) (List.replicate w zero)
        = List.replicate w zero :: List.replicate
          (n - ((sites.take k).countP (fun s => decide (s.z = cz)) + 1)) (List.replicate w zero) := by
      rw [← List.replicate_succ]
      congr 1
      omega
    have := nbrLoop_ok S nz val s.c zero w (pairRows zero val cz nz w (sites.take k))
      (List.replicate (n - ((sites.take k).countP (fun s => decide (s.z = cz)) + 1)) (List.replicate w zero))
      l s.nbrs h5 [] (by simpa using hroom hz)
    simp only [List.length_nil, List.nil_append, Nat.sub_zero, Nat.zero_add] at this
    rw [pairRows_length] at this
    simp only [pairState, hrep]
    rw [this, ok_bind, hc, ht, pairRows_snoc_pos _ _ _ _ _ _ _ hz]
    simp [pure, Except.pure]
  · rw [if_pos (by simpa using hz)]
    have hc : (sites.take (k + 1)).countP (fun s => decide (s.z = cz))
        = (sites.take k).countP (fun s => decide (s.z = cz)) := by
      rw [ht, List.countP_append]
      simp [hz]
    simp only [pairState, hc]
    rw [ht, pairRows_snoc_neg _ _ _ _ _ _ _ hz]
    rfl

theorem allocRows_nat {α : Type} (n w : ℕ) (a : α) :
    allocRows (n : ℤ) (w : ℤ) a = List.replicate n (List.replicate w a) := by
  simp [allocRows]

theorem pairState_zero {α : Type} (zero : α) (val : Vec ℝ → α) (cz nz : ℤ) (w : ℕ) (sites : List Centre)
    (n : ℕ) : pairState zero val cz nz w sites n 0 = (allocRows (n : ℤ) (w : ℤ) zero, 0) := by
  simp [pairState, pairRows, allocRows]

theorem pairFill_ok {α : Type} (S : PairSrc) (sites : List Centre) (hS : S.Reads sites) (cz nz : ℤ)
    (val : Vec ℝ → α) (zero : α) (w : ℕ)
    (hroom : ∀ s ∈ sites, s.z = cz → s.nbrs.countP (fun q => decide (q.1 = nz)) ≤ w) :
    pairFill S cz nz val true
        (allocRows ((sites.countP (fun s => decide (s.z = cz)) : ℕ) : ℤ) (w : ℤ) zero)
      = .ok (pairRows zero val cz nz w sites, sites.countP (fun s => decide (s.z = cz))) := by
  rw [pairFill_eq, ← pairState_zero zero val cz nz w sites, hS.1]
  rw [foldlM_range_ok _ (pairState zero val cz nz w sites (sites.countP (fun s => decide (s.z = cz))))
    sites.length]
  · simp [pairState]
  · intro k hk
    exact centreStep_ok S sites hS cz nz val zero w k _ (List.getElem?_eq_getElem hk)
      (hroom _ (List.getElem_mem hk)) _ le_rfl

/-- The first element of a list with a property. -/
theorem first_index {α : Type} (l : List α) (P : α → Prop) (h : ∃ a ∈ l, P a) :
    ∃ (k : ℕ) (a : α), l[k]? = some a ∧ P a ∧ ∀ (j : ℕ) (b : α), j < k → l[j]? = some b → ¬ P b := by
  induction l with
  | nil => simp at h
  | cons x l ih =>
    by_cases hx : P x
    · exact ⟨0, x, rfl, hx, fun j b hj => by omega⟩
    · obtain ⟨a, ha, hP⟩ := h
      rcases List.mem_cons.1 ha with rfl | ha
      · exact absurd hP hx
      · obtain ⟨k, a, h1, h2, h3⟩ := ih ⟨a, ha, hP⟩
        refine ⟨k + 1, a, h1, h2, ?_⟩
        intro j b hj hb
        rcases j with _ | j
        · simp at hb
          rw [← hb]
          exact hx
        · exact h3 j b (by omega) (by simpa using hb)

theorem pairFill_oob {α : Type} (S : PairSrc) (sites : List Centre) (hS : S.Reads sites) (cz nz : ℤ)
    (val : Vec ℝ → α) (zero : α) (w : ℕ)
    (h : ∃ s ∈ sites, s.z = cz ∧ w < s.nbrs.countP (fun q => decide (q.1 = nz))) :
    pairFill S cz nz val true
        (allocRows ((sites.countP (fun s => decide (s.z = cz)) : ℕ) : ℤ) (w : ℤ) zero)
      = .error .outOfBounds := by
  obtain ⟨k, s, hs, ⟨hz, hw⟩, hfirst⟩ := first_index sites
    (fun s => s.z = cz ∧ w < s.nbrs.countP (fun q => decide (q.1 = nz))) h
  have hk : k < sites.length := (List.getElem?_eq_some_iff.1 hs).1
  rw [pairFill_eq, ← pairState_zero zero val cz nz w sites, hS.1]
  refine foldlM_range_error _ (pairState zero val cz nz w sites (sites.countP (fun s => decide (s.z = cz))))
    sites.length k _ hk ?_ ?_
  · intro j hj
    refine centreStep_ok S sites hS cz nz val zero w j _
      (List.getElem?_eq_getElem (by omega : j < sites.length)) ?_ _ le_rfl
    intro hzj
    have := hfirst j _ hj (List.getElem?_eq_getElem (by omega : j < sites.length))
    by_contra hcon
    exact this ⟨hzj, by omega⟩
  · obtain ⟨i, l, h1, h2, h3, h4, h5⟩ := hS.2 k s hs
    unfold centreStep
    rw [h1, ok_bind, h3, ok_bind, h2, ok_bind, if_neg (by simpa using hz), if_neg (by simp), h4, ok_bind]
    have hc : (sites.take (k + 1)).countP (fun s => decide (s.z = cz))
        = (sites.take k).countP (fun s => decide (s.z = cz)) + 1 := by
      rw [take_succ_get hs, List.countP_append]
      simp [hz]
    have hle : (sites.take (k + 1)).countP (fun s => decide (s.z = cz))
        ≤ sites.countP (fun s => decide (s.z = cz)) := List.Sublist.countP_le (List.take_sublist _ _)
    rw [hc] at hle
    have hrep : List.replicate (sites.countP (fun s => decide (s.z = cz))
        - (sites.take k).countP (fun s => decide (s.z = cz))) (List.replicate w zero)
        = List.replicate w zero :: List.replicate (sites.countP (fun s => decide (s.z = cz))
          - ((sites.take k).countP (fun s => decide (s.z = cz)) + 1)) (List.replicate w zero) := by
      rw [← List.replicate_succ]
      congr 1
      omega
    have := nbrLoop_oob S nz val s.c zero w (pairRows zero val cz nz w (sites.take k))
      (List.replicate (sites.countP (fun s => decide (s.z = cz))
        - ((sites.take k).countP (fun s => decide (s.z = cz)) + 1)) (List.replicate w zero))
      l s.nbrs h5 [] (by simp) (by simpa using hw)
    simp only [List.length_nil, List.nil_append, Nat.sub_zero] at this
    rw [pairRows_length] at this
    simp only [pairState, hrep]
    rw [this, error_bind]

theorem pairFill_assert {α : Type} (S : PairSrc) (sites : List Centre) (hS : S.Reads sites) (cz nz : ℤ)
    (val : Vec ℝ → α) (arr : List (List α)) (h : ∃ s ∈ sites, s.z = cz) :
    pairFill S cz nz val false arr = .error .assertFail := by
  obtain ⟨k, s, hs, hz, hfirst⟩ := first_index sites (fun s => s.z = cz) h
  have hk : k < sites.length := (List.getElem?_eq_some_iff.1 hs).1
  rw [pairFill_eq, hS.1]
  refine foldlM_range_error _ (fun _ => (arr, 0)) sites.length k _ hk ?_ ?_
  · intro j hj
    have hg : sites[j]? = some _ := List.getElem?_eq_getElem (by omega : j < sites.length)
    obtain ⟨i, l, h1, h2, h3, h4, h5⟩ := hS.2 j _ hg
    unfold centreStep
    rw [h1, ok_bind, h3, ok_bind, h2, ok_bind, if_pos (hfirst j _ hj hg)]
    rfl
  · obtain ⟨i, l, h1, h2, h3, h4, h5⟩ := hS.2 k s hs
    unfold centreStep
    rw [h1, ok_bind, h3, ok_bind, h2, ok_bind, if_neg (by simpa using hz), if_pos rfl]

/-! ## Counts -/

theorem range_mapM_sites {γ : Type} (sites : List Centre) (f : ℕ → Except CErr γ) (g : Centre → γ)
    (h : ∀ (ii : ℕ) (s : Centre), sites[ii]? = some s → f ii = .ok (g s)) :
    (List.range sites.length).mapM f = .ok (sites.map g) := by
  rw [mapM_map_ok (g := fun ii => g (sites[ii]?.getD ⟨0, 0, []⟩))]
  · refine congrArg Except.ok ?_
    refine List.ext_getElem? ?_
    intro k
    rw [List.getElem?_map, List.getElem?_map]
    rcases Nat.lt_or_ge k sites.length with hk | hk
    · rw [List.getElem?_range hk, List.getElem?_eq_getElem hk, Option.map_some, Option.map_some,
        List.getElem?_eq_getElem hk]
      rfl
    · rw [List.getElem?_eq_none (by simpa using hk), List.getElem?_eq_none hk]
      rfl
  · intro ii hii
    have hg := List.getElem?_eq_getElem (List.mem_range.1 hii)
    rw [h ii _ hg, hg]
    rfl

theorem numCentres_ok (S : PairSrc) (sites : List Centre) (hS : S.Reads sites) (cz : ℤ) :
    S.numCentres cz = .ok (sites.countP (fun s => decide (s.z = cz))) := by
  unfold PairSrc.numCentres
  rw [hS.1, range_mapM_sites sites _ Centre.z, ok_bind]
  · refine congrArg Except.ok ?_
    rw [List.count, List.countP_map]
    refine List.countP_congr ?_
    intro s _
    simp
  · intro ii s hs
    obtain ⟨i, l, h1, h2, _⟩ := hS.2 ii s hs
    rw [h1, ok_bind, h2]

theorem forall₂_mapM {α β γ : Type} {R : α → β → Prop} {f : α → Except CErr γ} {g : β → γ} {l : List α}
    {m : List β} (h : List.Forall₂ R l m) (hf : ∀ a b, R a b → f a = .ok (g b)) :
    l.mapM f = .ok (m.map g) := by
  induction h with
  | nil => rfl
  | cons hab _ ih => rw [List.mapM_cons, hf _ _ hab, ok_bind, ih]; rfl

theorem maxNbrs_ok (S : PairSrc) (sites : List Centre) (hS : S.Reads sites) (cz nz : ℤ) :
    S.maxNbrs cz nz = .ok (runningMax (sites.map (fun s =>
      if s.z = cz then s.nbrs.countP (fun q => decide (q.1 = nz)) else 0))) := by
  unfold PairSrc.maxNbrs
  rw [hS.1, range_mapM_sites sites _
    (fun s => if s.z = cz then s.nbrs.countP (fun q => decide (q.1 = nz)) else 0)]
  · rfl
  · intro ii s hs
    obtain ⟨i, l, h1, h2, _, h4, h5⟩ := hS.2 ii s hs
    rw [h1, ok_bind, h2, ok_bind]
    by_cases hz : s.z = cz
    · rw [if_pos hz, if_pos hz, h4, ok_bind, forall₂_mapM (g := Prod.fst) h5 (fun a b h => h.1), ok_bind]
      refine congrArg Except.ok ?_
      rw [List.count, List.countP_map]
      refine List.countP_congr ?_
      intro s _
      simp
    · rw [if_neg hz, if_neg hz]
      rfl

theorem maxNbrs_le (sites : List Centre) (cz nz : ℤ) (w : ℕ) :
    runningMax (sites.map (fun s => if s.z = cz then s.nbrs.countP (fun q => decide (q.1 = nz)) else 0)) ≤ w ↔
      ∀ s ∈ sites, s.z = cz → s.nbrs.countP (fun q => decide (q.1 = nz)) ≤ w := by
  constructor
  · intro h s hs hz
    refine le_trans ?_ h
    have := le_runningMax (List.mem_map_of_mem (f := fun s : Centre =>
      if s.z = cz then s.nbrs.countP (fun q => decide (q.1 = nz)) else 0) hs)
    simpa [hz] using this
  · intro h
    apply runningMax_le
    intro x hx
    obtain ⟨s, hs, rfl⟩ := List.mem_map.1 hx
    split_ifs with hz
    · exact h s hs hz
    · exact Nat.zero_le _

/-! ## One pair of elements -/

theorem pairLmp_ok {α : Type} (p : LmpIn) (sites : List Centre) (hS : p.src.Reads sites) (cz nz : ℤ)
    (w : ℕ) (val : Vec ℝ → α) (zero : α) (atEnd : Bool)
    (hroom : ∀ s ∈ sites, s.z = cz → s.nbrs.countP (fun q => decide (q.1 = nz)) ≤ w) :
    pairLmp p cz nz w val zero atEnd = .ok (pairRows zero val cz nz w sites) := by
  unfold pairLmp
  rw [numCentres_ok _ _ hS, ok_bind, maxNbrs_ok _ _ hS, ok_bind]
  have : decide (((runningMax (sites.map (fun s =>
      if s.z = cz then s.nbrs.countP (fun q => decide (q.1 = nz)) else 0)) : ℕ) : ℤ) ≤ (w : ℤ)) = true := by
    rw [decide_eq_true_eq, Int.ofNat_le]
    exact (maxNbrs_le sites cz nz w).2 hroom
  rw [this, pairFill_ok _ _ hS _ _ _ _ _ hroom, ok_bind, if_neg (by simp)]
  rfl

theorem pairLmp_assert {α : Type} (p : LmpIn) (sites : List Centre) (hS : p.src.Reads sites) (cz nz w : ℤ)
    (val : Vec ℝ → α) (zero : α) (atEnd : Bool)
    (h : ∃ s ∈ sites, s.z = cz ∧ w < s.nbrs.countP (fun q => decide (q.1 = nz))) :
    pairLmp p cz nz w val zero atEnd = .error .assertFail := by
  unfold pairLmp
  rw [numCentres_ok _ _ hS, ok_bind, maxNbrs_ok _ _ hS, ok_bind]
  obtain ⟨s, hs, hz, hw⟩ := h
  have hle := (maxNbrs_le sites cz nz (runningMax (sites.map (fun s =>
      if s.z = cz then s.nbrs.countP (fun q => decide (q.1 = nz)) else 0)))).1 le_rfl s hs hz
  have : decide (((runningMax (sites.map (fun s =>
      if s.z = cz then s.nbrs.countP (fun q => decide (q.1 = nz)) else 0)) : ℕ) : ℤ) ≤ w) = false := by
    rw [decide_eq_false_iff_not]
    omega
  rw [this, pairFill_assert _ _ hS _ _ _ _ ⟨s, hs, hz⟩, error_bind]

end MaterSDK
