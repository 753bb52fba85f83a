import Verif.Model.TildeRMem
import Verif.Lemmas.ArrayUtils

/-!
# Memory used by the functions of `TildeR`: proofs
-/

namespace MaterSDK

variable {K : Type}

theorem foldlM_zipIdx_inv {ε σ α : Type} (f : σ → α × ℕ → Except ε σ) (P : ℕ → σ → Prop)
    (l : List α) (s : σ) (h0 : P 0 s)
    (h : ∀ (k : ℕ) a, l[k]? = some a → ∀ s, P k s → ∃ s', f s (a, k) = .ok s' ∧ P (k + 1) s') :
    ∃ s', l.zipIdx.foldlM f s = .ok s' ∧ P l.length s' := by
  induction l using List.reverseRecOn with
  | nil => exact ⟨s, rfl, h0⟩
  | append_singleton l a ih =>
    obtain ⟨s1, e1, p1⟩ := ih (fun k b hk => h k b (by
      rw [List.getElem?_append_left (List.getElem?_eq_some_iff.1 hk).1]
      exact hk))
    obtain ⟨s2, e2, p2⟩ := h l.length a (by simp) s1 p1
    refine ⟨s2, ?_, by simpa using p2⟩
    rw [List.zipIdx_append, List.foldlM_append, e1, ok_bind]
    simp only [Nat.zero_add, List.zipIdx_singleton, List.foldlM_cons, List.foldlM_nil, e2, ok_bind]
    rfl

theorem mem_nestedIdx (m : ℕ) : ∀ (ds idx : List ℕ), idx ∈ nestedIdx m ds ↔ InSizes m ds idx
  | [], [] => by simp [nestedIdx, InSizes]
  | [], [k] => by simp [nestedIdx, InSizes]
  | [], _ :: _ :: _ => by simp [nestedIdx, InSizes]
  | n :: ds, [] => by simp [nestedIdx, InSizes]
  | n :: ds, i :: idx => by
    simp only [nestedIdx, InSizes, List.mem_flatMap, List.mem_range, List.mem_map, List.cons.injEq]
    constructor
    · rintro ⟨k, hk, J, hJ, rfl, rfl⟩
      exact ⟨hk, (mem_nestedIdx m ds J).1 hJ⟩
    · rintro ⟨hi, hx⟩
      exact ⟨i, hi, idx, (mem_nestedIdx m ds idx).2 hx, rfl, rfl⟩

theorem inSizes_shift {m n w N W cs ns : ℕ} {tail idx : List ℕ} (h : InSizes m (n :: w :: tail) idx)
    (hc : cs + n ≤ N) (hw : ns + w ≤ W) : InSizes m (N :: W :: tail) (shiftIdx cs ns idx) := by
  match idx, h with
  | [], h => exact h.elim
  | [i], h => exact h.2.elim
  | i :: j :: t, h =>
    obtain ⟨h1, h2, h3⟩ := h
    exact ⟨by omega, by omega, h3⟩

theorem shift_inj {m n w cs ns n' w' cs' ns' : ℕ} {tail idx idx' : List ℕ}
    (h : InSizes m (n :: w :: tail) idx) (h' : InSizes m (n' :: w' :: tail) idx')
    (e : shiftIdx cs ns idx = shiftIdx cs' ns' idx') :
    (cs < cs' + n' ∧ cs' < cs + n) ∧ (ns < ns' + w' ∧ ns' < ns + w) ∧
      (cs = cs' → ns = ns' → idx = idx') := by
  match idx, h, idx', h' with
  | [], h, _, _ => exact h.elim
  | [i], h, _, _ => exact h.2.elim
  | _ :: _ :: _, _, [], h => exact h.elim
  | _ :: _ :: _, _, [i], h => exact h.2.elim
  | i :: j :: t, h, i' :: j' :: t', h' =>
    obtain ⟨h1, h2, _⟩ := h
    obtain ⟨h1', h2', _⟩ := h'
    simp only [shiftIdx, List.cons.injEq] at e
    obtain ⟨e1, e2, e3⟩ := e
    refine ⟨by omega, by omega, fun a b => ?_⟩
    have : i = i' := by omega
    have : j = j' := by omega
    simp_all

/-! ## Starts -/

theorem take_sum_succ {l : List ℕ} {i a : ℕ} (h : l[i]? = some a) :
    (l.take (i + 1)).sum = (l.take i).sum + a := by
  rw [List.take_add_one, h]
  simp

theorem take_sum_mono (l : List ℕ) {i j : ℕ} (h : i ≤ j) : (l.take i).sum ≤ (l.take j).sum := by
  obtain ⟨k, rfl⟩ := Nat.exists_eq_add_of_le h
  rw [List.take_add, List.sum_append]
  omega

theorem start_le_sum {l : List ℕ} {i a : ℕ} (h : l[i]? = some a) : (l.take i).sum + a ≤ l.sum := by
  rw [← take_sum_succ h]
  have := take_sum_mono l (i := i + 1) (j := l.length) (List.getElem?_eq_some_iff.1 h).1
  simpa using this

/-- Intervals of different parts do not meet. -/
theorem start_inj {l : List ℕ} {i j a b : ℕ} (hi : l[i]? = some a) (hj : l[j]? = some b)
    (h1 : (l.take i).sum < (l.take j).sum + b) (h2 : (l.take j).sum < (l.take i).sum + a) : i = j := by
  rcases Nat.lt_trichotomy i j with h | h | h
  · have := take_sum_mono l (i := i + 1) (j := j) h
    rw [take_sum_succ hi] at this
    omega
  · exact h
  · have := take_sum_mono l (i := j + 1) (j := i) h
    rw [take_sum_succ hj] at this
    omega

/-! ## One pair of elements -/

theorem pairMem_spec [Zero K] (m : ℕ) (tail : List ℕ) (n w : ℕ) (ws : List (List ℕ × K))
    (hw : ∀ a ∈ ws, InSizes m (n :: w :: tail) a.1) (h : NHeap K) (R : List ℕ) (ho : OwnsAll h R) :
    ∃ h' p B, pairMem m tail n w ws h = .ok (h', p) ∧ OwnsAll h' (B ++ R) ∧
      (∀ q ∈ R, h'[q]? = h[q]?) ∧
      IsNested h' m (n :: w :: tail) (fun J => some ((lastWrite ws J).getD 0)) p B := by
  obtain ⟨o1, k1, g1⟩ := owns_alloc (.val (.vals (List.replicate 3 none)) : Block (NBlock K)) ho
  obtain ⟨h2, p, B, e2, o2, k2, n2⟩ := allocNested_spec m (n :: w :: tail) true _ _ o1
  obtain ⟨h3, e3, o3, k3, n3⟩ := writes_spec m (n :: w :: tail) _ p B _ h2 o2 n2 ws hw
  obtain ⟨h4, e4, o4, k4⟩ := owns_free (OwnsAll.perm List.perm_middle o3)
  refine ⟨h4, p, B, ?_, o4, fun q hq => ?_, ?_⟩
  · unfold pairMem
    simp only [objAlloc, e2, ok_bind, e3, e4]
    rfl
  · rw [k4 q (by simp [hq]), k3 q (by simp [hq]), k2 q (by simp [hq]), k1 q hq]
  · refine IsNested.congr (fun q hq => k4 q (by simp [hq])) ?_
    have : (fun J => some ((lastWrite ws J).getD 0)) =
        fun J => match lastWrite ws J with
          | some v => some v
          | none => if true then some 0 else none := by
      funext J
      cases lastWrite ws J <;> rfl
    rw [this]
    exact n3

theorem lastWrite_map_mem {cs ns m n w : ℕ} {tail : List ℕ} (v : List ℕ → K) :
    ∀ (L : List (List ℕ)), (∀ i ∈ L, InSizes m (n :: w :: tail) i) → ∀ idx ∈ L,
      lastWrite (L.map fun i => (shiftIdx cs ns i, v i)) (shiftIdx cs ns idx) = some (v idx) := by
  intro L
  induction L using List.reverseRecOn with
  | nil => simp
  | append_singleton L a ih =>
    intro hL idx hi
    rw [List.map_append, List.map_singleton, lastWrite_append]
    by_cases e : shiftIdx cs ns idx = shiftIdx cs ns a
    · rw [if_pos e]
      have := (shift_inj (hL idx hi) (hL a (by simp)) e).2.2 rfl rfl
      rw [this]
    · rw [if_neg e]
      refine ih (fun i h => hL i (by simp [h])) idx ?_
      rcases List.mem_append.1 hi with h | h
      · exact h
      · exact absurd (by rw [List.mem_singleton.1 h]) e

theorem lastWrite_map_notMem {cs ns : ℕ} (v : List ℕ → K) (J : List ℕ) :
    ∀ (L : List (List ℕ)), (∀ i ∈ L, shiftIdx cs ns i ≠ J) →
      lastWrite (L.map fun i => (shiftIdx cs ns i, v i)) J = none := by
  intro L
  induction L using List.reverseRecOn with
  | nil => intro _; rfl
  | append_singleton L a ih =>
    intro hL
    rw [List.map_append, List.map_singleton, lastWrite_append,
      if_neg (fun e => hL a (by simp) e.symm)]
    exact ih (fun i h => hL i (by simp [h]))

theorem copyMem_spec (m : ℕ) (tail : List ℕ) (n w N W cs ns src dst : ℕ) (f : List ℕ → Option K)
    (v : List ℕ → K) (A B R : List ℕ) (h : NHeap K) (ho : OwnsAll h (A ++ (B ++ R)))
    (hd : IsNested h m (N :: W :: tail) f dst A)
    (hs : IsNested h m (n :: w :: tail) (fun J => some (v J)) src B)
    (hc : cs + n ≤ N) (hw : ns + w ≤ W) :
    ∃ h' f', copyMem m tail n w cs ns src dst h = .ok h' ∧ OwnsAll h' (A ++ (B ++ R)) ∧
      (∀ q ∈ B ++ R, h'[q]? = h[q]?) ∧ IsNested h' m (N :: W :: tail) f' dst A ∧
      (∀ idx, InSizes m (n :: w :: tail) idx → f' (shiftIdx cs ns idx) = some (v idx)) ∧
      ∀ J, (∀ idx, InSizes m (n :: w :: tail) idx → shiftIdx cs ns idx ≠ J) → f' J = f J := by
  have key : ∀ L : List (List ℕ), (∀ i ∈ L, InSizes m (n :: w :: tail) i) →
      ∃ h', L.foldlM (fun g idx => do
          let v ← readNested g src idx
          writeNested v g dst (shiftIdx cs ns idx)) h = .ok h' ∧ OwnsAll h' (A ++ (B ++ R)) ∧
        (∀ q ∈ B ++ R, h'[q]? = h[q]?) ∧
        IsNested h' m (N :: W :: tail) (fun J =>
          match lastWrite (L.map fun i => (shiftIdx cs ns i, v i)) J with
          | some v => some v
          | none => f J) dst A := by
    intro L
    induction L using List.reverseRecOn with
    | nil => exact fun _ => ⟨h, rfl, ho, fun _ _ => rfl, hd⟩
    | append_singleton L a ih =>
      intro hL
      obtain ⟨h1, e1, o1, k1, n1⟩ := ih (fun i hi => hL i (by simp [hi]))
      have hs1 := IsNested.congr (fun q hq => k1 q (by simp [hq])) hs
      have hr := readNested_spec m (n :: w :: tail) _ src B a hs1 (hL a (by simp))
      obtain ⟨h2, e2, o2, k2, n2⟩ := writeNested_spec m (v a) (N :: W :: tail) _ dst A
        (shiftIdx cs ns a) h1 (B ++ R) o1 n1 (inSizes_shift (hL a (by simp)) hc hw)
      refine ⟨h2, ?_, o2, fun q hq => (k2 q hq).trans (k1 q hq), ?_⟩
      · rw [List.foldlM_append, e1, ok_bind, List.foldlM_cons, hr, ok_bind, e2]
        rfl
      · have : (fun J => match lastWrite ((L ++ [a]).map fun i => (shiftIdx cs ns i, v i)) J with
            | some v => some v
            | none => f J) =
            fun J => if J = shiftIdx cs ns a then some (v a) else
              match lastWrite (L.map fun i => (shiftIdx cs ns i, v i)) J with
              | some v => some v
              | none => f J := by
          funext J
          rw [List.map_append, List.map_singleton, lastWrite_append]
          by_cases e : J = shiftIdx cs ns a <;> simp [e]
        rw [this]
        exact n2
  have hall : ∀ i ∈ nestedIdx m (n :: w :: tail), InSizes m (n :: w :: tail) i :=
    fun i hi => (mem_nestedIdx m _ i).1 hi
  obtain ⟨h', e, o, k, hn⟩ := key (nestedIdx m (n :: w :: tail)) hall
  refine ⟨h', _, e, o, k, hn, fun idx hi => ?_, fun J hJ => ?_⟩
  · rw [lastWrite_map_mem v _ hall idx ((mem_nestedIdx m _ idx).2 hi)]
  · rw [lastWrite_map_notMem v J _ (fun i hi => hJ i (hall i hi))]

/-! ## All pairs -/

/-- The cells of one pair of elements hold what was assigned to the array of the pair. -/
def PairDone [Zero K] (m : ℕ) (tail nc nn : List ℕ) (ws : ℕ → ℕ → List (List ℕ × K))
    (f : List ℕ → Option K) (i j : ℕ) : Prop :=
  ∀ n w, nc[i]? = some n → nn[j]? = some w → ∀ idx, InSizes m (n :: w :: tail) idx →
    f (shiftIdx (nc.take i).sum (nn.take j).sum idx) = some ((lastWrite (ws i j) idx).getD 0)

/-- What holds between the pairs. -/
def PairInv [Zero K] (m : ℕ) (tail nc nn : List ℕ) (ws : ℕ → ℕ → List (List ℕ × K)) (dst : ℕ)
    (A R : List ℕ) (h : NHeap K) (done : ℕ → ℕ → Prop) (g : NHeap K) : Prop :=
  OwnsAll g (A ++ R) ∧ (∀ q ∈ R, g[q]? = h[q]?) ∧
    ∃ f, IsNested g m (nc.sum :: nn.sum :: tail) f dst A ∧
      ∀ i j, done i j → PairDone m tail nc nn ws f i j

theorem pairStep_spec [Zero K] (m : ℕ) (tail nc nn : List ℕ) (ws : ℕ → ℕ → List (List ℕ × K))
    (dst : ℕ) (A R : List ℕ) (h : NHeap K) (done : ℕ → ℕ → Prop) (g : NHeap K)
    (hg : PairInv m tail nc nn ws dst A R h done g) (i j n w : ℕ) (hn : nc[i]? = some n)
    (hw : nn[j]? = some w) (hws : ∀ a ∈ ws i j, InSizes m (n :: w :: tail) a.1) :
    ∃ g', (do
        let r ← pairMem m tail n w (ws i j) g
        let g ← copyMem m tail n w (nc.take i).sum (nn.take j).sum r.2 dst r.1
        freeNested (n :: w :: tail) g r.2) = .ok g' ∧
      PairInv m tail nc nn ws dst A R h (fun i' j' => done i' j' ∨ (i' = i ∧ j' = j)) g' := by
  obtain ⟨o0, k0, f, n0, d0⟩ := hg
  obtain ⟨g1, p, B, e1, o1, k1, n1⟩ := pairMem_spec m tail n w (ws i j) hws g _ o0
  have hdst : IsNested g1 m (nc.sum :: nn.sum :: tail) f dst A :=
    IsNested.congr (fun q hq => k1 q (by simp [hq])) n0
  have o1' : OwnsAll g1 (A ++ (B ++ R)) := by
    refine OwnsAll.perm ?_ o1
    rw [← List.append_assoc, ← List.append_assoc]
    exact List.Perm.append_right _ List.perm_append_comm
  obtain ⟨g2, f2, e2, o2, k2, n2, c2, u2⟩ := copyMem_spec m tail n w nc.sum nn.sum (nc.take i).sum
    (nn.take j).sum p dst f _ A B R g1 o1' hdst n1 (start_le_sum hn) (start_le_sum hw)
  have n1' := IsNested.congr (fun q hq => k2 q (by simp [hq])) n1
  have o2' : OwnsAll g2 (B ++ (A ++ R)) := by
    refine OwnsAll.perm ?_ o2
    rw [← List.append_assoc, ← List.append_assoc]
    exact List.Perm.append_right _ List.perm_append_comm
  obtain ⟨g3, e3, o3, k3⟩ := freeNested_spec m (n :: w :: tail) _ p B g2 _ o2' n1'
  refine ⟨g3, ?_, o3, fun q hq => ?_, f2, ?_, ?_⟩
  · rw [e1, ok_bind, e2, ok_bind, e3]
  · rw [k3 q (by simp [hq]), k2 q (by simp [hq]), k1 q (by simp [hq]), k0 q hq]
  · exact IsNested.congr (fun q hq => k3 q (by simp [hq])) n2
  · intro i' j' hd n' w' hn' hw' idx hidx
    by_cases hij : i' = i ∧ j' = j
    · obtain ⟨rfl, rfl⟩ := hij
      rw [hn] at hn'
      rw [hw] at hw'
      cases hn'
      cases hw'
      exact c2 idx hidx
    · have hd' : done i' j' := hd.resolve_right hij
      rw [u2 _ fun idx' hidx' e => hij ?_]
      · exact d0 i' j' hd' n' w' hn' hw' idx hidx
      · obtain ⟨⟨a1, a2⟩, ⟨b1, b2⟩, _⟩ := shift_inj hidx' hidx e
        exact ⟨start_inj hn' hn a2 a1, start_inj hw' hw b2 b1⟩

/-- All assignments are inside the arrays of the pairs. -/
def WsOk (m : ℕ) (tail nc nn : List ℕ) (ws : ℕ → ℕ → List (List ℕ × K)) : Prop :=
  ∀ i j n w, nc[i]? = some n → nn[j]? = some w → ∀ a ∈ ws i j, InSizes m (n :: w :: tail) a.1

theorem PairInv.mono [Zero K] {m : ℕ} {tail nc nn : List ℕ} {ws : ℕ → ℕ → List (List ℕ × K)} {dst : ℕ}
    {A R : List ℕ} {h : NHeap K} {done done' : ℕ → ℕ → Prop} {g : NHeap K}
    (hg : PairInv m tail nc nn ws dst A R h done g)
    (hd : ∀ i j, i < nc.length → j < nn.length → done' i j → done i j) :
    PairInv m tail nc nn ws dst A R h done' g := by
  obtain ⟨o, k, f, hn, d⟩ := hg
  refine ⟨o, k, f, hn, fun i j hij n w h1 h2 => ?_⟩
  exact d i j (hd i j (List.getElem?_eq_some_iff.1 h1).1 (List.getElem?_eq_some_iff.1 h2).1 hij)
    n w h1 h2

theorem pairs_spec [Zero K] (m : ℕ) (tail nc nn : List ℕ) (ws : ℕ → ℕ → List (List ℕ × K))
    (hws : WsOk m tail nc nn ws) (dst : ℕ) (A R : List ℕ) (h : NHeap K)
    (hg : PairInv m tail nc nn ws dst A R h (fun _ _ => False) h) :
    ∃ g, nc.zipIdx.foldlM (fun g ci => nn.zipIdx.foldlM (fun g nj => do
        let r ← pairMem m tail ci.1 nj.1 (ws ci.2 nj.2) g
        let g ← copyMem m tail ci.1 nj.1 (nc.take ci.2).sum (nn.take nj.2).sum r.2 dst r.1
        freeNested (ci.1 :: nj.1 :: tail) g r.2) g) h = .ok g ∧
      PairInv m tail nc nn ws dst A R h (fun _ _ => True) g := by
  obtain ⟨g, e, hg⟩ := foldlM_zipIdx_inv (fun g (ci : ℕ × ℕ) => nn.zipIdx.foldlM (fun g nj => do
        let r ← pairMem m tail ci.1 nj.1 (ws ci.2 nj.2) g
        let g ← copyMem m tail ci.1 nj.1 (nc.take ci.2).sum (nn.take nj.2).sum r.2 dst r.1
        freeNested (ci.1 :: nj.1 :: tail) g r.2) g)
    (fun i g => PairInv m tail nc nn ws dst A R h (fun i' _ => i' < i) g) nc h
    (hg.mono fun i j _ _ hlt => absurd hlt (Nat.not_lt_zero _))
    (fun i n hn g hg => by
      obtain ⟨g', e', hg'⟩ := foldlM_zipIdx_inv (fun g (nj : ℕ × ℕ) => (do
          let r ← pairMem m tail n nj.1 (ws i nj.2) g
          let g ← copyMem m tail n nj.1 (nc.take i).sum (nn.take nj.2).sum r.2 dst r.1
          freeNested (n :: nj.1 :: tail) g r.2 : Except CErr (NHeap K)))
        (fun j g => PairInv m tail nc nn ws dst A R h (fun i' j' => i' < i ∨ (i' = i ∧ j' < j)) g) nn g
        (hg.mono fun i' j' _ _ hlt => by omega)
        (fun j w hw g hg => by
          obtain ⟨g', e', hg'⟩ := pairStep_spec m tail nc nn ws dst A R h _ g hg i j n w hn hw
            (hws i j n w hn hw)
          exact ⟨g', e', hg'.mono fun i' j' _ _ hlt => by omega⟩)
      exact ⟨g', e', hg'.mono fun i' j' _ hj hlt => by omega⟩)
  exact ⟨g, e, hg.mono fun i j hi _ _ => hi⟩

theorem tildeMemInto_spec [Zero K] (freeStarts : Bool) (m : ℕ) (tail nc nn : List ℕ)
    (ws : ℕ → ℕ → List (List ℕ × K)) (hws : WsOk m tail nc nn ws) (dst : ℕ) (A R : List ℕ)
    (h : NHeap K) (f : List ℕ → Option K) (ho : OwnsAll h (A ++ R))
    (hd : IsNested h m (nc.sum :: nn.sum :: tail) f dst A) :
    ∃ h' L f', tildeMemInto freeStarts m tail nc nn ws dst h = .ok h' ∧ OwnsAll h' (A ++ (L ++ R)) ∧
      L.length = (if freeStarts then 0 else 2) ∧ (∀ q ∈ R, h'[q]? = h[q]?) ∧
      IsNested h' m (nc.sum :: nn.sum :: tail) f' dst A ∧
      ∀ i j, PairDone m tail nc nn ws f' i j := by
  obtain ⟨o1, k1, _⟩ := owns_alloc (.uninit : Block (NBlock K)) ho
  obtain ⟨o2, k2, _⟩ := owns_alloc (.uninit : Block (NBlock K)) o1
  obtain ⟨o3, k3, _⟩ := owns_alloc (.uninit : Block (NBlock K)) o2
  set h1 := h ++ [some (.uninit : Block (NBlock K))] with hh1
  set h2 := h1 ++ [some (.uninit : Block (NBlock K))] with hh2
  set h3 := h2 ++ [some (.uninit : Block (NBlock K))] with hh3
  have hd3 : IsNested h3 m (nc.sum :: nn.sum :: tail) f dst A := by
    refine IsNested.congr (fun q hq => ?_) hd
    rw [k3 q (by simp [hq]), k2 q (by simp [hq]), k1 q (by simp [hq])]
  have o3' : OwnsAll h3 (A ++ (h2.length :: h1.length :: h.length :: R)) := by
    refine OwnsAll.perm ?_ o3
    have : (h2.length :: h1.length :: h.length :: (A ++ R)) =
        [h2.length, h1.length, h.length] ++ A ++ R := by simp
    rw [this]
    have e : A ++ (h2.length :: h1.length :: h.length :: R) =
        A ++ [h2.length, h1.length, h.length] ++ R := by simp
    rw [e]
    exact List.Perm.append_right _ List.perm_append_comm
  obtain ⟨g, e, og, kg, f', ng, dg⟩ := pairs_spec m tail nc nn ws hws dst A _ h3
    ⟨o3', fun _ _ => rfl, f, hd3, fun _ _ h => h.elim⟩
  have og1 : OwnsAll g (h.length :: (A ++ (h2.length :: h1.length :: R))) := by
    refine OwnsAll.perm ?_ og
    have e1 : A ++ (h2.length :: h1.length :: h.length :: R) =
      (A ++ [h2.length, h1.length]) ++ h.length :: R := by simp
    have e2 : h.length :: (A ++ (h2.length :: h1.length :: R)) =
      h.length :: ((A ++ [h2.length, h1.length]) ++ R) := by simp
    rw [e1, e2]
    exact List.perm_middle
  obtain ⟨g1, e1, o4, k4⟩ := owns_free og1
  have hR : ∀ q ∈ R, g1[q]? = h[q]? := by
    intro q hq
    rw [k4 q (by simp [hq]), kg q (by simp [hq]), k3 q (by simp [hq]), k2 q (by simp [hq]),
      k1 q (by simp [hq])]
  have hn1 := IsNested.congr (fun q hq => k4 q (by simp [hq])) ng
  unfold tildeMemInto
  simp only [objAlloc, ← hh1, ← hh2, ← hh3]
  rw [e, ok_bind, e1, ok_bind]
  cases freeStarts with
  | false =>
    exact ⟨g1, [h2.length, h1.length], f', rfl, by simpa using o4, rfl, hR, hn1, fun i j => dg i j trivial⟩
  | true =>
    have o4' : OwnsAll g1 (h1.length :: (A ++ (h2.length :: R))) := by
      refine OwnsAll.perm ?_ o4
      have e1 : A ++ (h2.length :: h1.length :: R) = (A ++ [h2.length]) ++ h1.length :: R := by simp
      have e2 : h1.length :: (A ++ (h2.length :: R)) = h1.length :: ((A ++ [h2.length]) ++ R) := by simp
      rw [e1, e2]
      exact List.perm_middle
    obtain ⟨g2, e2, o5, k5⟩ := owns_free o4'
    obtain ⟨g3, e3, o6, k6⟩ := owns_free (OwnsAll.perm List.perm_middle o5)
    refine ⟨g3, [], f', ?_, by simpa using o6, rfl, fun q hq => ?_, ?_, fun i j => dg i j trivial⟩
    · simp only [if_true, e2, ok_bind, e3]
    · rw [k6 q (by simp [hq]), k5 q (by simp [hq]), hR q hq]
    · refine IsNested.congr (fun q hq => ?_) hn1
      rw [k6 q (by simp [hq]), k5 q (by simp [hq])]

end MaterSDK
