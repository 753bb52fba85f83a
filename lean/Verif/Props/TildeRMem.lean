import Verif.Lemmas.TildeRMem

/-!
# C142: memory used by the functions of `TildeR`
-/

namespace MaterSDK

variable {K : Type}

theorem calls_spec [Zero K] (freeStarts : Bool) (m : ℕ) (tail nc nn : List ℕ) (dst : ℕ)
    (A R : List ℕ) (h : NHeap K) (f : List ℕ → Option K) (ho : OwnsAll h (A ++ R))
    (hd : IsNested h m (nc.sum :: nn.sum :: tail) f dst A)
    (calls : List (ℕ → ℕ → List (List ℕ × K))) (hws : ∀ ws ∈ calls, WsOk m tail nc nn ws) :
    ∃ h' L f', calls.foldlM (fun g ws => tildeMemInto freeStarts m tail nc nn ws dst g) h = .ok h' ∧
      OwnsAll h' (A ++ (L ++ R)) ∧ L.length = (if freeStarts then 0 else 2 * calls.length) ∧
      (∀ q ∈ R, h'[q]? = h[q]?) ∧ IsNested h' m (nc.sum :: nn.sum :: tail) f' dst A ∧
      ∀ ws, calls.getLast? = some ws → ∀ i j, PairDone m tail nc nn ws f' i j := by
  induction calls using List.reverseRecOn with
  | nil =>
    refine ⟨h, [], f, rfl, ho, ?_, fun _ _ => rfl, hd, by simp⟩
    cases freeStarts <;> rfl
  | append_singleton calls ws ih =>
    obtain ⟨h1, L1, f1, e1, o1, l1, k1, n1, _⟩ := ih (fun ws hm => hws ws (by simp [hm]))
    obtain ⟨h2, L2, f2, e2, o2, l2, k2, n2, d2⟩ := tildeMemInto_spec freeStarts m tail nc nn ws
      (hws ws (by simp)) dst A (L1 ++ R) h1 f1 o1 n1
    refine ⟨h2, L2 ++ L1, f2, ?_, by simpa using o2, ?_, fun q hq => ?_, n2, ?_⟩
    · rw [List.foldlM_append, e1, ok_bind, List.foldlM_cons, e2]
      rfl
    · rw [List.length_append, l1, l2]
      cases freeStarts
      · simp; omega
      · rfl
    · rw [k2 q (by simp [hq]), k1 q hq]
    · intro ws' hws'
      have : ws' = ws := by simpa using hws'.symm
      rw [this]
      exact d2

/-- C142 (partial: not `deriv` into an array of the caller).  `TildeR::generate` into an array of the
caller, called any number of times with any numbers of centres and slots: every call succeeds, no
memory is left behind, nothing but the array changes, and in the end the array holds for each pair of
elements what the last call computed for it. -/
theorem C142_generate_into_partial [Zero K] (h : NHeap K) (m : ℕ) (nc nn : List ℕ) (init : Bool)
    (calls : List (ℕ → ℕ → List (List ℕ × K)))
    (hws : ∀ ws ∈ calls, ∀ i j n w, nc[i]? = some n → nn[j]? = some w →
      ∀ a ∈ ws i j, InSizes m [n, w] a.1) :
    ∃ h1 p h2 h3, allocNested m [nc.sum, nn.sum] init h = .ok (h1, p) ∧
      calls.foldlM (fun g ws => tildeMemInto true m [] nc nn ws p g) h1 = .ok h2 ∧
      liveBlocks h2 = liveBlocks h1 ∧
      (∀ (q : ℕ) c, h[q]? = some (some c) → h2[q]? = some (some c)) ∧
      (∀ ws, calls.getLast? = some ws → ∀ i j n w, nc[i]? = some n → nn[j]? = some w →
        ∀ k < n, ∀ l < w, ∀ t < m,
          readNested h2 p [(nc.take i).sum + k, (nn.take j).sum + l, t] =
            .ok ((lastWrite (ws i j) [k, l, t]).getD 0)) ∧
      freeNested [nc.sum, nn.sum] h2 p = .ok h3 ∧
      ∀ (q : ℕ) c, h3[q]? = some (some c) ↔ h[q]? = some (some c) := by
  obtain ⟨R, ho⟩ := exists_owns h
  obtain ⟨h1, p, A, e1, o1, k1, n1⟩ := allocNested_spec m [nc.sum, nn.sum] init h R ho
  obtain ⟨h2, L, f2, e2, o2, l2, k2, n2, d2⟩ := calls_spec true m [] nc nn p A R h1 _ o1 n1 calls hws
  have hL : L = [] := List.length_eq_zero_iff.1 (by simpa using l2)
  subst hL
  obtain ⟨h3, e3, o3, k3⟩ := freeNested_spec m [nc.sum, nn.sum] _ p A h2 R o2 n2
  refine ⟨h1, p, h2, h3, e1, e2, ?_, fun q c hq => ?_, ?_, e3, fun q c => ?_⟩
  · rw [countP_live _ _ o2, countP_live _ _ o1]; rfl
  · have hR := (ho.2 q).2 ⟨c, hq⟩
    rw [k2 q hR, k1 q hR, hq]
  · intro ws hl i j n w hn hw k hk l hl' t ht
    have hin : InSizes m [n, w] [k, l, t] := ⟨hk, hl', ht⟩
    have := d2 ws hl i j n w hn hw _ hin
    have hr := readNested_spec m [nc.sum, nn.sum] f2 p A _ n2
      (inSizes_shift (cs := (nc.take i).sum) (ns := (nn.take j).sum) hin (start_le_sum hn)
        (start_le_sum hw))
    simp only [shiftIdx] at this hr
    rw [hr, this]
  · exact same_blocks ho o3 (fun q hq => by rw [k3 q hq, k2 q hq, k1 q hq]) q c

/-- C142 (partial: not `deriv` into an array of the caller).  `TildeR::generate` and `TildeR::deriv`
which return a new array: the array is all the memory which is added, and freeing it with the sizes of
the table gives back exactly what was there before. -/
theorem C142_returned_partial [Zero K] (h : NHeap K) (init : Bool) (m : ℕ) (tail nc nn : List ℕ)
    (ws : ℕ → ℕ → List (List ℕ × K))
    (hws : ∀ i j n w, nc[i]? = some n → nn[j]? = some w →
      ∀ a ∈ ws i j, InSizes m (n :: w :: tail) a.1) :
    ∃ h1 p h2, tildeMemNew init m tail nc nn ws h = .ok (h1, p) ∧
      liveBlocks h1 = liveBlocks h + numBlocks (nc.sum :: nn.sum :: tail) ∧
      (∀ i j n w, nc[i]? = some n → nn[j]? = some w → ∀ k < n, ∀ l < w, ∀ t, InSizes m tail t →
        readNested h1 p (((nc.take i).sum + k) :: ((nn.take j).sum + l) :: t) =
          .ok ((lastWrite (ws i j) (k :: l :: t)).getD 0)) ∧
      freeNested (nc.sum :: nn.sum :: tail) h1 p = .ok h2 ∧
      ∀ (q : ℕ) c, h2[q]? = some (some c) ↔ h[q]? = some (some c) := by
  obtain ⟨R, ho⟩ := exists_owns h
  obtain ⟨h1, p, A, e1, o1, k1, n1⟩ := allocNested_spec m (nc.sum :: nn.sum :: tail) init h R ho
  obtain ⟨h2, L, f2, e2, o2, l2, k2, n2, d2⟩ := tildeMemInto_spec true m tail nc nn ws hws p A R h1 _
    o1 n1
  have hL : L = [] := List.length_eq_zero_iff.1 (by simpa using l2)
  subst hL
  obtain ⟨h3, e3, o3, k3⟩ := freeNested_spec m (nc.sum :: nn.sum :: tail) _ p A h2 R o2 n2
  refine ⟨h2, p, h3, ?_, ?_, ?_, e3, fun q c => ?_⟩
  · unfold tildeMemNew
    rw [e1, ok_bind]
    simp only [e2, ok_bind]
    rfl
  · rw [countP_live _ _ o2, countP_live _ _ ho, List.length_append,
      isNested_length m _ _ p A n2]
    simp only [List.nil_append]
    omega
  · intro i j n w hn hw k hk l hl' t ht
    have hin : InSizes m (n :: w :: tail) (k :: l :: t) := ⟨hk, hl', ht⟩
    have := d2 i j n w hn hw _ hin
    have hr := readNested_spec m (nc.sum :: nn.sum :: tail) f2 p A _ n2
      (inSizes_shift (cs := (nc.take i).sum) (ns := (nn.take j).sum) hin (start_le_sum hn)
        (start_le_sum hw))
    simp only [shiftIdx] at this hr
    rw [hr, this]
  · exact same_blocks ho o3 (fun q hq => by rw [k3 q hq, k2 q hq, k1 q hq]) q c

/-- C142 is false for `TildeR::deriv` into an array of the caller: every call leaves two blocks behind,
so that after `k` calls, with the array freed, there are `2 k` blocks more than before. -/
theorem C142_violated_deriv_into [Zero K] (h : NHeap K) (m : ℕ) (tail nc nn : List ℕ) (init : Bool)
    (calls : List (ℕ → ℕ → List (List ℕ × K)))
    (hws : ∀ ws ∈ calls, ∀ i j n w, nc[i]? = some n → nn[j]? = some w →
      ∀ a ∈ ws i j, InSizes m (n :: w :: tail) a.1) :
    ∃ h1 p h2 h3, allocNested m (nc.sum :: nn.sum :: tail) init h = .ok (h1, p) ∧
      calls.foldlM (fun g ws => tildeMemInto false m tail nc nn ws p g) h1 = .ok h2 ∧
      liveBlocks h2 = liveBlocks h1 + 2 * calls.length ∧
      freeNested (nc.sum :: nn.sum :: tail) h2 p = .ok h3 ∧
      liveBlocks h3 = liveBlocks h + 2 * calls.length := by
  obtain ⟨R, ho⟩ := exists_owns h
  obtain ⟨h1, p, A, e1, o1, k1, n1⟩ := allocNested_spec m (nc.sum :: nn.sum :: tail) init h R ho
  obtain ⟨h2, L, f2, e2, o2, l2, k2, n2, d2⟩ := calls_spec false m tail nc nn p A R h1 _ o1 n1 calls hws
  obtain ⟨h3, e3, o3, k3⟩ := freeNested_spec m (nc.sum :: nn.sum :: tail) _ p A h2 _ o2 n2
  simp only [Bool.false_eq_true, if_false] at l2
  refine ⟨h1, p, h2, h3, e1, e2, ?_, e3, ?_⟩
  · rw [countP_live _ _ o2, countP_live _ _ o1]
    simp only [List.length_append, l2]
    omega
  · rw [countP_live _ _ o3, countP_live _ _ ho, List.length_append, l2]
    omega

/-- MoS2 in the comment of the code: 4 Mo and 8 S, 80 and 100 slots; one neighbour of one atom. -/
def exWs : ℕ → ℕ → List (List ℕ × ℤ)
  | 1, 0 => [([7, 79, 3], 5)]
  | _, _ => []

theorem exWs_ok : ∀ i j n w, [4, 8][i]? = some n → [80, 100][j]? = some w →
    ∀ a ∈ exWs i j, InSizes 4 [n, w] a.1 := by
  intro i j n w hn hw a ha
  match i, j with
  | 0, _ => simp [exWs] at ha
  | 1, 0 =>
    simp only [exWs, List.mem_singleton] at ha
    simp at hn hw
    subst hn hw ha
    simp [InSizes]
  | 1, j + 1 => simp [exWs] at ha
  | i + 2, _ => simp [exWs] at ha

example : ∃ h1 p h2, tildeMemNew false 4 [] [4, 8] [80, 100] exWs ([] : NHeap ℤ) = .ok (h1, p) ∧
    liveBlocks h1 = 2173 ∧ readNested h1 p [11, 79, 3] = .ok 5 ∧ readNested h1 p [0, 0, 0] = .ok 0 ∧
    freeNested [12, 180] h1 p = .ok h2 := by
  obtain ⟨h1, p, h2, a, b, c, d, _⟩ := C142_returned_partial ([] : NHeap ℤ) false 4 [] [4, 8] [80, 100]
    exWs exWs_ok
  refine ⟨h1, p, h2, a, b, ?_, ?_, d⟩
  · have := c 1 0 8 80 rfl rfl 7 (by omega) 79 (by omega) [3] (by simp [InSizes])
    simpa [lastWrite, exWs] using this
  · have := c 0 0 4 80 rfl rfl 0 (by omega) 0 (by omega) [0] (by simp [InSizes])
    simpa [lastWrite, exWs] using this

example : ∃ h1 p h2 h3, allocNested 4 [12, 180] true ([] : NHeap ℤ) = .ok (h1, p) ∧
    [exWs, exWs].foldlM (fun g ws => tildeMemInto false 4 [] [4, 8] [80, 100] ws p g) h1 = .ok h2 ∧
    freeNested [12, 180] h2 p = .ok h3 ∧ liveBlocks h3 = 4 := by
  obtain ⟨h1, p, h2, h3, a, b, _, d, e⟩ := C142_violated_deriv_into ([] : NHeap ℤ) 4 [] [4, 8]
    [80, 100] true [exWs, exWs] (by
      intro ws hws
      have : ws = exWs := by simpa using hws
      rw [this]
      exact exWs_ok)
  exact ⟨h1, p, h2, h3, a, b, d, e⟩

end MaterSDK
