import Verif.Lemmas.ArrayUtils

/-!
# C140 - C141: nested arrays
-/

namespace MaterSDK

variable {K : Type}

/-! ## C140 -/

/-- C140.  An array from `allocate3dArray`, `allocate4dArray` or `allocate5dArray`, whatever its sizes
and whatever else is allocated: every assignment to an index in range succeeds; reading an index in
range gives the value assigned to it last, zero if there is none and the array was asked for with
`init_mark`, and is undefined if there is none and it was not; nothing outside the array changes; and
freeing it with the sizes it was made with gives back exactly its memory. -/
theorem C140_nested_arrays [Zero K] (h : NHeap K) (m : ℕ) (ds : List ℕ) (init : Bool)
    (ws : List (List ℕ × K)) (hw : ∀ w ∈ ws, InSizes m ds w.1) :
    ∃ h1 p h2 h3, allocNested m ds init h = .ok (h1, p) ∧
      ws.foldlM (fun g w => writeNested w.2 g p w.1) h1 = .ok h2 ∧
      (∀ idx, InSizes m ds idx → readNested h2 p idx =
        match lastWrite ws idx, init with
        | some v, _ => .ok v
        | none, true => .ok 0
        | none, false => .error .undefined) ∧
      (∀ (q : ℕ) c, h[q]? = some (some c) → h2[q]? = some (some c)) ∧
      liveBlocks h2 = liveBlocks h + numBlocks ds ∧
      freeNested ds h2 p = .ok h3 ∧
      ∀ (q : ℕ) c, h3[q]? = some (some c) ↔ h[q]? = some (some c) := by
  obtain ⟨R, ho⟩ := exists_owns h
  obtain ⟨h1, p, A, e1, o1, k1, n1⟩ := allocNested_spec m ds init h R ho
  obtain ⟨h2, e2, o2, k2, n2⟩ := writes_spec m ds _ p A R h1 o1 n1 ws hw
  obtain ⟨h3, e3, o3, k3⟩ := freeNested_spec m ds _ p A h2 R o2 n2
  refine ⟨h1, p, h2, h3, e1, e2, fun idx hi => ?_, fun q c hq => ?_, ?_, e3, fun q c => ?_⟩
  · rw [readNested_spec m ds _ p A idx n2 hi]
    cases lastWrite ws idx <;> cases init <;> rfl
  · have hR := (ho.2 q).2 ⟨c, hq⟩
    rw [k2 q hR, k1 q hR, hq]
  · rw [countP_live _ _ o2, countP_live _ _ ho, List.length_append, isNested_length m ds _ p A n2]
    omega
  · exact same_blocks ho o3 (fun q hq => by rw [k3 q hq, k2 q hq, k1 q hq]) q c

/-- C140, indices: a first index which is not below the first size is not inside the array. -/
theorem C140_out_of_range [Zero K] (h : NHeap K) (m n : ℕ) (ds : List ℕ) (init : Bool)
    (i j : ℕ) (idx : List ℕ) (hi : n ≤ i) :
    ∃ h1 p, allocNested m (n :: ds) init h = .ok (h1, p) ∧
      readNested h1 p (i :: j :: idx) = .error .outOfBounds ∧
      ∀ v, writeNested v h1 p (i :: j :: idx) = .error .outOfBounds := by
  obtain ⟨R, ho⟩ := exists_owns h
  obtain ⟨h1, p, A, e1, o1, k1, qs, As, l1, l2, rfl, hp, hc⟩ := allocNested_spec m (n :: ds) init h R ho
  have hl := loadPtr_oob hp (i := i) (by simp; omega)
  refine ⟨h1, p, e1, ?_, fun v => ?_⟩
  · rw [readNested, hl]; rfl
  · rw [writeNested, hl]; rfl

/-- Three sizes, two assignments to one cell: `a[1][0][2] = 5; a[1][0][2] = 7`. -/
example : ∃ h1 p h2 h3, allocNested 4 [2, 3] true ([] : NHeap ℤ) = .ok (h1, p) ∧
    [([1, 0, 2], (5 : ℤ)), ([1, 0, 2], 7)].foldlM (fun g w => writeNested w.2 g p w.1) h1 = .ok h2 ∧
    readNested h2 p [1, 0, 2] = .ok 7 ∧ readNested h2 p [0, 2, 3] = .ok 0 ∧
    liveBlocks h2 = 9 ∧ freeNested [2, 3] h2 p = .ok h3 ∧ ∀ (q : ℕ) c, h3[q]? ≠ some (some c) := by
  obtain ⟨h1, p, h2, h3, a, b, c, _, d, e, f⟩ := C140_nested_arrays ([] : NHeap ℤ) 4 [2, 3] true
    [([1, 0, 2], (5 : ℤ)), ([1, 0, 2], 7)] (by
      intro w hw
      simp only [List.mem_cons, List.not_mem_nil, or_false] at hw
      rcases hw with rfl | rfl <;> simp [InSizes])
  refine ⟨h1, p, h2, h3, a, b, ?_, ?_, d, e, fun q c hq => ?_⟩
  · rw [c [1, 0, 2] (by simp [InSizes])]; rfl
  · rw [c [0, 2, 3] (by simp [InSizes])]; rfl
  · have := (f q c).1 hq
    simp at this

/-! ## C141 -/

/-- C141.  Freeing an array with another first size than it was made with: a larger one reads behind
the block of pointers; a smaller one succeeds and loses the parts which were not counted. -/
theorem C141_free_other_size [Zero K] (h : NHeap K) (m n n' : ℕ) (ds : List ℕ) (init : Bool) :
    ∃ h1 p, allocNested m (n :: ds) init h = .ok (h1, p) ∧
      (n < n' → freeNested (n' :: ds) h1 p = .error .outOfBounds) ∧
      (n' ≤ n → ∃ h2, freeNested (n' :: ds) h1 p = .ok h2 ∧
        (∀ (q : ℕ) c, h[q]? = some (some c) → h2[q]? = some (some c)) ∧
        liveBlocks h2 = liveBlocks h + (n - n') * numBlocks ds) := by
  obtain ⟨R, ho⟩ := exists_owns h
  obtain ⟨h1, p, A, e1, o1, k1, qs, As, l1, l2, rfl, hp, hc⟩ := allocNested_spec m (n :: ds) init h R ho
  refine ⟨h1, p, e1, fun hlt => ?_, fun hle => ?_⟩
  · obtain ⟨h2, e2, o2, g2, k2⟩ := freeLoop_spec m ds (freeNested_spec m ds) (fun _ => if init then some 0 else none) p qs As h1 R o1
      (by omega) hp hc n (by omega)
    unfold freeNested
    obtain ⟨k, rfl⟩ : ∃ k, n' = n + 1 + k := ⟨n' - (n + 1), by omega⟩
    rw [show List.range (n + 1 + k) = List.range n ++ n :: (List.range k).map (n + 1 + ·) by
      rw [List.range_add, List.range_succ]; simp]
    rw [List.foldlM_append, e2, ok_bind, List.foldlM_cons, loadPtr_oob g2 (by simp; omega)]
    rfl
  · obtain ⟨h2, e2, o2, g2, k2⟩ := freeLoop_spec m ds (freeNested_spec m ds) (fun _ => if init then some 0 else none) p qs As h1 R o1
      (by omega) hp hc n' (by omega)
    obtain ⟨h3, e3, o3, k3⟩ := owns_free o2
    refine ⟨h3, ?_, fun q c hq => ?_, ?_⟩
    · unfold freeNested
      rw [e2, ok_bind, e3]
    · have hR := (ho.2 q).2 ⟨c, hq⟩
      rw [k3 q (by simp [hR]), k2 q hR, k1 q hR, hq]
    · rw [countP_live _ _ o3, countP_live _ _ ho, List.length_append,
        drop_blocks m ds (fun _ => if init then some 0 else none) qs As (by omega) hc n', l1]
      omega

/-- An array of 4 by 80 by 4 freed as 3 by 80: 81 blocks are lost. -/
example : ∃ h1 p h2, allocNested 4 [4, 80] false ([] : NHeap ℤ) = .ok (h1, p) ∧
    freeNested [3, 80] h1 p = .ok h2 ∧ liveBlocks h2 = 81 := by
  obtain ⟨h1, p, e, _, f⟩ := C141_free_other_size ([] : NHeap ℤ) 4 4 3 [80] false
  obtain ⟨h2, e2, _, e3⟩ := f (by omega)
  exact ⟨h1, p, h2, e, e2, by rw [e3]; rfl⟩

end MaterSDK
