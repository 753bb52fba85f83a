import Verif.Lemmas.ArraySizes

/-!
# C140 and C141 for all indices and all sizes
-/

namespace MaterSDK

variable {K : Type}

/-- C140, indices out of range: after any assignments, reading or assigning with an index of which any entry is
not below its size goes outside of a block. -/
theorem C140_every_bad_index [Zero K] (h : NHeap K) (m : ℕ) (ds : List ℕ) (init : Bool)
    (ws : List (List ℕ × K)) (hw : ∀ w ∈ ws, InSizes m ds w.1) :
    ∃ h1 p h2, allocNested m ds init h = .ok (h1, p) ∧
      ws.foldlM (fun g w => writeNested w.2 g p w.1) h1 = .ok h2 ∧
      ∀ idx : List ℕ, idx.length = ds.length + 1 → ¬ InSizes m ds idx →
        readNested h2 p idx = .error .outOfBounds ∧ ∀ v, writeNested v h2 p idx = .error .outOfBounds := by
  obtain ⟨R, ho⟩ := exists_owns h
  obtain ⟨h1, p, A, e1, o1, k1, n1⟩ := allocNested_spec m ds init h R ho
  obtain ⟨h2, e2, o2, k2, n2⟩ := writes_spec m ds _ p A R h1 o1 n1 ws hw
  exact ⟨h1, p, h2, e1, e2, fun idx hl hi => nested_oob m ds _ p A idx n2 hl hi⟩

/-- A four by three by five array: `a[1][3][0]` is outside. -/
example : ∃ h1 p h2, allocNested 5 [4, 3] true ([] : NHeap ℤ) = .ok (h1, p) ∧
    [([1, 2, 0], (5 : ℤ))].foldlM (fun g w => writeNested w.2 g p w.1) h1 = .ok h2 ∧
    readNested h2 p [1, 3, 0] = .error .outOfBounds := by
  obtain ⟨h1, p, h2, a, b, c⟩ := C140_every_bad_index ([] : NHeap ℤ) 5 [4, 3] true [([1, 2, 0], (5 : ℤ))]
    (by
      intro w hw
      simp only [List.mem_cons, List.not_mem_nil, or_false] at hw
      subst hw
      simp [InSizes])
  exact ⟨h1, p, h2, a, b, (c [1, 3, 0] rfl (by simp [InSizes])).1⟩

/-- C141, all sizes: an array (after any assignments) is freed with any sizes.  If these visit only parts of the
array the call succeeds, keeps everything else in memory and leaves exactly the blocks which were not counted;
otherwise it reads outside of a block of pointers. -/
theorem C141_any_sizes [Zero K] (h : NHeap K) (m : ℕ) (ds ds' : List ℕ) (hl : ds'.length = ds.length)
    (init : Bool) (ws : List (List ℕ × K)) (hw : ∀ w ∈ ws, InSizes m ds w.1) :
    ∃ h1 p h2, allocNested m ds init h = .ok (h1, p) ∧
      ws.foldlM (fun g w => writeNested w.2 g p w.1) h1 = .ok h2 ∧
      (¬ VisitsInside ds' ds → freeNested ds' h2 p = .error .outOfBounds) ∧
      (VisitsInside ds' ds → ∃ h3, freeNested ds' h2 p = .ok h3 ∧
        (∀ (q : ℕ) c, h[q]? = some (some c) → h3[q]? = some (some c)) ∧
        liveBlocks h3 = liveBlocks h + blocksLeft ds ds') := by
  obtain ⟨R, ho⟩ := exists_owns h
  obtain ⟨h1, p, A, e1, o1, k1, n1⟩ := allocNested_spec m ds init h R ho
  obtain ⟨h2, e2, o2, k2, n2⟩ := writes_spec m ds _ p A R h1 o1 n1 ws hw
  obtain ⟨a, b⟩ := freeNested_other m ds ds' hl _ p A h2 R o2 n2
  refine ⟨h1, p, h2, e1, e2, b, fun hv => ?_⟩
  obtain ⟨h3, B, e3, o3, l3, k3⟩ := a hv
  refine ⟨h3, e3, fun q c hq => ?_, ?_⟩
  · have hR := (ho.2 q).2 ⟨c, hq⟩
    rw [k3 q hR, k2 q hR, k1 q hR, hq]
  · rw [countP_live _ _ o3, countP_live _ _ ho, List.length_append, l3]
    omega

/-- No memory is lost exactly when every size that is visited is the right one. -/
theorem C141_nothing_left_iff (ds ds' : List ℕ) (hl : ds'.length = ds.length) (hv : VisitsInside ds' ds) :
    blocksLeft ds ds' = 0 ↔ ∀ i : ℕ, (∀ j < i, ds[j]? ≠ some 0) → ds'[i]? = ds[i]? := by
  induction ds generalizing ds' with
  | nil =>
    obtain rfl : ds' = [] := List.length_eq_zero_iff.1 hl
    simp [blocksLeft]
  | cons n ds ih =>
    obtain ⟨n', ds', rfl⟩ : ∃ a l, ds' = a :: l := by
      cases ds' with
      | nil => simp at hl
      | cons a l => exact ⟨a, l, rfl⟩
    obtain ⟨hle, hv⟩ := hv
    have hb : 0 < numBlocks ds := by cases ds <;> simp [numBlocks]
    have hpos : (n - n') * numBlocks ds = 0 ↔ n' = n := by
      rw [Nat.mul_eq_zero]
      omega
    rw [blocksLeft, Nat.add_eq_zero_iff, hpos]
    constructor
    · rintro ⟨rfl, hz⟩ i hi
      cases i with
      | zero => rfl
      | succ i =>
        have h0 : n' ≠ 0 := fun e => hi 0 (by omega) (by simp [e])
        have hz' : blocksLeft ds ds' = 0 := by
          rcases Nat.mul_eq_zero.1 hz with e | e
          · exact absurd e h0
          · exact e
        have := (ih ds' (by simpa using hl) (hv.resolve_left h0)).1 hz' i
          (fun j hj => by simpa using hi (j + 1) (by omega))
        simpa using this
    · intro hall
      have e0 : n' = n := by simpa using hall 0 (fun j hj => by omega)
      refine ⟨e0, ?_⟩
      by_cases h0 : n' = 0
      · simp [h0]
      · rw [(ih ds' (by simpa using hl) (hv.resolve_left h0)).2 ?_]
        · simp
        · intro i hi
          have := hall (i + 1) (fun j hj => by
            cases j with
            | zero => simp; omega
            | succ j => simpa using hi j (by omega))
          simpa using this

/-- An array of 4 by 80 by 9 by 3 freed as 4 by 79 by 9: 4 times 10 blocks are lost; freed as 4 by 80 by 10 it
reads outside. -/
example : ∃ h1 p h2, allocNested 3 [4, 80, 9] false ([] : NHeap ℤ) = .ok (h1, p) ∧
    freeNested [4, 79, 9] h1 p = .ok h2 ∧ liveBlocks h2 = 40 := by
  obtain ⟨h1, p, h2, a, b, _, d⟩ := C141_any_sizes ([] : NHeap ℤ) 3 [4, 80, 9] [4, 79, 9] rfl false []
    (by simp)
  obtain ⟨h3, e, _, g⟩ := d (by simp [VisitsInside])
  cases b
  exact ⟨h1, p, h3, a, e, by rw [g]; rfl⟩

example : ∃ h1 p, allocNested 3 [4, 80, 9] false ([] : NHeap ℤ) = .ok (h1, p) ∧
    freeNested [4, 80, 10] h1 p = .error .outOfBounds := by
  obtain ⟨h1, p, h2, a, b, c, _⟩ := C141_any_sizes ([] : NHeap ℤ) 3 [4, 80, 9] [4, 80, 10] rfl false []
    (by simp)
  cases b
  exact ⟨h1, p, a, c (by simp [VisitsInside])⟩

end MaterSDK
