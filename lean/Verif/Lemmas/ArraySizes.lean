import Verif.Lemmas.ArrayUtils

/-!
# Nested arrays: other sizes and indices out of range
-/

namespace MaterSDK

variable {K : Type}

/-- The loop of `freeNested` over parts which are freed with the sizes `ds'`. -/
theorem freeLoop_other (m : ℕ) (ds ds' : List ℕ) (c : ℕ)
    (hrec : ∀ (f : List ℕ → Option K) (p : ℕ) (A : List ℕ) (h : NHeap K) (R : List ℕ),
      OwnsAll h (A ++ R) → IsNested h m ds f p A →
      ∃ h' B, freeNested ds' h p = .ok h' ∧ OwnsAll h' (B ++ R) ∧ B.length = c ∧
        (∀ q ∈ R, h'[q]? = h[q]?))
    (f : List ℕ → Option K) (p : ℕ) (qs : List ℕ) (As : List (List ℕ)) (h : NHeap K) (R : List ℕ)
    (ho : OwnsAll h (p :: As.flatten ++ R)) (l : As.length = qs.length)
    (hp : h[p]? = some (some (.val (.ptrs (qs.map some)))))
    (hc : ∀ i q B, qs[i]? = some q → As[i]? = some B → IsNested h m ds (fun idx => f (i :: idx)) q B)
    (k : ℕ) (hk : k ≤ qs.length) :
    ∃ h' L, (List.range k).foldlM (fun g i => do
        let q ← loadPtr g p i
        freeNested ds' g q) h = .ok h' ∧ OwnsAll h' (p :: ((As.drop k).flatten ++ (L ++ R))) ∧
      L.length = k * c ∧
      h'[p]? = some (some (.val (.ptrs (qs.map some)))) ∧ (∀ q ∈ R, h'[q]? = h[q]?) := by
  obtain ⟨h', e, L, o1, l1, g1, k1, c1⟩ := foldlM_range_inv
      (fun g i => do
        let q ← loadPtr g p i
        freeNested ds' g q)
      (fun i (g : NHeap K) => ∃ L, OwnsAll g (p :: ((As.drop i).flatten ++ (L ++ R))) ∧
        L.length = i * c ∧
        g[p]? = some (some (.val (.ptrs (qs.map some)))) ∧ (∀ q ∈ R, g[q]? = h[q]?) ∧
        ∀ j q B, i ≤ j → qs[j]? = some q → As[j]? = some B →
          IsNested g m ds (fun idx => f (j :: idx)) q B) k h
      ⟨[], by simpa using ho, by simp, hp, fun _ _ => rfl, fun j q B _ hq hB => hc j q B hq hB⟩
      (by
        rintro i hi g ⟨L, o1, l1, g1, k1, c1⟩
        obtain ⟨q, B, hq, hB⟩ := get_both rfl l (by omega : i < qs.length)
        have hd : As.drop i = B :: As.drop (i + 1) := by
          have hlt : i < As.length := by omega
          rw [List.drop_eq_getElem_cons hlt]
          congr 1
          rw [List.getElem?_eq_getElem hlt] at hB
          exact Option.some.inj hB
        rw [hd] at o1
        have o1' : OwnsAll g (B ++ (p :: ((As.drop (i + 1)).flatten ++ (L ++ R)))) := by
          refine OwnsAll.perm ?_ o1
          have := (List.perm_middle (a := p) (l₁ := B)
            (l₂ := (As.drop (i + 1)).flatten ++ (L ++ R))).symm
          simpa using this
        obtain ⟨g2, B2, e2, o2, l2, k2⟩ := hrec _ q B g _ o1' (c1 i q B (Nat.le_refl _) hq hB)
        refine ⟨g2, ?_, B2 ++ L, ?_, ?_, ?_, fun r hr => ?_, fun j q' B' hj hq' hB' => ?_⟩
        · rw [loadPtr_eq g1 (map_some_get hq), ok_bind, e2]
        · refine OwnsAll.perm ?_ o2
          refine (List.perm_middle (a := p) (l₁ := B2)).trans (List.Perm.cons _ ?_)
          rw [← List.append_assoc, ← List.append_assoc, ← List.append_assoc, ← List.append_assoc]
          exact ((List.perm_append_comm (l₁ := B2)).append_right L).append_right R
        · rw [List.length_append, l1, l2]; ring
        · rw [k2 p (by simp), g1]
        · rw [k2 r (by simp [hr]), k1 r hr]
        · refine IsNested.congr (fun r hr => k2 r ?_) (c1 j q' B' (by omega) hq' hB')
          have : r ∈ (As.drop (i + 1)).flatten := by
            refine List.mem_flatten.2 ⟨B', ?_, hr⟩
            rw [List.mem_iff_getElem?]
            refine ⟨j - (i + 1), ?_⟩
            rw [List.getElem?_drop]
            have : i + 1 + (j - (i + 1)) = j := by omega
            rw [this, hB']
          simp [this])
  exact ⟨h', L, e, o1, l1, g1, k1⟩

/-- Free with any sizes. -/
theorem freeNested_other (m : ℕ) : ∀ (ds ds' : List ℕ), ds'.length = ds.length →
    ∀ (f : List ℕ → Option K) (p : ℕ) (A : List ℕ) (h : NHeap K) (R : List ℕ),
    OwnsAll h (A ++ R) → IsNested h m ds f p A →
    (VisitsInside ds' ds → ∃ h' B, freeNested ds' h p = .ok h' ∧ OwnsAll h' (B ++ R) ∧
      B.length = blocksLeft ds ds' ∧ (∀ q ∈ R, h'[q]? = h[q]?)) ∧
    (¬ VisitsInside ds' ds → freeNested ds' h p = .error .outOfBounds)
  | [], [], _, f, p, A, h, R, ho, hn => by
    obtain ⟨rfl, hp⟩ := hn
    obtain ⟨h', e, o, k⟩ := owns_free (by simpa using ho : OwnsAll h (p :: R))
    exact ⟨fun _ => ⟨h', [], e, by simpa using o, rfl, k⟩, fun hv => absurd trivial hv⟩
  | [], _ :: _, hl, f, p, A, h, R, ho, hn => by simp at hl
  | _ :: _, [], hl, f, p, A, h, R, ho, hn => by simp at hl
  | n :: ds, n' :: ds', hl, f, p, A, h, R, ho, hn => by
    have ih := freeNested_other m ds ds' (by simpa using hl)
    obtain ⟨qs, As, l1, l2, rfl, hp, hc⟩ := hn
    have hz : ∀ n', 0 < n' → ¬ VisitsInside ds' ds →
        freeNested (n' :: ds') h p = .error .outOfBounds := by
      intro n' h0 hv
      obtain ⟨k, rfl⟩ : ∃ k, n' = k + 1 := ⟨n' - 1, by omega⟩
      unfold freeNested
      rw [List.range_succ_eq_map, List.foldlM_cons]
      by_cases hn : n = 0
      · rw [loadPtr_oob hp (by rw [List.length_map, l1, hn])]
        rfl
      · obtain ⟨q, B, hq, hB⟩ := get_both l1 l2 (by omega : 0 < n)
        rw [loadPtr_eq hp (map_some_get hq), ok_bind,
          (ih _ q B h _ (owns_focus ho hB) (hc 0 q B hq hB)).2 hv]
        rfl
    have hloop : VisitsInside ds' ds ∨ n' = 0 → ∀ k ≤ min n n', ∃ h' L, (List.range k).foldlM (fun g i => do
        let q ← loadPtr g p i
        freeNested ds' g q) h = .ok h' ∧ OwnsAll h' (p :: ((As.drop k).flatten ++ (L ++ R))) ∧
        L.length = k * blocksLeft ds ds' ∧
        h'[p]? = some (some (.val (.ptrs (qs.map some)))) ∧ (∀ q ∈ R, h'[q]? = h[q]?) := by
      rintro (hv | h0) k hk
      · exact freeLoop_other m ds ds' _ (fun f p A h R ho hn => (ih f p A h R ho hn).1 hv) f p qs As h R ho
          (by omega) hp hc k (by omega)
      · obtain rfl : k = 0 := by omega
        exact ⟨h, [], rfl, by simpa using ho, by simp, hp, fun _ _ => rfl⟩
    constructor
    · rintro ⟨hle, hv⟩
      obtain ⟨h', L, e, o, ll, g, k⟩ := hloop (hv.symm) n' (by omega)
      obtain ⟨h2, e2, o2, k2⟩ := owns_free o
      refine ⟨h2, (As.drop n').flatten ++ L, ?_, by simpa using o2, ?_, fun q hq => ?_⟩
      · unfold freeNested
        rw [e, ok_bind, e2]
      · rw [List.length_append, ll, drop_blocks m ds f qs As (by omega) hc n', l1]
        rfl
      · rw [k2 q (by simp [hq]), k q hq]
    · intro hv
      by_cases h1 : 0 < n' ∧ ¬ VisitsInside ds' ds
      · exact hz n' h1.1 h1.2
      · have h2 : VisitsInside ds' ds ∨ n' = 0 := by
          by_cases h3 : VisitsInside ds' ds
          · exact Or.inl h3
          · exact Or.inr (by by_contra h4; exact h1 ⟨by omega, h3⟩)
        have hlt : n < n' := by
          by_contra h3
          exact hv ⟨by omega, h2.symm⟩
        obtain ⟨h', L, e, o, ll, g, k⟩ := hloop h2 n (by omega)
        unfold freeNested
        obtain ⟨k, rfl⟩ : ∃ k, n' = n + 1 + k := ⟨n' - (n + 1), by omega⟩
        rw [show List.range (n + 1 + k) = List.range n ++ n :: (List.range k).map (n + 1 + ·) by
          rw [List.range_add, List.range_succ]; simp]
        rw [List.foldlM_append, e, ok_bind, List.foldlM_cons, loadPtr_oob g (by simp; omega)]
        rfl

/-- An index with the right number of entries which is not in range. -/
theorem nested_oob {h : NHeap K} (m : ℕ) : ∀ (ds : List ℕ) (f : List ℕ → Option K) (p : ℕ)
    (A : List ℕ) (idx : List ℕ), IsNested h m ds f p A → idx.length = ds.length + 1 →
    ¬ InSizes m ds idx →
    readNested h p idx = .error .outOfBounds ∧ ∀ v, writeNested v h p idx = .error .outOfBounds
  | [], f, p, A, [k], hn, _, hi => by
    obtain ⟨rfl, hp⟩ := hn
    have hk : m ≤ k := by simpa [InSizes] using hi
    have hread : objRead h p = .ok (.val (.vals ((List.range m).map fun k => f [k]))) := by
      simp [objRead, hp]
    have hg : cGet ((List.range m).map fun k => f [k]) (k : ℤ) = .error .outOfBounds :=
      cGet_oob (Or.inr (by simp; omega))
    refine ⟨?_, fun v => ?_⟩
    · simp only [readNested, loadVal, hread, ok_bind, hg]
      rfl
    · simp only [writeNested, storeVal, hread, ok_bind]
      simp [hk]
  | [], f, p, A, [], hn, hl, hi => by simp at hl
  | [], f, p, A, _ :: _ :: _, hn, hl, hi => by simp at hl
  | n :: ds, f, p, A, [], hn, hl, hi => by simp at hl
  | n :: ds, f, p, A, [i], hn, hl, hi => by simp at hl
  | n :: ds, f, p, A, i :: j :: idx, hn, hl, hi => by
    obtain ⟨qs, As, l1, l2, rfl, hp, hc⟩ := hn
    by_cases hlt : i < n
    · obtain ⟨q, B, hq, hB⟩ := get_both l1 l2 hlt
      obtain ⟨a, b⟩ := nested_oob m ds _ q B (j :: idx) (hc i q B hq hB) (by simpa using hl)
        (fun hin => hi ⟨hlt, hin⟩)
      refine ⟨?_, fun v => ?_⟩
      · rw [readNested, loadPtr_eq hp (map_some_get hq), ok_bind, a]
      · rw [writeNested, loadPtr_eq hp (map_some_get hq), ok_bind, b]
    · have hl := loadPtr_oob hp (i := i) (by simp; omega)
      refine ⟨?_, fun v => ?_⟩
      · rw [readNested, hl]; rfl
      · rw [writeNested, hl]; rfl

end MaterSDK
