import Verif.Model.ArrayUtils
import Verif.Spec.ArrayUtils
import Verif.Lemmas.StructObj
import Verif.Lemmas.CellList

/-!
# Nested arrays: ownership and contents
-/

namespace MaterSDK

variable {K : Type}

theorem foldlM_range_inv {ε σ : Type} (f : σ → ℕ → Except ε σ) (P : ℕ → σ → Prop) (n : ℕ) (s : σ)
    (h0 : P 0 s) (h : ∀ k < n, ∀ s, P k s → ∃ s', f s k = .ok s' ∧ P (k + 1) s') :
    ∃ s', (List.range n).foldlM f s = .ok s' ∧ P n s' := by
  induction n with
  | zero => exact ⟨s, rfl, h0⟩
  | succ n ih =>
    obtain ⟨s1, e1, p1⟩ := ih (fun k hk => h k (by omega))
    obtain ⟨s2, e2, p2⟩ := h n (by omega) s1 p1
    refine ⟨s2, ?_, p2⟩
    rw [List.range_succ, List.foldlM_append, e1, ok_bind, List.foldlM_cons, e2]
    rfl

/-- An array with the sizes `ds` and `m` and the contents `f`, at the address `p`; `A` are its
blocks. -/
def IsNested (h : NHeap K) (m : ℕ) : List ℕ → (List ℕ → Option K) → ℕ → List ℕ → Prop
  | [], f, p, A => A = [p] ∧ h[p]? = some (some (.val (.vals ((List.range m).map fun k => f [k]))))
  | n :: ds, f, p, A => ∃ (qs : List ℕ) (As : List (List ℕ)), qs.length = n ∧ As.length = n ∧
      A = p :: As.flatten ∧ h[p]? = some (some (.val (.ptrs (qs.map some)))) ∧
      ∀ i q B, qs[i]? = some q → As[i]? = some B → IsNested h m ds (fun idx => f (i :: idx)) q B

theorem mem_flatten_get {As : List (List ℕ)} {i : ℕ} {B : List ℕ} (h : As[i]? = some B) {q : ℕ}
    (hq : q ∈ B) : q ∈ As.flatten :=
  List.mem_flatten.2 ⟨B, List.mem_of_getElem? h, hq⟩

theorem IsNested.congr {h h' : NHeap K} {m : ℕ} : ∀ {ds : List ℕ} {f : List ℕ → Option K} {p : ℕ}
    {A : List ℕ}, (∀ q ∈ A, h'[q]? = h[q]?) → IsNested h m ds f p A → IsNested h' m ds f p A
  | [], f, p, A, he, hn => by
    obtain ⟨rfl, hp⟩ := hn
    exact ⟨rfl, by rw [he p (by simp), hp]⟩
  | n :: ds, f, p, A, he, hn => by
    obtain ⟨qs, As, l1, l2, rfl, hp, hc⟩ := hn
    refine ⟨qs, As, l1, l2, rfl, by rw [he p (by simp), hp], fun i q B hq hB => ?_⟩
    exact IsNested.congr (fun r hr => he r (List.mem_cons_of_mem _ (mem_flatten_get hB hr)))
      (hc i q B hq hB)

theorem flatten_focus : ∀ (As : List (List ℕ)) (i : ℕ) (B : List ℕ), As[i]? = some B →
    As.flatten.Perm (B ++ (As.eraseIdx i).flatten)
  | [], i, B, h => by simp at h
  | A :: As, 0, B, h => by
    obtain rfl : A = B := by simpa using h
    simp
  | A :: As, i + 1, B, h => by
    have := flatten_focus As i B (by simpa using h)
    simp only [List.flatten_cons, List.eraseIdx_cons_succ]
    refine (List.Perm.append_left _ this).trans ?_
    rw [← List.append_assoc, ← List.append_assoc]
    exact List.Perm.append_right _ List.perm_append_comm

theorem mem_erase_flatten : ∀ (As : List (List ℕ)) (i k : ℕ) (C : List ℕ), As[k]? = some C → k ≠ i →
    ∀ q ∈ C, q ∈ (As.eraseIdx i).flatten := by
  intro As i k C hk hne q hq
  refine List.mem_flatten.2 ⟨C, ?_, hq⟩
  rw [List.mem_iff_getElem?]
  by_cases h : k < i
  · exact ⟨k, by rw [List.getElem?_eraseIdx_of_lt h]; exact hk⟩
  · refine ⟨k - 1, ?_⟩
    rw [List.getElem?_eraseIdx_of_ge (by omega)]
    have : k - 1 + 1 = k := by omega
    rw [this]
    exact hk

/-! ## Single cells -/

theorem loadPtr_eq {h : NHeap K} {p i q : ℕ} {l : List (Option ℕ)}
    (hp : h[p]? = some (some (.val (.ptrs l)))) (hi : l[i]? = some (some q)) :
    loadPtr h p i = .ok q := by
  have : objRead h p = .ok (.val (.ptrs l)) := by simp [objRead, hp]
  simp only [loadPtr, this, ok_bind, cGet_nat hi]
  rfl

theorem loadPtr_oob {h : NHeap K} {p i : ℕ} {l : List (Option ℕ)}
    (hp : h[p]? = some (some (.val (.ptrs l)))) (hi : l.length ≤ i) :
    loadPtr h p i = .error .outOfBounds := by
  have : objRead h p = .ok (.val (.ptrs l)) := by simp [objRead, hp]
  have e : cGet l (i : ℤ) = .error .outOfBounds := cGet_oob (Or.inr (by omega))
  simp only [loadPtr, this, ok_bind, e]
  rfl

/-! ## Allocation -/

theorem mallocNested_spec (m : ℕ) : ∀ (ds : List ℕ) (h : NHeap K) (R : List ℕ), OwnsAll h R →
    ∃ h' p A, mallocNested m ds h = .ok (h', p) ∧ OwnsAll h' (A ++ R) ∧
      (∀ q ∈ R, h'[q]? = h[q]?) ∧ IsNested h' m ds (fun _ => none) p A
  | [], h, R, ho => by
    obtain ⟨o1, k1, g1⟩ := owns_alloc (.val (.vals (List.replicate m none))) ho
    refine ⟨_, h.length, [h.length], rfl, o1, k1, rfl, ?_⟩
    rw [g1]
    simp
  | n :: ds, h, R, ho => by
    obtain ⟨o1, k1, g1⟩ := owns_alloc (.val (.ptrs (List.replicate n none)) : Block (NBlock K)) ho
    unfold mallocNested
    simp only [objAlloc]
    obtain ⟨h', e', qs, As, l1, l2, o2, g2, k2, c2⟩ := foldlM_range_inv
      (fun g i => do
        let s ← mallocNested m ds g
        storePtr s.1 h.length i s.2)
      (fun i (g : NHeap K) => ∃ (qs : List ℕ) (As : List (List ℕ)), qs.length = i ∧ As.length = i ∧
        OwnsAll g (h.length :: (As.flatten ++ R)) ∧
        g[h.length]? = some (some (.val (.ptrs (qs.map some ++ List.replicate (n - i) none)))) ∧
        (∀ q ∈ R, g[q]? = h[q]?) ∧
        ∀ (j q : ℕ) B, qs[j]? = some q → As[j]? = some B → IsNested g m ds (fun _ => none) q B)
      n (h ++ [some (.val (.ptrs (List.replicate n none)))])
      ⟨[], [], rfl, rfl, by simpa using o1, g1, k1, by simp⟩
      (by
        rintro i hi g ⟨qs, As, l1, l2, o2, g2, k2, c2⟩
        obtain ⟨g3, q, B, e3, o3, k3, n3⟩ := mallocNested_spec m ds g _ o2
        have hp : g3[h.length]? = _ := (k3 h.length (by simp)).trans g2
        have hread : objRead g3 h.length =
            .ok (.val (.ptrs (qs.map some ++ List.replicate (n - i) none))) := by
          simp [objRead, hp]
        have o3' : OwnsAll g3 (h.length :: (B ++ (As.flatten ++ R))) :=
          OwnsAll.perm List.perm_middle o3
        obtain ⟨w1, w2, w3, w4⟩ := owns_write
          (.val (.ptrs ((qs.map some ++ List.replicate (n - i) none).set i (some q))) :
            Block (NBlock K)) o3'
        refine ⟨g3.set h.length (some (.val (.ptrs
          ((qs.map some ++ List.replicate (n - i) none).set i (some q))))), ?_,
          qs ++ [q], As ++ [B], by simp [l1], by simp [l2], ?_, ?_, ?_, ?_⟩
        · rw [e3, ok_bind]
          simp only [storePtr, hread, ok_bind]
          rw [if_pos (by simp [l1]; omega), w1]
        · refine OwnsAll.perm (List.Perm.cons _ ?_) w2
          have : (B ++ As.flatten ++ R).Perm (As.flatten ++ B ++ R) :=
            List.Perm.append_right _ List.perm_append_comm
          simpa using this
        · rw [w4]
          have : (qs.map some ++ List.replicate (n - i) none).set i (some q) =
              (qs ++ [q]).map some ++ List.replicate (n - (i + 1)) none := by
            have e1 : n - i = (n - (i + 1)) + 1 := by omega
            rw [e1, List.replicate_succ, List.set_append_right _ _ (by simp [l1])]
            simp [l1]
          rw [this]
        · intro r hr
          rw [w3 r (by simp [hr]), k3 r (by simp [hr]), k2 r hr]
        · intro j q' B' hq hB
          rcases Nat.lt_trichotomy j i with hj | hj | hj
          · rw [List.getElem?_append_left (by omega)] at hq hB
            refine IsNested.congr (fun r hr => ?_) (c2 j q' B' hq hB)
            have hm := mem_flatten_get hB hr
            rw [w3 r (by simp [hm]), k3 r (by simp [hm])]
          · subst hj
            have hq' : q = q' := by
              rw [← l1] at hq; simpa using hq
            have hB' : B = B' := by
              rw [← l2] at hB; simpa using hB
            subst hq' hB'
            exact IsNested.congr (fun r hr => w3 r (by simp [hr])) n3
          · rw [List.getElem?_eq_none (by simp; omega)] at hq
            cases hq)
    refine ⟨h', h.length, h.length :: As.flatten, ?_, by simpa using o2, k2, qs, As, l1, l2, rfl,
      by simpa using g2, c2⟩
    rw [e']
    rfl

/-! ## Work on one part -/

/-- The blocks of one part, and all others. -/
theorem owns_focus {h : NHeap K} {p : ℕ} {As : List (List ℕ)} {R : List ℕ} {i : ℕ} {B : List ℕ}
    (ho : OwnsAll h (p :: As.flatten ++ R)) (hB : As[i]? = some B) :
    OwnsAll h (B ++ (p :: ((As.eraseIdx i).flatten ++ R))) := by
  refine OwnsAll.perm ?_ ho
  have h1 : (p :: As.flatten ++ R).Perm (p :: (B ++ (As.eraseIdx i).flatten) ++ R) :=
    List.Perm.append_right _ (List.Perm.cons _ (flatten_focus As i B hB))
  refine h1.trans ?_
  have := (List.perm_middle (a := p) (l₁ := B) (l₂ := (As.eraseIdx i).flatten ++ R)).symm
  simpa using this

theorem owns_unfocus {h : NHeap K} {p : ℕ} {As : List (List ℕ)} {R : List ℕ} {i : ℕ} {B : List ℕ}
    (ho : OwnsAll h (B ++ (p :: ((As.eraseIdx i).flatten ++ R)))) (hB : As[i]? = some B) :
    OwnsAll h (p :: As.flatten ++ R) := by
  refine OwnsAll.perm ?_ ho
  have h1 : (p :: As.flatten ++ R).Perm (p :: (B ++ (As.eraseIdx i).flatten) ++ R) :=
    List.Perm.append_right _ (List.Perm.cons _ (flatten_focus As i B hB))
  refine List.Perm.trans ?_ h1.symm
  simp

theorem map_some_get {qs : List ℕ} {i q : ℕ} (h : qs[i]? = some q) :
    (qs.map some)[i]? = some (some q) := by simp [h]

theorem get_both {qs : List ℕ} {As : List (List ℕ)} {n i : ℕ} (l1 : qs.length = n)
    (l2 : As.length = n) (hi : i < n) : ∃ q B, qs[i]? = some q ∧ As[i]? = some B :=
  ⟨qs[i], As[i], List.getElem?_eq_getElem _, List.getElem?_eq_getElem _⟩

theorem set_map_range {β : Type} (g : ℕ → β) (m k : ℕ) (v : β) :
    ((List.range m).map g).set k v = (List.range m).map fun j => if j = k then v else g j := by
  apply List.ext_getElem?
  intro i
  rw [List.getElem?_set]
  simp only [List.length_map, List.length_range, List.getElem?_map]
  by_cases hi : i < m
  · rw [List.getElem?_range hi]
    by_cases e : k = i
    · subst e
      simp [hi]
    · have : i ≠ k := fun h => e h.symm
      simp [e, this]
  · have hn : (List.range m)[i]? = none := by simp; omega
    rw [hn]
    by_cases e : k = i
    · subst e; simp [hi]
    · simp [e]

/-! ## Zeros -/

theorem zeroNested_spec [Zero K] (m : ℕ) : ∀ (ds : List ℕ) (f : List ℕ → Option K) (p : ℕ)
    (A : List ℕ) (h : NHeap K) (R : List ℕ), OwnsAll h (A ++ R) → IsNested h m ds f p A →
    ∃ h', zeroNested m ds h p = .ok h' ∧ OwnsAll h' (A ++ R) ∧ (∀ q ∈ R, h'[q]? = h[q]?) ∧
      IsNested h' m ds (fun _ => some 0) p A
  | [], f, p, A, h, R, ho, hn => by
    obtain ⟨rfl, hp⟩ := hn
    unfold zeroNested
    obtain ⟨h', e, o1, g1, k1⟩ := foldlM_range_inv (fun g k => storeVal g p k (0 : K))
      (fun i (g : NHeap K) => OwnsAll g (p :: R) ∧
        g[p]? = some (some (.val (.vals ((List.range m).map fun k => if k < i then some 0 else f [k])))) ∧
        ∀ q ∈ R, g[q]? = h[q]?) m h ⟨by simpa using ho, by simpa using hp, fun _ _ => rfl⟩
      (by
        rintro i hi g ⟨o1, g1, k1⟩
        have hread : objRead g p = .ok (.val (.vals ((List.range m).map
            fun k => if k < i then some 0 else f [k]))) := by simp [objRead, g1]
        obtain ⟨w1, w2, w3, w4⟩ := owns_write (.val (.vals (((List.range m).map
            fun k => if k < i then some 0 else f [k]).set i (some 0))) : Block (NBlock K)) o1
        refine ⟨_, ?_, w2, ?_, fun q hq => (w3 q hq).trans (k1 q hq)⟩
        · simp only [storeVal, hread, ok_bind]
          rw [if_pos (by simpa using hi), w1]
        · rw [w4, set_map_range]
          congr 5
          funext j
          by_cases h1 : j = i
          · subst h1; simp
          · by_cases h2 : j < i
            · have : j < i + 1 := by omega
              simp [h1, h2, this]
            · have : ¬ j < i + 1 := by omega
              simp [h1, h2, this])
    refine ⟨h', e, by simpa using o1, k1, rfl, ?_⟩
    rw [g1]
    congr 4
    apply List.map_congr_left
    intro k hk
    rw [if_pos (List.mem_range.1 hk)]
  | n :: ds, f, p, A, h, R, ho, hn => by
    obtain ⟨qs, As, l1, l2, rfl, hp, hc⟩ := hn
    unfold zeroNested
    obtain ⟨h', e, o1, g1, k1, c1⟩ := foldlM_range_inv
      (fun g i => do
        let q ← loadPtr g p i
        zeroNested m ds g q)
      (fun i (g : NHeap K) => OwnsAll g (p :: As.flatten ++ R) ∧
        g[p]? = some (some (.val (.ptrs (qs.map some)))) ∧ (∀ q ∈ R, g[q]? = h[q]?) ∧
        ∀ j q B, qs[j]? = some q → As[j]? = some B →
          IsNested g m ds (fun idx => if j < i then some 0 else f (j :: idx)) q B) n h
      ⟨ho, hp, fun _ _ => rfl, fun j q B hq hB => by simpa using hc j q B hq hB⟩
      (by
        rintro i hi g ⟨o1, g1, k1, c1⟩
        obtain ⟨q, B, hq, hB⟩ := get_both l1 l2 hi
        obtain ⟨g2, e2, o2, k2, n2⟩ := zeroNested_spec m ds _ q B g _ (owns_focus o1 hB)
          (c1 i q B hq hB)
        refine ⟨g2, ?_, owns_unfocus o2 hB, ?_, fun r hr => ?_, fun j q' B' hq' hB' => ?_⟩
        · rw [loadPtr_eq g1 (map_some_get hq), ok_bind, e2]
        · rw [k2 p (by simp), g1]
        · rw [k2 r (by simp [hr]), k1 r hr]
        · by_cases hj : j = i
          · subst hj
            rw [hq] at hq'
            rw [hB] at hB'
            cases hq'
            cases hB'
            simpa using n2
          · have : (fun idx => if j < i + 1 then some (0 : K) else f (j :: idx)) =
                fun idx => if j < i then some 0 else f (j :: idx) := by
              funext idx
              by_cases h1 : j < i
              · have : j < i + 1 := by omega
                simp [h1, this]
              · have : ¬ j < i + 1 := by omega
                simp [h1, this]
            rw [this]
            refine IsNested.congr (fun r hr => k2 r ?_) (c1 j q' B' hq' hB')
            have := mem_erase_flatten As i j B' hB' hj r hr
            simp [this])
    refine ⟨h', e, o1, k1, qs, As, l1, l2, rfl, g1, fun i q B hq hB => ?_⟩
    have := c1 i q B hq hB
    have hi : i < n := by
      rw [← l1]; exact (List.getElem?_eq_some_iff.1 hq).1
    simpa [hi] using this

/-! ## Free -/

/-- The parts of `p` are freed one after the other. -/
theorem freeLoop_spec (m : ℕ) (ds : List ℕ)
    (hrec : ∀ (f : List ℕ → Option K) (p : ℕ) (A : List ℕ) (h : NHeap K) (R : List ℕ),
      OwnsAll h (A ++ R) → IsNested h m ds f p A →
      ∃ h', freeNested ds h p = .ok h' ∧ OwnsAll h' R ∧ (∀ q ∈ R, h'[q]? = h[q]?))
    (f : List ℕ → Option K) (p : ℕ) (qs : List ℕ) (As : List (List ℕ)) (h : NHeap K) (R : List ℕ)
    (ho : OwnsAll h (p :: As.flatten ++ R)) (l : As.length = qs.length)
    (hp : h[p]? = some (some (.val (.ptrs (qs.map some)))))
    (hc : ∀ i q B, qs[i]? = some q → As[i]? = some B → IsNested h m ds (fun idx => f (i :: idx)) q B)
    (k : ℕ) (hk : k ≤ qs.length) :
    ∃ h', (List.range k).foldlM (fun g i => do
        let q ← loadPtr g p i
        freeNested ds g q) h = .ok h' ∧ OwnsAll h' (p :: ((As.drop k).flatten ++ R)) ∧
      h'[p]? = some (some (.val (.ptrs (qs.map some)))) ∧ (∀ q ∈ R, h'[q]? = h[q]?) := by
  obtain ⟨h', e, o1, g1, k1, c1⟩ := foldlM_range_inv
      (fun g i => do
        let q ← loadPtr g p i
        freeNested ds g q)
      (fun i (g : NHeap K) => OwnsAll g (p :: ((As.drop i).flatten ++ R)) ∧
        g[p]? = some (some (.val (.ptrs (qs.map some)))) ∧ (∀ q ∈ R, g[q]? = h[q]?) ∧
        ∀ j q B, i ≤ j → qs[j]? = some q → As[j]? = some B →
          IsNested g m ds (fun idx => f (j :: idx)) q B) k h
      ⟨by simpa using ho, hp, fun _ _ => rfl, fun j q B _ hq hB => hc j q B hq hB⟩
      (by
        rintro i hi g ⟨o1, g1, k1, c1⟩
        obtain ⟨q, B, hq, hB⟩ := get_both rfl l (by omega : i < qs.length)
        have hd : As.drop i = B :: As.drop (i + 1) := by
          have hlt : i < As.length := by omega
          rw [List.drop_eq_getElem_cons hlt]
          congr 1
          rw [List.getElem?_eq_getElem hlt] at hB
          exact Option.some.inj hB
        rw [hd] at o1
        have o1' : OwnsAll g (B ++ (p :: ((As.drop (i + 1)).flatten ++ R))) := by
          refine OwnsAll.perm ?_ o1
          have := (List.perm_middle (a := p) (l₁ := B) (l₂ := (As.drop (i + 1)).flatten ++ R)).symm
          simpa using this
        obtain ⟨g2, e2, o2, k2⟩ := hrec _ q B g _ o1' (c1 i q B (Nat.le_refl _) hq hB)
        refine ⟨g2, ?_, o2, ?_, fun r hr => ?_, fun j q' B' hj hq' hB' => ?_⟩
        · rw [loadPtr_eq g1 (map_some_get hq), ok_bind, e2]
        · rw [k2 p (by simp), g1]
        · rw [k2 r (by simp [hr]), k1 r hr]
        · refine IsNested.congr (fun r hr => k2 r ?_) (c1 j q' B' (by omega) hq' hB')
          have : r ∈ (As.drop (i + 1)).flatten := by
            refine List.mem_flatten.2 ⟨B', ?_, hr⟩
            rw [List.mem_iff_getElem?]
            refine ⟨j - (i + 1), ?_⟩
            rw [List.getElem?_drop]
            have : i + 1 + (j - (i + 1)) = j := by omega
            rw [this, hB']
          simp [this])
  exact ⟨h', e, o1, g1, k1⟩

theorem freeNested_spec (m : ℕ) : ∀ (ds : List ℕ) (f : List ℕ → Option K) (p : ℕ)
    (A : List ℕ) (h : NHeap K) (R : List ℕ), OwnsAll h (A ++ R) → IsNested h m ds f p A →
    ∃ h', freeNested ds h p = .ok h' ∧ OwnsAll h' R ∧ (∀ q ∈ R, h'[q]? = h[q]?)
  | [], f, p, A, h, R, ho, hn => by
    obtain ⟨rfl, hp⟩ := hn
    exact owns_free (by simpa using ho)
  | n :: ds, f, p, A, h, R, ho, hn => by
    obtain ⟨qs, As, l1, l2, rfl, hp, hc⟩ := hn
    unfold freeNested
    obtain ⟨h', e, o1, g1, k1⟩ := freeLoop_spec m ds (freeNested_spec m ds) f p qs As h R ho
      (by omega) hp hc n (by omega)
    have hend : As.drop n = [] := by rw [← l2]; simp
    rw [hend] at o1
    obtain ⟨h2, e2, o2, k2⟩ := owns_free (by simpa using o1 : OwnsAll h' (p :: R))
    refine ⟨h2, ?_, o2, fun q hq => (k2 q hq).trans (k1 q hq)⟩
    rw [e, ok_bind, e2]

theorem isNested_length {h : NHeap K} (m : ℕ) : ∀ (ds : List ℕ) (f : List ℕ → Option K) (p : ℕ)
    (A : List ℕ), IsNested h m ds f p A → A.length = numBlocks ds
  | [], f, p, A, hn => by rw [hn.1]; rfl
  | n :: ds, f, p, A, hn => by
    obtain ⟨qs, As, l1, l2, rfl, hp, hc⟩ := hn
    have hall : ∀ B ∈ As, B.length = numBlocks ds := by
      intro B hB
      obtain ⟨i, hi⟩ := List.mem_iff_getElem?.1 hB
      have hlt := (List.getElem?_eq_some_iff.1 hi).1
      obtain ⟨q, B', hq, hB'⟩ := get_both l1 l2 (by omega : i < n)
      rw [hi] at hB'
      cases hB'
      exact isNested_length m ds _ q B (hc i q B hq hi)
    have : (As.map List.length).sum = As.length * numBlocks ds := by
      rw [List.map_congr_left hall]
      simp
    rw [List.length_cons, List.length_flatten, this, l2, numBlocks]
    omega

/-- The parts from `k` on. -/
theorem drop_blocks {h : NHeap K} (m : ℕ) (ds : List ℕ) (f : List ℕ → Option K) (qs : List ℕ)
    (As : List (List ℕ)) (l : As.length = qs.length)
    (hc : ∀ i q B, qs[i]? = some q → As[i]? = some B → IsNested h m ds (fun idx => f (i :: idx)) q B)
    (k : ℕ) : (As.drop k).flatten.length = (qs.length - k) * numBlocks ds := by
  have hall : ∀ B ∈ As.drop k, B.length = numBlocks ds := by
    intro B hB
    obtain ⟨i, hi⟩ := List.mem_iff_getElem?.1 (List.mem_of_mem_drop hB)
    have hlt := (List.getElem?_eq_some_iff.1 hi).1
    obtain ⟨q, B', hq, hB'⟩ := get_both rfl l (by omega : i < qs.length)
    rw [hi] at hB'
    cases hB'
    exact isNested_length m ds _ q B (hc i q B hq hi)
  rw [List.length_flatten, List.map_congr_left hall]
  simp [l]

/-! ## Reading and writing -/

theorem inSizes_ne {m : ℕ} {ds idx : List ℕ} (h : InSizes m ds idx) : idx ≠ [] := by
  rintro rfl
  cases ds <;> exact h

theorem readNested_spec {h : NHeap K} (m : ℕ) : ∀ (ds : List ℕ) (f : List ℕ → Option K) (p : ℕ)
    (A : List ℕ) (idx : List ℕ), IsNested h m ds f p A → InSizes m ds idx →
    readNested h p idx = match f idx with
      | some v => .ok v
      | none => .error .undefined
  | [], f, p, A, [k], hn, hi => by
    obtain ⟨rfl, hp⟩ := hn
    have hk : k < m := hi
    have hread : objRead h p = .ok (.val (.vals ((List.range m).map fun k => f [k]))) := by
      simp [objRead, hp]
    have hg : cGet ((List.range m).map fun k => f [k]) (k : ℤ) = .ok (f [k]) :=
      cGet_nat (by simp [hk])
    simp only [readNested, loadVal, hread, ok_bind, hg]
    cases f [k] <;> rfl
  | [], f, p, A, [], hn, hi => absurd hi (by simp [InSizes])
  | [], f, p, A, _ :: _ :: _, hn, hi => absurd hi (by simp [InSizes])
  | n :: ds, f, p, A, [], hn, hi => absurd hi (by simp [InSizes])
  | n :: ds, f, p, A, [i], hn, hi => absurd rfl (inSizes_ne hi.2)
  | n :: ds, f, p, A, i :: j :: idx, hn, hi => by
    obtain ⟨qs, As, l1, l2, rfl, hp, hc⟩ := hn
    obtain ⟨q, B, hq, hB⟩ := get_both l1 l2 hi.1
    have := readNested_spec m ds _ q B (j :: idx) (hc i q B hq hB) hi.2
    rw [readNested, loadPtr_eq hp (map_some_get hq), ok_bind, this]

theorem writeNested_spec (m : ℕ) (v : K) : ∀ (ds : List ℕ) (f : List ℕ → Option K) (p : ℕ)
    (A : List ℕ) (idx : List ℕ) (h : NHeap K) (R : List ℕ), OwnsAll h (A ++ R) →
    IsNested h m ds f p A → InSizes m ds idx →
    ∃ h', writeNested v h p idx = .ok h' ∧ OwnsAll h' (A ++ R) ∧ (∀ q ∈ R, h'[q]? = h[q]?) ∧
      IsNested h' m ds (fun J => if J = idx then some v else f J) p A
  | [], f, p, A, [k], h, R, ho, hn, hi => by
    obtain ⟨rfl, hp⟩ := hn
    have hk : k < m := hi
    have hread : objRead h p = .ok (.val (.vals ((List.range m).map fun k => f [k]))) := by
      simp [objRead, hp]
    obtain ⟨w1, w2, w3, w4⟩ := owns_write (.val (.vals (((List.range m).map
      fun k => f [k]).set k (some v))) : Block (NBlock K)) (by simpa using ho)
    refine ⟨_, ?_, by simpa using w2, w3, rfl, ?_⟩
    · simp only [writeNested, storeVal, hread, ok_bind]
      rw [if_pos (by simpa using hk), w1]
    · rw [w4, set_map_range]
      congr 5
      funext j
      simp
  | [], f, p, A, [], h, R, ho, hn, hi => absurd hi (by simp [InSizes])
  | [], f, p, A, _ :: _ :: _, h, R, ho, hn, hi => absurd hi (by simp [InSizes])
  | n :: ds, f, p, A, [], h, R, ho, hn, hi => absurd hi (by simp [InSizes])
  | n :: ds, f, p, A, [i], h, R, ho, hn, hi => absurd rfl (inSizes_ne hi.2)
  | n :: ds, f, p, A, i :: j :: idx, h, R, ho, hn, hi => by
    obtain ⟨qs, As, l1, l2, rfl, hp, hc⟩ := hn
    obtain ⟨q, B, hq, hB⟩ := get_both l1 l2 hi.1
    obtain ⟨g2, e2, o2, k2, n2⟩ := writeNested_spec m v ds _ q B (j :: idx) h _ (owns_focus ho hB)
      (hc i q B hq hB) hi.2
    refine ⟨g2, ?_, owns_unfocus o2 hB, fun r hr => k2 r (by simp [hr]), qs, As, l1, l2, rfl, ?_,
      fun k q' B' hq' hB' => ?_⟩
    · rw [writeNested, loadPtr_eq hp (map_some_get hq), ok_bind, e2]
    · rw [k2 p (by simp), hp]
    · by_cases hk : k = i
      · subst hk
        rw [hq] at hq'
        rw [hB] at hB'
        cases hq'
        cases hB'
        simpa using n2
      · have : (fun J => if k :: J = i :: j :: idx then some v else f (k :: J)) =
            fun J => f (k :: J) := by
          funext J
          rw [if_neg (fun h => hk (List.cons.inj h).1)]
        rw [this]
        refine IsNested.congr (fun r hr => k2 r ?_) (hc k q' B' hq' hB')
        have := mem_erase_flatten As i k B' hB' hk r hr
        simp [this]

/-- Every heap lists its allocated blocks. -/
theorem exists_owns {β : Type} (h : ObjHeap β) : ∃ R, OwnsAll h R := by
  refine ⟨(List.range h.length).filter fun i => (h[i]?.join).isSome, List.nodup_range.filter _,
    fun p => ?_⟩
  unfold LiveAt
  simp only [List.mem_filter, List.mem_range]
  constructor
  · rintro ⟨_, h3⟩
    cases hp : h[p]? with
    | none => simp [hp] at h3
    | some o =>
      cases o with
      | none => simp [hp] at h3
      | some c => exact ⟨c, rfl⟩
  · rintro ⟨c, hc⟩
    exact ⟨(List.getElem?_eq_some_iff.1 hc).1, by simp [hc]⟩

/-! ## Whole arrays -/

theorem allocNested_spec [Zero K] (m : ℕ) (ds : List ℕ) (init : Bool) (h : NHeap K) (R : List ℕ)
    (ho : OwnsAll h R) : ∃ h' p A, allocNested m ds init h = .ok (h', p) ∧ OwnsAll h' (A ++ R) ∧
      (∀ q ∈ R, h'[q]? = h[q]?) ∧
      IsNested h' m ds (fun _ => if init then some 0 else none) p A := by
  obtain ⟨h1, p, A, e1, o1, k1, n1⟩ := mallocNested_spec m ds h R ho
  unfold allocNested
  rw [e1, ok_bind]
  cases init with
  | false => exact ⟨h1, p, A, rfl, o1, k1, n1⟩
  | true =>
    obtain ⟨h2, e2, o2, k2, n2⟩ := zeroNested_spec m ds _ p A h1 R o1 n1
    refine ⟨h2, p, A, ?_, o2, fun q hq => (k2 q hq).trans (k1 q hq), n2⟩
    simp only [if_true, e2, ok_bind]
    rfl

theorem lastWrite_append (ws : List (List ℕ × K)) (w : List ℕ × K) (idx : List ℕ) :
    lastWrite (ws ++ [w]) idx = if idx = w.1 then some w.2 else lastWrite ws idx := by
  unfold lastWrite
  rw [List.reverse_append, List.reverse_singleton, List.singleton_append, List.find?_cons]
  by_cases h : idx = w.1
  · simp [h]
  · have : ¬ w.1 = idx := fun e => h e.symm
    simp [h, this]

theorem writes_spec (m : ℕ) (ds : List ℕ) (f : List ℕ → Option K) (p : ℕ) (A : List ℕ) (R : List ℕ)
    (h : NHeap K) (ho : OwnsAll h (A ++ R)) (hn : IsNested h m ds f p A)
    (ws : List (List ℕ × K)) (hw : ∀ w ∈ ws, InSizes m ds w.1) :
    ∃ h', ws.foldlM (fun g w => writeNested w.2 g p w.1) h = .ok h' ∧ OwnsAll h' (A ++ R) ∧
      (∀ q ∈ R, h'[q]? = h[q]?) ∧
      IsNested h' m ds (fun J => match lastWrite ws J with | some v => some v | none => f J) p A := by
  induction ws using List.reverseRecOn with
  | nil => exact ⟨h, rfl, ho, fun _ _ => rfl, hn⟩
  | append_singleton ws w ih =>
    obtain ⟨h1, e1, o1, k1, n1⟩ := ih (fun w hm => hw w (List.mem_append_left _ hm))
    obtain ⟨h2, e2, o2, k2, n2⟩ := writeNested_spec m w.2 ds _ p A w.1 h1 R o1 n1 (hw w (by simp))
    refine ⟨h2, ?_, o2, fun q hq => (k2 q hq).trans (k1 q hq), ?_⟩
    · rw [List.foldlM_append, e1, ok_bind, List.foldlM_cons, e2]
      rfl
    · have : (fun J => match lastWrite (ws ++ [w]) J with | some v => some v | none => f J) =
          fun J => if J = w.1 then some w.2 else
            match lastWrite ws J with | some v => some v | none => f J := by
        funext J
        rw [lastWrite_append]
        by_cases e : J = w.1 <;> simp [e]
      rw [this]
      exact n2

/-- Two heaps with the same allocated blocks. -/
theorem same_blocks {h h' : NHeap K} {R : List ℕ} (ho : OwnsAll h R) (ho' : OwnsAll h' R)
    (hk : ∀ q ∈ R, h'[q]? = h[q]?) (q : ℕ) (c : Block (NBlock K)) :
    h'[q]? = some (some c) ↔ h[q]? = some (some c) := by
  constructor
  · intro e
    rw [← hk q ((ho'.2 q).2 ⟨c, e⟩)]
    exact e
  · intro e
    rw [hk q ((ho.2 q).2 ⟨c, e⟩)]
    exact e

end MaterSDK
