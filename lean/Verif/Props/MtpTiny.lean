import Verif.Props.MtpLevel

/-! # C108 for every list of combinations -/

namespace MaterSDK

/-- The number of neighbouring moments of a combination whose levels do not decrease. -/
def ascents (c : List (ℕ × ℕ)) : ℕ := (c.zip c.tail).countP (fun e => decide (4 * e.1.1 + e.1.2 ≤ 4 * e.2.1 + e.2.2))

theorem dupPushes_eq (c : List (ℕ × ℕ)) : dupPushes c = List.replicate (ascents c) c := by
  have h1 : (List.range (c.length - 1)).map (fun jj => (c[jj]?, c[jj + 1]?)) =
      (c.zip c.tail).map (fun e => (some e.1, some e.2)) := by
    apply List.ext_getElem?
    intro j
    rw [List.getElem?_map, List.getElem?_map, List.zip_eq_zipWith, List.getElem?_zipWith, List.getElem?_tail]
    by_cases hj : j < c.length - 1
    · rw [List.getElem?_range hj, List.getElem?_eq_getElem (by omega : j < c.length),
        List.getElem?_eq_getElem (by omega : j + 1 < c.length)]
      simp only [Option.map_some]
      rw [List.getElem?_eq_getElem (by omega : j < c.length), List.getElem?_eq_getElem (by omega : j + 1 < c.length)]
    · rw [List.getElem?_eq_none (by simpa using hj), List.getElem?_eq_none (by omega : c.length ≤ j + 1)]
      cases c[j]? <;> rfl
  have h2 : dupPushes c = ((List.range (c.length - 1)).map (fun jj => (c[jj]?, c[jj + 1]?))).flatMap
      (fun e => match e.1, e.2 with
        | some a, some b => if mtpLevel a ≤ mtpLevel b then [c] else []
        | _, _ => []) := by
    rw [List.flatMap_map]
    rfl
  rw [h2, h1, List.flatMap_map]
  unfold ascents
  induction c.zip c.tail with
  | nil => rfl
  | cons e l ih =>
    rw [List.flatMap_cons, ih, List.countP_cons]
    simp only
    by_cases h : mtpLevel e.1 ≤ mtpLevel e.2
    · have h' : 4 * e.1.1 + e.1.2 ≤ 4 * e.2.1 + e.2.2 := by unfold mtpLevel at h; omega
      rw [if_pos h, decide_eq_true h', if_pos rfl, List.replicate_succ]
      rfl
    · have h' : ¬ 4 * e.1.1 + e.1.2 ≤ 4 * e.2.1 + e.2.2 := by unfold mtpLevel at h; omega
      rw [if_neg h, decide_eq_false h', if_neg (by simp), List.nil_append, Nat.add_zero]

theorem count_dupPushes (cs : List (List (ℕ × ℕ))) (c : List (ℕ × ℕ)) :
    (cs.map dupPushes).flatten.count c = cs.count c * ascents c := by
  induction cs with
  | nil => simp
  | cons d cs ih =>
    rw [List.map_cons, List.flatten_cons, List.count_append, ih, dupPushes_eq, List.count_replicate, List.count_cons]
    by_cases h : d = c
    · subst h
      simp
      ring
    · simp [h]

/-- C108 for every list: an empty combination makes the code read outside a vector; otherwise a combination is kept
once for every two neighbouring moments whose levels do not decrease, and for every time it was given, if every
non-zero `nu` occurs an even number of times, and dropped if not. -/
theorem C108_exact (cs : List (List (ℕ × ℕ))) :
    ([] ∈ cs → combinations cs true = .error .outOfBounds) ∧
    ([] ∉ cs → ∃ out, combinations cs true = .ok out ∧ ∀ c,
      ((∀ n, n ≠ 0 → Even (c.countP (fun r => r.2 == n))) → out.count c = cs.count c * ascents c) ∧
      ((¬ ∀ n, n ≠ 0 → Even (c.countP (fun r => r.2 == n))) → c ∉ out)) := by
  have hrule : ∀ c : List (ℕ × ℕ), (c.all (fun q => q.2 == 0 || c.countP (fun r => r.2 == q.2) % 2 == 0)) = true ↔
      ∀ n, n ≠ 0 → Even (c.countP (fun r => r.2 == n)) := by
    intro c
    rw [List.all_eq_true]
    constructor
    · intro h n hn
      by_cases hm : ∃ q ∈ c, q.2 = n
      · obtain ⟨q, hq, rfl⟩ := hm
        have := h q hq
        simp only [Bool.or_eq_true, beq_iff_eq, hn, false_or] at this
        exact Nat.even_iff.2 this
      · have : c.countP (fun r => r.2 == n) = 0 := by
          rw [List.countP_eq_zero]
          intro q hq h'
          exact hm ⟨q, hq, by simpa using h'⟩
        rw [this]
        exact Even.zero
    · intro h q hq
      by_cases h0 : q.2 = 0
      · simp [h0]
      · simp only [Bool.or_eq_true, beq_iff_eq, h0, false_or]
        exact Nat.even_iff.1 (h q.2 h0)
  constructor
  · intro hmem
    have : cs.mapM (fun c => if c = [] then (.error .outOfBounds : Except CErr _) else .ok (dupPushes c))
        = .error .outOfBounds := by
      induction cs with
      | nil => simp at hmem
      | cons c cs ih =>
        rw [List.mapM_cons]
        by_cases hc : c = []
        · rw [if_pos hc]; rfl
        · rw [if_neg hc, ok_bind, ih (by
            rcases List.mem_cons.1 hmem with h | h
            · exact absurd h.symm hc
            · exact h)]
          rfl
    unfold combinations removeDuplicates
    rw [if_pos rfl, this]
    rfl
  · intro hno
    have hm : cs.mapM (fun c => if c = [] then (.error .outOfBounds : Except CErr _) else .ok (dupPushes c))
        = .ok (cs.map dupPushes) := by
      induction cs with
      | nil => rfl
      | cons c cs ih =>
        rw [List.mapM_cons, if_neg (fun h => hno (by simp [h])), ok_bind, ih (fun h => hno (by simp [h])), ok_bind]
        rfl
    refine ⟨removeCannotContract (cs.map dupPushes).flatten, ?_, ?_⟩
    · unfold combinations removeDuplicates
      rw [if_pos rfl, hm]
      rfl
    · intro c
      unfold removeCannotContract
      constructor
      · intro hc
        rw [List.count_filter (by exact (hrule c).2 hc), count_dupPushes]
      · intro hc hmem
        exact hc ((hrule c).1 (List.mem_filter.1 hmem).2)

/-- C108 holds for a list without empty combinations exactly when, of the combinations that can be contracted, those
with levels that do not decrease were given once and have two moments, and the levels of all others decrease at
every step. -/
theorem C108_holds_iff (cs out : List (List (ℕ × ℕ))) (hno : [] ∉ cs) (h : combinations cs true = .ok out) :
    (∀ c ∈ cs, (∀ n, n ≠ 0 → Even (c.countP (fun r => r.2 == n))) →
      out.count c = if c.Pairwise (fun a b => 4 * a.1 + a.2 ≤ 4 * b.1 + b.2) then 1 else 0) ↔
    ∀ c ∈ cs, (∀ n, n ≠ 0 → Even (c.countP (fun r => r.2 == n))) →
      (c.Pairwise (fun a b => 4 * a.1 + a.2 ≤ 4 * b.1 + b.2) → cs.count c = 1 ∧ c.length = 2) ∧
      (¬ c.Pairwise (fun a b => 4 * a.1 + a.2 ≤ 4 * b.1 + b.2) → ascents c = 0) := by
  obtain ⟨out', h', hcount⟩ := (C108_exact cs).2 hno
  rw [h] at h'
  cases h'
  have hasc : ∀ c : List (ℕ × ℕ), c.Pairwise (fun a b => 4 * a.1 + a.2 ≤ 4 * b.1 + b.2) → ascents c = c.length - 1 := by
    intro c hc
    unfold ascents
    rw [List.countP_eq_length.2]
    · rw [List.length_zip, List.length_tail]
      omega
    · intro e he
      rw [decide_eq_true_iff]
      obtain ⟨j, hj⟩ := List.mem_iff_getElem?.1 he
      obtain ⟨h1, h2⟩ := List.getElem?_zip_eq_some.1 hj
      rw [List.getElem?_tail] at h2
      obtain ⟨h1l, h1e⟩ := List.getElem?_eq_some_iff.1 h1
      obtain ⟨h2l, h2e⟩ := List.getElem?_eq_some_iff.1 h2
      rw [← h1e, ← h2e]
      exact List.pairwise_iff_getElem.1 hc _ _ h1l h2l (by omega)
  refine forall_congr' fun c => forall_congr' fun hc => forall_congr' fun hrule => ?_
  have hpos : 0 < cs.count c := List.count_pos_iff.2 hc
  rw [(hcount c).1 hrule]
  by_cases hs : c.Pairwise (fun a b => 4 * a.1 + a.2 ≤ 4 * b.1 + b.2)
  · rw [if_pos hs, hasc c hs]
    constructor
    · intro h1
      obtain ⟨h2, h3⟩ := mul_eq_one.1 h1
      exact ⟨fun _ => ⟨h2, by omega⟩, fun h => absurd hs h⟩
    · rintro ⟨h1, _⟩
      obtain ⟨h2, h3⟩ := h1 hs
      rw [h2, h3]
  · rw [if_neg hs]
    constructor
    · intro h1
      refine ⟨fun h => absurd h hs, fun _ => ?_⟩
      rcases Nat.mul_eq_zero.1 h1 with h | h
      · omega
      · exact h
    · rintro ⟨_, h1⟩
      rw [h1 hs, Nat.mul_zero]

example : ascents [(0, 0), (0, 1), (0, 1)] = 2 ∧ ascents [(0, 1), (0, 0), (0, 1)] = 1 ∧ ascents [(0, 0)] = 0 := by decide

end MaterSDK
