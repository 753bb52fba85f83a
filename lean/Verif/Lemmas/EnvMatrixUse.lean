import Verif.Lemmas.EnvMatrix
import Verif.Lemmas.EnvMatrixCalc

/-! # From the slot loop to the entry points -/

set_option linter.unusedSectionVars false

namespace MaterSDK

open Classical

theorem cEnvRow_envAt (rcut rs : ℝ) (p x : Vec ℝ) : cEnvRow rcut rs (p - x) = envAt rcut rs p x := by
  unfold cEnvRow envAt
  simp only [cRecip_eq, cSmooth_weight]
  have hd : Real.sqrt ((p - x) 0 ^ 2 + (p - x) 1 ^ 2 + (p - x) 2 ^ 2) = dist3 p x := by
    rw [dist3, Fin.sum_univ_three]; rfl
  rw [hd]
  funext i
  fin_cases i <;> simp [div_eq_mul_inv] <;> ring

theorem cEnvRow_envAt_zero (rcut rs : ℝ) (v : Vec ℝ) : cEnvRow rcut rs v = envAt rcut rs v 0 := by
  rw [← cEnvRow_envAt, sub_zero]

theorem cVec3_ok {arr : List ℝ} {k : ℕ} {v : Vec ℝ} (h : StoredAt arr k v) : cVec3 arr (k : ℤ) = .ok v := by
  unfold cVec3
  obtain ⟨h0, h1, h2⟩ := h
  have e0 : ((k : ℤ) * 3) = ((k * 3 : ℕ) : ℤ) := by push_cast; ring
  have e1 : ((k : ℤ) * 3 + 1) = ((k * 3 + 1 : ℕ) : ℤ) := by push_cast; ring
  have e2 : ((k : ℤ) * 3 + 2) = ((k * 3 + 2 : ℕ) : ℤ) := by push_cast; ring
  rw [e2, e1, e0, cGet_nat h0, ok_bind, cGet_nat h1, ok_bind, cGet_nat h2, ok_bind]
  refine congrArg Except.ok ?_
  funext i
  fin_cases i <;> rfl

theorem SlotIn.width_eq {p : SlotIn} {umax : List ℕ} (hu : p.umax = umax.map (fun m : ℕ => (m : ℤ))) :
    p.width = ((umax.sum : ℕ) : ℤ) := by
  unfold SlotIn.width; rw [hu, map_cast_sum]

theorem typeBlocks_map {α β : Type} (f : α → β) (zero : α) (umax : List ℕ) (nbrs : List (ℤ × α)) :
    (typeBlocks zero umax nbrs).map f
      = typeBlocks (f zero) umax (nbrs.map (fun q => (q.1, f q.2))) := by
  unfold typeBlocks
  rw [List.map_flatMap]
  congr 1
  funext e
  rw [List.map_append, List.map_map, List.map_replicate, List.filter_map, List.map_map, List.countP_map]
  rfl

theorem roomFor_map {α β : Type} (f : α → β) (umax : List ℕ) (nbrs : List (ℤ × α)) :
    RoomFor umax (nbrs.map (fun q => (q.1, f q.2))) ↔ RoomFor umax nbrs := by
  unfold RoomFor
  constructor
  · rintro ⟨h1, h2⟩
    refine ⟨fun q hq => h1 (q.1, f q.2) (List.mem_map.2 ⟨q, hq, rfl⟩), fun t m hm => ?_⟩
    have := h2 t m hm
    rw [List.countP_map] at this
    exact this
  · rintro ⟨h1, h2⟩
    refine ⟨?_, fun t m hm => ?_⟩
    · intro q hq
      obtain ⟨r, hr, rfl⟩ := List.mem_map.1 hq
      exact h1 r hr
    · rw [List.countP_map]
      exact h2 t m hm

/-- The generic loop for arrays that list neighbours. -/
theorem slotFill_lists {α β : Type} (p : SlotIn) (umax : List ℕ) (n : ℕ) (nbrs : ℕ → List ℕ)
    (hl : ListsNbrs p umax n nbrs) (ty : ℕ → ℤ) (hty : ∀ ii < n, ∀ k ∈ nbrs ii, p.types[k]? = some (ty k))
    (zero : α) (centre : ℕ → Except CErr β) (val : β → ℤ → ℤ → Except CErr α) (a : ℕ → ℕ → ℕ → α)
    (hc : ∀ ii < n, ∃ c, centre ii = .ok c ∧ ∀ (jj k : ℕ), (nbrs ii)[jj]? = some k →
      val c ((ii * umax.sum + jj : ℕ) : ℤ) (k : ℤ) = .ok (a ii jj k))
    (hroom : ∀ ii < n, RoomFor umax ((nbrs ii).map (fun k => (ty k, ())))) :
    slotFill p zero centre val = .ok ((List.range n).flatMap (fun ii =>
      typeBlocks zero umax ((nbrs ii).zipIdx.map (fun e => (ty e.1, a ii e.2 e.1))))) := by
  obtain ⟨h1, h2, h3⟩ := hl
  have hw := SlotIn.width_eq h2
  have hr : ∀ ii < n, RoomFor umax ((nbrs ii).zipIdx.map (fun e => (ty e.1, a ii e.2 e.1))) := by
    intro ii hii
    have h := hroom ii hii
    have e : (nbrs ii).map (fun k => (ty k, ()))
        = ((nbrs ii).zipIdx.map (fun e => (ty e.1, a ii e.2 e.1))).map (fun q => (q.1, ())) := by
      rw [List.map_map]
      conv_lhs => rw [← List.zipIdx_map_fst 0 (nbrs ii)]
      rw [List.map_map]
      rfl
    rw [e] at h
    exact (roomFor_map (fun _ => ()) umax _).1 h
  refine slotFill_ok p umax n h2 h1 zero centre val _ ?_ ?_ hr
  · intro ii hii
    obtain ⟨c, hc1, hc2⟩ := hc ii hii
    refine ⟨c, hc1, ?_⟩
    intro jj q hq
    rw [List.getElem?_map, List.getElem?_zipIdx] at hq
    cases hk : (nbrs ii)[jj]? with
    | none => rw [hk] at hq; simp at hq
    | some k =>
      rw [hk] at hq
      simp at hq
      subst hq
      have e : (ii : ℤ) * p.width + (jj : ℤ) = ((ii * umax.sum + jj : ℕ) : ℤ) := by
        rw [hw]; push_cast; ring
      refine ⟨(k : ℤ), ?_, ?_, ?_⟩
      · rw [e]; exact cGet_nat ((h3 ii hii).2 jj k hk)
      · exact cGet_nat (hty ii hii k (List.mem_of_getElem? hk))
      · rw [e]; exact hc2 jj k hk
  · intro ii hii
    rw [(h3 ii hii).1, List.length_map, List.length_zipIdx]

/-- Every step of a loop that ends normally ends normally. -/
theorem foldlM_step_ok {ε σ α : Type} {f : σ → α → Except ε σ} {l : List α} {s r : σ}
    (h : l.foldlM f s = .ok r) {a : α} (ha : a ∈ l) : ∃ s' r', f s' a = .ok r' := by
  induction l generalizing s with
  | nil => simp at ha
  | cons b l ih =>
    rw [List.foldlM_cons, bind_eq_ok] at h
    obtain ⟨c, h1, h2⟩ := h
    rcases List.mem_cons.1 ha with rfl | ha
    · exact ⟨s, c, h1⟩
    · exact ih h2 ha

theorem room_length_aux {α : Type} (umax : List ℕ) (s : ℕ) (nbrs : List (ℤ × α))
    (h1 : ∀ q ∈ nbrs, (s : ℤ) ≤ q.1 ∧ q.1 < s + umax.length)
    (h2 : ∀ (t m : ℕ), umax[t]? = some m → nbrs.countP (fun q => q.1 = ((s + t : ℕ) : ℤ)) ≤ m) :
    nbrs.length ≤ umax.sum := by
  induction umax generalizing s nbrs with
  | nil =>
    cases nbrs with
    | nil => simp
    | cons q l =>
      have := h1 q (by simp)
      simp at this
      omega
  | cons m ms ih =>
    have e := List.length_eq_countP_add_countP (fun q : ℤ × α => decide (q.1 = (s : ℤ))) (l := nbrs)
    have h0 := h2 0 m rfl
    rw [Nat.add_zero] at h0
    have hrest := ih (s + 1) (nbrs.filter (fun q => ¬ (decide (q.1 = (s : ℤ)) = true))) ?_ ?_
    · rw [← List.countP_eq_length_filter] at hrest
      rw [List.sum_cons]
      rw [e]
      exact Nat.add_le_add h0 hrest
    · intro q hq
      rw [List.mem_filter] at hq
      have := h1 q hq.1
      have h3 := hq.2
      simp at h3 this
      push_cast
      omega
    · intro t m' hm
      refine le_trans ?_ (h2 (t + 1) m' (by simpa using hm))
      rw [show s + 1 + t = s + (t + 1) by omega]
      exact (List.filter_sublist).countP_le

theorem room_length {α : Type} (umax : List ℕ) (nbrs : List (ℤ × α)) (h : RoomFor umax nbrs) :
    nbrs.length ≤ umax.sum := by
  refine room_length_aux umax 0 nbrs ?_ ?_
  · intro q hq
    have := h.1 q hq
    simpa using this
  · intro t m hm
    rw [Nat.zero_add]
    exact h.2 t m hm

/-- Reading an entry of a row. -/
theorem flatRow_get {α : Type} (arr : List α) (w i j : ℕ) (hj : j < w) :
    (flatRow arr w i)[j]? = arr[i * w + j]? := by
  unfold flatRow
  rw [List.getElem?_take, if_pos hj, List.getElem?_drop]

end MaterSDK
