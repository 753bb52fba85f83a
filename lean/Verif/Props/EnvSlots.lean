import Verif.Lemmas.EnvSlots
import Verif.Props.EnvMatrix

/-! # C92 for every slot table -/

namespace MaterSDK
open Classical

/-- C92, what happens for every slot table and neighbours of known types: neighbour `jj` of centre `ii` is written
to the first slot of its type plus the number of earlier neighbours of that type, even if that is the slot of
another type or another centre; later writes replace earlier ones. There is an error, an out-of-bounds access, only
if a place lies behind the last slot of the last centre. -/
theorem C92_exact (p : SlotIn) (umax : List ℕ) (n : ℕ) (nbrs : ℕ → List (ℕ × Vec ℝ)) (rel : List ℝ)
    (rcut rs : ℝ) (ty : ℕ → ℤ)
    (hl : ListsNbrs p umax n (fun ii => (nbrs ii).map Prod.fst))
    (hty : ∀ ii < n, ∀ e ∈ nbrs ii, p.types[e.1]? = some (ty e.1) ∧ 0 ≤ ty e.1 ∧ ty e.1 < umax.length)
    (hrel : ∀ ii < n, ∀ (jj : ℕ) (e : ℕ × Vec ℝ), (nbrs ii)[jj]? = some e →
      StoredAt rel (ii * umax.sum + jj) e.2) :
    let ws := (List.range n).flatMap (fun ii =>
      slotWrites umax ii ((nbrs ii).map (fun e => (ty e.1, envAt rcut rs e.2 0))))
    ((∀ w ∈ ws, w.1 < n * umax.sum) → ∃ out, envFind p rel rcut rs = .ok out ∧
      out.map Prod.fst = (List.range (n * umax.sum)).map (lastSlotWrite ws 0)) ∧
    ((∃ w ∈ ws, n * umax.sum ≤ w.1) → envFind p rel rcut rs = .error .outOfBounds) := by
  intro ws
  obtain ⟨h1, h2, h3⟩ := hl
  have hw := SlotIn.width_eq h2
  set vals : ℕ → List (ℤ × ((Fin 4 → ℝ) × Matrix (Fin 4) (Fin 3) ℝ)) := fun ii =>
    (nbrs ii).map (fun e => (ty e.1, (cEnvRow rcut rs e.2, cEnvDeriv rcut rs e.2))) with hvals
  have hfill : envFind p rel rcut rs = writeAll (List.replicate (n * umax.sum) (0, 0))
      ((List.range n).flatMap (fun ii => slotWrites umax ii (vals ii))) := by
    unfold envFind
    refine slotFill_write p umax n h2 h1 _ _ _ vals ?_ ?_ ?_
    · intro ii hii
      refine ⟨(), rfl, ?_⟩
      intro jj q hq
      rw [hvals, List.getElem?_map] at hq
      cases he : (nbrs ii)[jj]? with
      | none => rw [he] at hq; simp at hq
      | some e =>
        rw [he] at hq
        simp only [Option.map_some, Option.some.injEq] at hq
        subst hq
        have ee : (ii : ℤ) * p.width + (jj : ℤ) = ((ii * umax.sum + jj : ℕ) : ℤ) := by
          rw [hw]; push_cast; ring
        refine ⟨(e.1 : ℤ), ?_, ?_, ?_⟩
        · rw [ee]
          exact cGet_nat ((h3 ii hii).2 jj e.1 (by rw [List.getElem?_map, he]; rfl))
        · exact cGet_nat (hty ii hii e (List.mem_of_getElem? he)).1
        · rw [ee]
          beta_reduce
          rw [cVec3_ok (hrel ii hii jj e he), ok_bind]
          rfl
    · intro ii hii
      rw [(h3 ii hii).1, hvals, List.length_map, List.length_map]
    · intro ii hii q hq
      obtain ⟨e, he, rfl⟩ := List.mem_map.1 hq
      exact (hty ii hii e he).2
  -- the rows are the first components of what is written
  have hproj : ws = ((List.range n).flatMap (fun ii => slotWrites umax ii (vals ii))).map (fun w => (w.1, w.2.1)) := by
    rw [List.map_flatMap]
    refine List.flatMap_congr ?_
    intro ii _
    unfold slotWrites
    rw [List.map_map]
    apply List.ext_getElem?
    intro j
    rw [List.getElem?_map, List.getElem?_map, List.getElem?_zipIdx, List.getElem?_zipIdx, hvals, List.getElem?_map,
      List.getElem?_map]
    cases (nbrs ii)[j]? with
    | none => rfl
    | some e =>
      simp only [Option.map_some, Function.comp_apply, ← List.map_take, List.countP_map, cEnvRow_envAt_zero]
      rfl
  generalize (List.range n).flatMap (fun ii => slotWrites umax ii (vals ii)) = vs at hfill hproj
  constructor
  · intro hlt
    obtain ⟨l', e1, e2, e3⟩ := writeAll_ok vs (List.replicate (n * umax.sum) ((0 : Fin 4 → ℝ), (0 : Matrix (Fin 4) (Fin 3) ℝ)))
      (by
        intro w hw
        rw [List.length_replicate]
        exact hlt (w.1, w.2.1) (by rw [hproj]; exact List.mem_map.2 ⟨w, hw, rfl⟩))
    refine ⟨l', by rw [hfill, e1], ?_⟩
    rw [List.length_replicate] at e2
    apply List.ext_getElem?
    intro k
    rw [List.getElem?_map, List.getElem?_map]
    by_cases hk : k < n * umax.sum
    · rw [e3 k (0, 0) (by rw [List.getElem?_replicate, if_pos hk]), List.getElem?_range hk, Option.map_some,
        Option.map_some, hproj]
      unfold lastSlotWrite
      rw [← List.map_reverse, List.find?_map]
      have : ((fun w : ℕ × (Fin 4 → ℝ) => decide (w.1 = k)) ∘ fun w : ℕ × ((Fin 4 → ℝ) × Matrix (Fin 4) (Fin 3) ℝ) =>
          (w.1, w.2.1)) = fun w => decide (w.1 = k) := rfl
      rw [this]
      cases vs.reverse.find? (fun w => decide (w.1 = k)) with
      | none => rfl
      | some w => rfl
    · rw [List.getElem?_eq_none (by omega), List.getElem?_eq_none (by simpa using hk)]
      rfl
  · rintro ⟨w, hw, hle⟩
    rw [hproj] at hw
    obtain ⟨v, hv, rfl⟩ := List.mem_map.1 hw
    rw [hfill]
    exact writeAll_oob _ _ ⟨v, hv, by rw [List.length_replicate]; exact hle⟩

/-- C92: the places are the right ones for all neighbours of a centre exactly if there is room for them: without
room, a neighbour is written behind the slots of its type. -/
theorem C92_places_iff {α : Type} (umax : List ℕ) (ii : ℕ) (nbrs : List (ℤ × α))
    (hty : ∀ q ∈ nbrs, 0 ≤ q.1 ∧ q.1 < umax.length) :
    (∀ (jj : ℕ) (q : ℤ × α) (w : ℕ × α), nbrs[jj]? = some q → (slotWrites umax ii nbrs)[jj]? = some w →
      ii * umax.sum + (umax.take q.1.toNat).sum ≤ w.1 ∧ w.1 < ii * umax.sum + (umax.take (q.1.toNat + 1)).sum) ↔
    RoomFor umax nbrs := by
  have hplace : ∀ (jj : ℕ) (q : ℤ × α), nbrs[jj]? = some q → (slotWrites umax ii nbrs)[jj]? =
      some (ii * umax.sum + ((umax.take q.1.toNat).sum + (nbrs.take jj).countP (fun x => x.1 = q.1)), q.2) := by
    intro jj q hq
    unfold slotWrites
    rw [List.getElem?_map, List.getElem?_zipIdx, hq]
    simp
  have hsum : ∀ (t m : ℕ), umax[t]? = some m → (umax.take (t + 1)).sum = (umax.take t).sum + m := by
    intro t m h
    rw [List.take_add_one, h, List.sum_append]
    simp
  constructor
  · intro h
    refine ⟨hty, ?_⟩
    intro t m hm
    by_contra hc
    push Not at hc
    -- the neighbour that is the (m+1)-th of its type
    have key : ∀ (l : List (ℤ × α)), m < l.countP (fun q => q.1 = (t : ℤ)) → ∃ (jj : ℕ) (q : ℤ × α), l[jj]? = some q ∧
        q.1 = (t : ℤ) ∧ (l.take jj).countP (fun x => x.1 = (t : ℤ)) = m := by
      intro l
      induction l using List.reverseRecOn with
      | nil => intro h; simp at h
      | append_singleton l a ih =>
        intro h
        by_cases hl : m < l.countP (fun q => q.1 = (t : ℤ))
        · obtain ⟨jj, q, e1, e2, e3⟩ := ih hl
          have hjj : jj < l.length := (List.getElem?_eq_some_iff.1 e1).1
          refine ⟨jj, q, by rw [List.getElem?_append_left hjj, e1], e2, ?_⟩
          rw [List.take_append_of_le_length hjj.le, e3]
        · rw [List.countP_append] at h
          have ha : a.1 = (t : ℤ) := by
            by_contra hne
            simp [hne] at h
            omega
          refine ⟨l.length, a, by simp, ha, ?_⟩
          simp only [List.countP_singleton, ha] at h
          simp at h
          rw [List.take_left']
          · omega
          · rfl
    obtain ⟨jj, q, e1, e2, e3⟩ := key nbrs hc
    have := (h jj q _ e1 (hplace jj q e1)).2
    simp only [e2, Int.toNat_natCast, hsum t m hm] at this
    have e4 : (nbrs.take jj).countP (fun x => decide (x.1 = (t : ℤ))) = m := e3
    omega
  · rintro ⟨_, hroom⟩ jj q w hq hw
    rw [hplace jj q hq] at hw
    cases hw
    obtain ⟨h0, h1⟩ := hty q (List.mem_of_getElem? hq)
    obtain ⟨t, ht⟩ := Int.eq_ofNat_of_zero_le h0
    have htl : t < umax.length := by rw [ht] at h1; exact_mod_cast h1
    have hget : umax[t]? = some umax[t] := List.getElem?_eq_getElem htl
    have hr := hroom t _ hget
    have hjj : jj < nbrs.length := (List.getElem?_eq_some_iff.1 hq).1
    have hcnt : (nbrs.take (jj + 1)).countP (fun x => x.1 = (t : ℤ)) ≤ nbrs.countP (fun x => x.1 = (t : ℤ)) :=
      (List.take_sublist _ _).countP_le
    rw [List.take_add_one, hq, List.countP_append] at hcnt
    simp only [Option.toList_some, List.countP_singleton, ht, decide_true, if_true] at hcnt
    simp only [ht, Int.toNat_natCast, hsum t _ hget]
    constructor
    · omega
    · omega

example : (slotWrites [1, 1] 0 [((0 : ℤ), 'a'), (0, 'b')]) = [(0, 'a'), (1, 'b')] ∧
    lastSlotWrite [(0, 'a'), (1, 'b'), (1, 'c')] 'z' 1 = 'c' := by decide

example : ¬ RoomFor [1, 2] [((0 : ℤ), 'a'), (0, 'b'), (1, 'c')] ∧
    ∀ q ∈ [((0 : ℤ), 'a'), (0, 'b'), (1, 'c')], 0 ≤ q.1 ∧ q.1 < (([1, 2] : List ℕ).length : ℤ) := by
  constructor
  · rintro ⟨_, h⟩
    exact absurd (h 0 1 rfl) (by decide)
  · decide

end MaterSDK
