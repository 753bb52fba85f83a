import Verif.Lemmas.EnvMatrixUse
import Verif.Lemmas.Averages
import Verif.Lemmas.CellListAux
import Verif.Lemmas.CellListMore
import Mathlib.Tactic.FinCases
import Mathlib.Tactic.NormNum

/-! # Helper lemmas for `Props/EnvMatrix.lean` -/



namespace MaterSDK
open Classical

theorem envFind_ok (p : SlotIn) (umax : List ℕ) (n : ℕ) (nbrs : ℕ → List (ℕ × Vec ℝ)) (rel : List ℝ)
    (rcut rs : ℝ) (ty : ℕ → ℤ)
    (hl : ListsNbrs p umax n (fun ii => (nbrs ii).map Prod.fst))
    (hty : ∀ ii < n, ∀ e ∈ nbrs ii, p.types[e.1]? = some (ty e.1))
    (hrel : ∀ ii < n, ∀ (jj : ℕ) (e : ℕ × Vec ℝ), (nbrs ii)[jj]? = some e →
      StoredAt rel (ii * umax.sum + jj) e.2)
    (hroom : ∀ ii < n, RoomFor umax ((nbrs ii).map (fun e => (ty e.1, e.2)))) :
    envFind p rel rcut rs = .ok ((List.range n).flatMap (fun ii => typeBlocks (0, 0) umax
      ((nbrs ii).map (fun e => (ty e.1, (cEnvRow rcut rs e.2, cEnvDeriv rcut rs e.2)))))) := by
  unfold envFind
  rw [slotFill_lists p umax n _ hl ty ?_ _ _ _
    (fun ii jj _ => ((cEnvRow rcut rs (((nbrs ii)[jj]?).map Prod.snd |>.getD 0)),
      cEnvDeriv rcut rs (((nbrs ii)[jj]?).map Prod.snd |>.getD 0))) ?_ ?_]
  · refine congrArg Except.ok ?_
    refine List.flatMap_congr ?_
    intro ii hii
    congr 1
    apply List.ext_getElem?
    intro j
    rw [List.getElem?_map, List.getElem?_zipIdx, List.getElem?_map, List.getElem?_map]
    cases hj : (nbrs ii)[j]? with
    | none => rfl
    | some e => simp [hj]
  · intro ii hii k hk
    obtain ⟨e, he, rfl⟩ := List.mem_map.1 hk
    exact hty ii hii e he
  · intro ii hii
    refine ⟨(), rfl, ?_⟩
    intro jj k hk
    rw [List.getElem?_map] at hk
    cases hj : (nbrs ii)[jj]? with
    | none => rw [hj] at hk; simp at hk
    | some e =>
      rw [cVec3_ok (hrel ii hii jj e hj), ok_bind]
      rfl
  · intro ii hii
    have := (roomFor_map (fun _ => ()) umax _).2 (hroom ii hii)
    rw [List.map_map] at this
    rw [List.map_map]
    exact this

theorem se4pw_ok (p : SlotIn) (umax : List ℕ) (n : ℕ) (nbrs : ℕ → List ℕ) (ilist : List ℤ) (x : List ℝ)
    (rcut rs : ℝ) (ty : ℕ → ℤ) (ctr : ℕ → ℕ) (pos : ℕ → Vec ℝ)
    (hl : ListsNbrs p umax n nbrs) (hty : ∀ ii < n, ∀ k ∈ nbrs ii, p.types[k]? = some (ty k))
    (hi : ∀ ii < n, ilist[ii]? = some (ctr ii : ℤ)) (hx : ∀ ii < n, StoredAt x (ctr ii) (pos (ctr ii)))
    (hxn : ∀ ii < n, ∀ k ∈ nbrs ii, StoredAt x k (pos k))
    (hroom : ∀ ii < n, RoomFor umax ((nbrs ii).map (fun k => (ty k, k)))) :
    se4pwGenerate p ilist x rcut rs = .ok ((List.range n).flatMap (fun ii =>
      typeBlocks (0, 0, 0) umax ((nbrs ii).map (fun k => (ty k, (cEnvRow rcut rs (pos k - pos (ctr ii)),
        cSe4pwDeriv rcut rs (pos k - pos (ctr ii)), pos k - pos (ctr ii))))))) ∧
    primIndices p ilist = .ok ((List.range n).flatMap (fun ii => typeBlocks (-1) umax
      ((nbrs ii).map (fun k => (ty k, ((k % n : ℕ) : ℤ)))))) := by
  have hroom' : ∀ ii < n, RoomFor umax ((nbrs ii).map (fun k => (ty k, ()))) := by
    intro ii hii
    have := (roomFor_map (fun _ => ()) umax _).2 (hroom ii hii)
    rw [List.map_map] at this
    exact this
  have hv : ∀ ii < n, ∀ k, ![pos k 0 - pos (ctr ii) 0, pos k 1 - pos (ctr ii) 1, pos k 2 - pos (ctr ii) 2]
      = pos k - pos (ctr ii) := by
    intro ii _ k
    funext i
    fin_cases i <;> rfl
  have h1 : se4pwGenerate p ilist x rcut rs = .ok ((List.range n).flatMap (fun ii =>
      typeBlocks (0, 0, 0) umax ((nbrs ii).map (fun k => (ty k, (cEnvRow rcut rs (pos k - pos (ctr ii)),
        cSe4pwDeriv rcut rs (pos k - pos (ctr ii)), pos k - pos (ctr ii))))))) := by
    unfold se4pwGenerate
    rw [slotFill_lists p umax n nbrs hl ty hty _ _ _
      (fun ii _ k => (cEnvRow rcut rs (pos k - pos (ctr ii)),
        cSe4pwDeriv rcut rs (pos k - pos (ctr ii)), pos k - pos (ctr ii))) ?_ hroom']
    · refine congrArg Except.ok (List.flatMap_congr ?_)
      intro ii _
      congr 1
      conv_rhs => rw [← List.zipIdx_map_fst 0 (nbrs ii), List.map_map]
      rfl
    · intro ii hii
      refine ⟨pos (ctr ii), ?_, ?_⟩
      · rw [cGet_nat (hi ii hii), ok_bind, cVec3_ok (hx ii hii)]
      · intro jj k hk
        rw [cVec3_ok (hxn ii hii k (List.mem_of_getElem? hk)), ok_bind, hv ii hii]
        rfl
  have h2 : primIndices p ilist = .ok ((List.range n).flatMap (fun ii => typeBlocks (-1) umax
      ((nbrs ii).map (fun k => (ty k, ((k % n : ℕ) : ℤ)))))) := by
    unfold primIndices
    rw [slotFill_lists p umax n nbrs hl ty hty _ _ _ (fun _ _ k => ((k % n : ℕ) : ℤ)) ?_ hroom']
    · refine congrArg Except.ok (List.flatMap_congr ?_)
      intro ii _
      congr 1
      conv_rhs => rw [← List.zipIdx_map_fst 0 (nbrs ii), List.map_map]
      rfl
    · intro ii hii
      refine ⟨_, cGet_nat (hi ii hii), ?_⟩
      intro jj k hk
      rw [hl.1]
      refine congrArg Except.ok ?_
      rw [Int.tmod_eq_emod_of_nonneg (Int.natCast_nonneg k)]
      exact (Int.natCast_emod k n).symm
  exact ⟨h1, h2⟩

/-- Arrays with two centres, two types and padding: centre 0 sees atom 1 twice and atom 0 once. -/
def exSlots : SlotIn := ⟨2, [3, 1], [1, 0, 1, -1, 0, -1, -1, -1], [0, 1], [1, 3]⟩

/-- The relative positions of `exSlots`. -/
def exSlotNbrs (ii : ℕ) : List (ℕ × Vec ℝ) :=
  if ii = 0 then [(1, ![1, 0, 0]), (0, ![0, 2, 0]), (1, ![-1, 0, 0])] else [(0, ![-1, 0, 0])]

/-- The array of relative positions of `exSlots`. -/
def exSlotRel : List ℝ := [1, 0, 0, 0, 2, 0, -1, 0, 0, 0, 0, 0, -1, 0, 0]

theorem exSlots_lists : ListsNbrs exSlots [1, 3] 2 (fun ii => (exSlotNbrs ii).map Prod.fst) := by
  refine ⟨rfl, rfl, ?_⟩
  intro ii hii
  interval_cases ii
  · refine ⟨rfl, ?_⟩
    intro jj k hk
    rcases jj with _ | _ | _ | jj <;> simp [exSlotNbrs] at hk <;> subst hk <;> rfl
  · refine ⟨rfl, ?_⟩
    intro jj k hk
    rcases jj with _ | jj <;> simp [exSlotNbrs] at hk
    subst hk
    rfl

theorem exSlots_types : ∀ ii < 2, ∀ e ∈ exSlotNbrs ii, exSlots.types[e.1]? = some ((e.1 : ℕ) : ℤ) := by
  intro ii hii e he
  interval_cases ii <;> simp [exSlotNbrs] at he
  · rcases he with rfl | rfl | rfl <;> rfl
  · subst he; rfl

theorem exSlots_rel : ∀ ii < 2, ∀ (jj : ℕ) (e : ℕ × Vec ℝ), (exSlotNbrs ii)[jj]? = some e →
    StoredAt exSlotRel (ii * [1, 3].sum + jj) e.2 := by
  intro ii hii jj e he
  interval_cases ii
  · rcases jj with _ | _ | _ | jj <;> simp [exSlotNbrs] at he <;> subst he <;> simp [StoredAt, exSlotRel]
  · rcases jj with _ | jj <;> simp [exSlotNbrs] at he
    subst he
    simp [StoredAt, exSlotRel]

theorem exSlots_room : ∀ ii < 2,
    RoomFor [1, 3] ((exSlotNbrs ii).map (fun e => (((e.1 : ℕ) : ℤ), e.2))) := by
  intro ii hii
  interval_cases ii
  · refine ⟨by simp [exSlotNbrs], ?_⟩
    intro t m hm
    rcases t with _ | _ | t <;> simp at hm <;> subst hm <;> simp [exSlotNbrs]
  · refine ⟨by simp [exSlotNbrs], ?_⟩
    intro t m hm
    rcases t with _ | _ | t <;> simp at hm <;> subst hm <;> simp [exSlotNbrs]

/-- Positions for the example of C93: atoms 0 and 1 of the cell and an image of atom 1. -/
noncomputable def exPos (k : ℕ) : Vec ℝ := if k = 0 then ![0, 0, 0] else if k = 1 then ![1, 0, 0] else ![0, 2, 0]

/-- The cell of the examples of C82 with types instead of atomic numbers. -/
noncomputable def exTyped : List (ℤ × Vec ℝ) := [(0, ![0, 0, 0]), (1, ![2, 1, 1])]

theorem exTyped_ok : CellOk exL exTyped (fun _ => true) := by
  have h := exL_ok _ (Or.inl rfl)
  refine ⟨h.nonsing, by simp [exTyped], ?_, h.dir, h.perp⟩
  intro a ha
  simp only [exTyped, List.mem_cons, List.not_mem_nil, or_false] at ha
  rcases ha with rfl | rfl
  · exact h.inCell (3, ![0, 0, 0]) (by simp [exAtoms])
  · exact h.inCell (8, ![2, 1, 1]) (by simp [exAtoms])

/-- An image closer than √10 to an atom of the example cell is one of two images of the other atom. -/
theorem exTyped_near_root {R : ℝ} (h0R : 0 ≤ R) (hR : R ^ 2 ≤ 10) (i : ℕ) (c : ℤ × Vec ℝ)
    (hc : exTyped[i]? = some c) (e : ℕ × (Fin 3 → ℤ))
    (hn : NearBy exL (fun _ => true) (exTyped.map Prod.snd) R c.2 e) (hne : e ≠ (i, 0)) :
    e ∈ [(1 - i, (0 : Fin 3 → ℤ)), (1 - i, ![if i = 0 then -1 else 1, 0, 0])] := by
  obtain ⟨_, p, hp, hd⟩ := hn
  obtain ⟨j, t⟩ := e
  have hd2 : dist3 (imagePos exL p t) c.2 ^ 2 < 10 := by
    have h0 : 0 ≤ dist3 (imagePos exL p t) c.2 := Real.sqrt_nonneg _
    nlinarith
  rw [dist3_sq_comp, imagePos_apply, imagePos_apply, imagePos_apply] at hd2
  simp only at hp
  have key : ∀ a b : Fin 3 → ℤ, (∀ k, p k = b k) → (∀ k, c.2 k = a k) →
      (b 0 + 4 * t 0 + t 1 - a 0) ^ 2 + (b 1 + 5 * t 1 - a 1) ^ 2 + (b 2 + 6 * t 2 - a 2) ^ 2 < 10 := by
    intro a b hb ha
    simp [exL, ha, hb] at hd2
    have : (((b 0 + 4 * t 0 + t 1 - a 0) ^ 2 + (b 1 + 5 * t 1 - a 1) ^ 2 + (b 2 + 6 * t 2 - a 2) ^ 2 : ℤ) : ℝ)
        < ((10 : ℤ) : ℝ) := by
      push_cast
      nlinarith
    exact Int.cast_lt.1 this
  have bound : ∀ x y z : ℤ, x ^ 2 + y ^ 2 + z ^ 2 < 10 →
      (-4 < x ∧ x < 4) ∧ (-4 < y ∧ y < 4) ∧ (-4 < z ∧ z < 4) := by
    intro x y z h
    refine ⟨⟨?_, ?_⟩, ⟨?_, ?_⟩, ⟨?_, ?_⟩⟩ <;> nlinarith [sq_nonneg x, sq_nonneg y, sq_nonneg z]
  have tv : ∀ x : ℤ, t 0 = x → t 1 = 0 → t 2 = 0 → t = ![x, 0, 0] := by
    intro x h0 h1 h2
    funext k
    fin_cases k
    · exact h0
    · exact h1
    · exact h2
  rcases i with _ | _ | i
  · simp [exTyped] at hc
    subst hc
    rcases j with _ | _ | j
    · exfalso
      simp [exTyped] at hp
      subst hp
      have h := bound _ _ _ (key ![0, 0, 0] ![0, 0, 0] (by intro k; fin_cases k <;> simp)
        (by intro k; fin_cases k <;> simp))
      simp at h
      apply hne
      rw [tv 0 (by omega) (by omega) (by omega)]
      simp only [Prod.mk.injEq, true_and]
      funext k
      fin_cases k <;> rfl
    · simp [exTyped] at hp
      subst hp
      have h := bound _ _ _ (key ![0, 0, 0] ![2, 1, 1] (by intro k; fin_cases k <;> simp)
        (by intro k; fin_cases k <;> simp))
      simp at h
      rcases (show t 0 = 0 ∨ t 0 = -1 by omega) with h0 | h0
      · rw [tv 0 h0 (by omega) (by omega)]
        refine List.mem_cons.2 (Or.inl ?_)
        simp only [Nat.zero_add, Nat.sub_zero, Prod.mk.injEq, true_and]
        funext k
        fin_cases k <;> rfl
      · rw [tv (-1) h0 (by omega) (by omega)]
        simp
    · simp [exTyped] at hp
  · simp [exTyped] at hc
    subst hc
    rcases j with _ | _ | j
    · simp [exTyped] at hp
      subst hp
      have h := bound _ _ _ (key ![2, 1, 1] ![0, 0, 0] (by intro k; fin_cases k <;> simp)
        (by intro k; fin_cases k <;> simp))
      simp at h
      rcases (show t 0 = 0 ∨ t 0 = 1 by omega) with h0 | h0
      · rw [tv 0 h0 (by omega) (by omega)]
        refine List.mem_cons.2 (Or.inl ?_)
        simp only [Nat.zero_add, Nat.sub_self, Prod.mk.injEq, true_and]
        funext k
        fin_cases k <;> rfl
      · rw [tv 1 h0 (by omega) (by omega)]
        simp
    · exfalso
      simp [exTyped] at hp
      subst hp
      have h := bound _ _ _ (key ![2, 1, 1] ![2, 1, 1] (by intro k; fin_cases k <;> simp)
        (by intro k; fin_cases k <;> simp))
      simp at h
      apply hne
      rw [tv 0 (by omega) (by omega) (by omega)]
      simp only [Nat.zero_add, Prod.mk.injEq, true_and]
      funext k
      fin_cases k <;> rfl
    · simp [exTyped] at hp
  · simp [exTyped] at hc

/-- The same for the cutoff 3 of the examples. -/
theorem exTyped_near (i : ℕ) (c : ℤ × Vec ℝ) (hc : exTyped[i]? = some c) (e : ℕ × (Fin 3 → ℤ))
    (hn : NearBy exL (fun _ => true) (exTyped.map Prod.snd) 3 c.2 e) (hne : e ≠ (i, 0)) :
    e ∈ [(1 - i, (0 : Fin 3 → ℤ)), (1 - i, ![if i = 0 then -1 else 1, 0, 0])] :=
  exTyped_near_root (by norm_num) (by norm_num) i c hc e hn hne

end MaterSDK
