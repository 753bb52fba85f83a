import Verif.Lemmas.EdgeOrder
import Verif.Props.Report

/-! # C67: when a gap is called direct -/

namespace MaterSDK

/-- `k` is the k-point of the first occurrence of an energy, going through spin up before spin down and
through the k-points and their bands in order. -/
def EigenTable.FirstAt (t : EigenTable) (x : ℚ) (k : ℕ) : Prop :=
  ∃ s b, t.At s k b x ∧ ∀ s' k' b', t.At s' k' b' x →
    (s = .up ∧ s' = .down) ∨ (s = s' ∧ (k < k' ∨ (k = k' ∧ b ≤ b')))

theorem first_of_split (t : EigenTable) (l1 l2 : List (Spin × ℕ × ℕ × ℚ)) (x : Spin × ℕ × ℕ × ℚ)
    (hl : allEntries t = l1 ++ x :: l2) (m : ℚ) (hx : x.2.2.2 = m) (h1 : ∀ y ∈ l1, y.2.2.2 ≠ m) :
    t.FirstAt m x.2.1 := by
  obtain ⟨s, k, b, e⟩ := x
  simp only at hx
  subst hx
  refine ⟨s, b, (mem_allEntries t s k b e).1 (by rw [hl]; simp), ?_⟩
  intro s' k' b' h'
  have hm := (mem_allEntries t s' k' b' e).2 h'
  have ho := allEntries_ordered t
  rw [hl] at hm ho
  rw [List.pairwise_append] at ho
  rcases List.mem_append.1 hm with h | h
  · exact absurd rfl (h1 _ h)
  rcases List.mem_cons.1 h with h | h
  · obtain ⟨rfl, rfl, rfl, -⟩ : s' = s ∧ k' = k ∧ b' = b ∧ True := by
      simp only [Prod.mk.injEq] at h
      exact ⟨h.1, h.2.1, h.2.2.1, trivial⟩
    exact Or.inr ⟨rfl, Or.inr ⟨rfl, le_refl _⟩⟩
  · rcases (List.pairwise_cons.1 ho.2.1).1 _ h with g | ⟨g1, g2⟩
    · exact Or.inl g
    · exact Or.inr ⟨g1, g2.imp_right (fun g => ⟨g.1, le_of_lt g.2⟩)⟩

theorem firstAt_unique (t : EigenTable) (x : ℚ) (k k' : ℕ) (h : t.FirstAt x k) (h' : t.FirstAt x k') : k = k' := by
  obtain ⟨s, b, hA, hF⟩ := h
  obtain ⟨s', b', hA', hF'⟩ := h'
  have g := hF _ _ _ hA'
  have g' := hF' _ _ _ hA
  rcases g with ⟨rfl, rfl⟩ | ⟨rfl, g⟩
  · rcases g' with ⟨h, -⟩ | ⟨h, -⟩ <;> cases h
  · rcases g' with ⟨rfl, h⟩ | ⟨-, g'⟩
    · cases h
    · omega

/-- C67: when the gap is called direct. For energies with at most four decimals, as in a REPORT, the type is 1
exactly when the first occurrences of the two edges are at the same k-point. -/
theorem C67_exact (np125 : Bool) (f : RunFiles) (fermi : List Str) (t : EigenTable) (ef : ℚ)
    (hf : f.fermi = some fermi) (hef : getEfermi fermi = .ok ef) (ht : eigenEnergies np125 f = .ok t)
    (hdec : ∀ e, t.Has e → roundDec 4 e = e)
    (c v : ℚ) (hc : IsLeast {e | t.Has e ∧ ef ≤ e} c) (hv : IsGreatest {e | t.Has e ∧ e ≤ ef} v)
    (n : ℕ) (h : getBandgapType np125 f = .ok n) :
    (n = 0 ∨ n = 1) ∧ (n = 1 ↔ ∃ k, t.FirstAt c k ∧ t.FirstAt v k) := by
  obtain ⟨ve, vs, ce, cs, h1, h2, -, -, h01, h3⟩ := C35_type np125 f n h
  refine ⟨h01, ?_⟩
  have hset : ∀ P : ℚ → Prop, {e | (∃ x ∈ allEntries t, x.2.2.2 = e) ∧ P e} = {e | t.Has e ∧ P e} := by
    intro P
    ext e
    constructor
    · rintro ⟨⟨⟨s, k, b, e'⟩, hx, rfl⟩, hP⟩
      exact ⟨⟨s, k, b, (mem_allEntries t s k b e').1 hx⟩, hP⟩
    · rintro ⟨⟨s, k, b, hA⟩, hP⟩
      exact ⟨⟨(s, k, b, e), (mem_allEntries t s k b e).2 hA, rfl⟩, hP⟩
  have hdec' : ∀ x ∈ allEntries t, roundDec 4 x.2.2.2 = x.2.2.2 := by
    rintro ⟨s, k, b, e⟩ hx
    exact hdec e ⟨s, k, b, (mem_allEntries t s k b e).1 hx⟩
  obtain ⟨l1, x, l2, e1, e2, e3, e4⟩ := cbm_first ef (allEntries t) hdec' c (by rw [hset]; exact hc)
  obtain ⟨l1', x', l2', e1', e2', e3', e4'⟩ := vbm_first ef (allEntries t) hdec' v (by rw [hset]; exact hv)
  have hm : isMetal np125 f = .ok false := by
    unfold getCbm at h2
    obtain ⟨m, hm, h2⟩ := bind_eq_ok.1 h2
    cases m with
    | true => cases h2
    | false => exact hm
  have hce : ce = ⟨some c, x.2.1 + 1, x.2.2.1 + 1, some x.1⟩ := by
    unfold getCbm at h2
    rw [hm, ok_bind] at h2
    simp only [Bool.false_eq_true, if_false, hf, Option.getD_some, hef, ok_bind, ht] at h2
    rw [e4] at h2
    obtain ⟨l, hl, h2⟩ := bind_eq_ok.1 h2
    unfold edgeLists at hl
    split at hl
    · cases hl
    · rw [← Except.ok.inj hl] at h2
      exact (List.cons.inj (Option.some.inj (Except.ok.inj h2))).1.symm
  have hve : ve = ⟨some v, x'.2.1 + 1, x'.2.2.1 + 1, some x'.1⟩ := by
    unfold getVbm at h1
    rw [hm, ok_bind] at h1
    simp only [Bool.false_eq_true, if_false, hf, Option.getD_some, hef, ok_bind, ht] at h1
    rw [e4'] at h1
    obtain ⟨l, hl, h1⟩ := bind_eq_ok.1 h1
    unfold edgeLists at hl
    split at hl
    · cases hl
    · rw [← Except.ok.inj hl] at h1
      exact (List.cons.inj (Option.some.inj (Except.ok.inj h1))).1.symm
  have f1 := first_of_split t l1 l2 x e1 c e2 e3
  have f2 := first_of_split t l1' l2' x' e1' v e2' e3'
  rw [h3, hce, hve]
  show x'.2.1 + 1 = x.2.1 + 1 ↔ _
  constructor
  · intro hk
    have : x.2.1 = x'.2.1 := by omega
    exact ⟨x.2.1, f1, this ▸ f2⟩
  · rintro ⟨k, g1, g2⟩
    rw [firstAt_unique t _ _ _ f1 g1, firstAt_unique t _ _ _ f2 g2]

/-- The energies of `degenerateRun`. -/
def degenerateTable : EigenTable := ⟨[[1, 3], [1, 2]], []⟩

theorem degenerateTable_entries : allEntries degenerateTable
    = [] ++ (.up, 0, 0, 1) :: [(.up, 0, 1, 3), (.up, 1, 0, 1), (.up, 1, 1, 2)] ∧ allEntries degenerateTable
    = [(.up, 0, 0, 1), (.up, 0, 1, 3), (.up, 1, 0, 1)] ++ (.up, 1, 1, 2) :: [] := by decide +kernel

theorem degenerateTable_round : ∀ x ∈ allEntries degenerateTable, roundDec 4 x.2.2.2 = x.2.2.2 := by decide +kernel

/-- The run against the claim: the valence-band maximum occurs first at k-point 0, the conduction-band minimum
at k-point 1. -/
example : degenerateTable.FirstAt 1 0 ∧ degenerateTable.FirstAt 2 1 ∧
    ∀ e, degenerateTable.Has e → roundDec 4 e = e := by
  refine ⟨first_of_split _ _ _ _ degenerateTable_entries.1 1 rfl (by simp),
    first_of_split _ _ _ _ degenerateTable_entries.2 2 rfl (by simp), ?_⟩
  rintro e ⟨s, k, b, h⟩
  exact degenerateTable_round (s, k, b, e) ((mem_allEntries _ s k b e).2 h)

end MaterSDK
