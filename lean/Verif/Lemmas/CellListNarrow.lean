import Verif.Lemmas.CellListMore
import Verif.Lemmas.CellListAux

/-! # Arrays with fewer columns than neighbours -/

namespace MaterSDK

open Classical

theorem cWrite_in {α : Type} (row : List α) (l : List α) (off : ℕ) (h : off + row.length ≤ l.length) :
    ∃ l', cWrite l (off : ℤ) row = .ok l' ∧ l'.length = l.length ∧
      ∀ p, l'[p]? = if off ≤ p ∧ p < off + row.length then row[p - off]? else l[p]? := by
  induction row generalizing l off with
  | nil =>
    refine ⟨l, rfl, rfl, fun p => ?_⟩
    rw [if_neg (by simp)]
  | cons v row ih =>
    rw [List.length_cons] at h
    obtain ⟨l', h1, h2, h3⟩ := ih (l.set off v) (off + 1) (by rw [List.length_set]; omega)
    refine ⟨l', ?_, by rw [h2, List.length_set], ?_⟩
    · rw [cWrite, cSet_ok (by omega), ok_bind, Int.toNat_natCast]
      rw [← h1]
      push_cast
      rfl
    · intro p
      rw [h3]
      by_cases hp : p = off
      · subst hp
        rw [if_neg (by omega), if_pos (by simp), Nat.sub_self, List.getElem?_set_self (by omega)]
        rfl
      · rw [List.getElem?_set_ne (by omega)]
        by_cases hp2 : off + 1 ≤ p ∧ p < off + 1 + row.length
        · rw [if_pos hp2, if_pos (by rw [List.length_cons]; omega)]
          have : p - off = (p - (off + 1)) + 1 := by omega
          rw [this, List.getElem?_cons_succ]
        · rw [if_neg hp2, if_neg (by rw [List.length_cons]; omega)]

/-- What is at position `p` after the rows were written one after another: the entry of the last row that
reaches `p`, or what was there before. -/
theorem cWriteRows_in {α : Type} (w : ℕ) (rows : List (List α)) (ii : ℕ) (arr : List α)
    (h : ∀ (k : ℕ) (r : List α), rows[k]? = some r → r = [] ∨ (ii + k) * w + r.length ≤ arr.length) :
    ∃ arr', cWriteRows (w : ℤ) ii rows arr = .ok arr' ∧ arr'.length = arr.length ∧
      ∀ p, (∃ (k : ℕ) (r : List α), rows[k]? = some r ∧ (ii + k) * w ≤ p ∧ p < (ii + k) * w + r.length ∧
          (∀ (k' : ℕ) (r' : List α), k < k' → rows[k']? = some r' →
            ¬ ((ii + k') * w ≤ p ∧ p < (ii + k') * w + r'.length)) ∧ arr'[p]? = r[p - (ii + k) * w]?) ∨
        ((∀ (k : ℕ) (r : List α), rows[k]? = some r → ¬ ((ii + k) * w ≤ p ∧ p < (ii + k) * w + r.length)) ∧
          arr'[p]? = arr[p]?) := by
  induction rows generalizing ii arr with
  | nil => exact ⟨arr, rfl, rfl, fun p => Or.inr ⟨by simp, rfl⟩⟩
  | cons row rows ih =>
    obtain ⟨a1, e1, e2, e3⟩ : ∃ a1, cWrite arr ((ii * w : ℕ) : ℤ) row = .ok a1 ∧ a1.length = arr.length ∧
        ∀ p, a1[p]? = if ii * w ≤ p ∧ p < ii * w + row.length then row[p - ii * w]? else arr[p]? := by
      rcases h 0 row rfl with h0 | h0
      · subst h0
        exact ⟨arr, rfl, rfl, fun p => by rw [if_neg (by simp)]⟩
      · rw [Nat.add_zero] at h0
        exact cWrite_in row arr (ii * w) h0
    obtain ⟨a2, f1, f2, f3⟩ := ih (ii + 1) a1 (by
      intro k r hk
      have := h (k + 1) r (by simpa using hk)
      rw [e2, show ii + 1 + k = ii + (k + 1) by omega]
      exact this)
    refine ⟨a2, ?_, by rw [f2, e2], ?_⟩
    · rw [cWriteRows]
      have : (ii : ℤ) * (w : ℤ) = ((ii * w : ℕ) : ℤ) := by push_cast; rfl
      rw [this, e1, ok_bind]
      exact f1
    · intro p
      rcases f3 p with ⟨k, r, g1, g2, g3, g4, g5⟩ | ⟨g1, g2⟩
      · left
        have hk : ii + 1 + k = ii + (k + 1) := by omega
        rw [hk] at g2 g3 g5
        refine ⟨k + 1, r, by simpa using g1, g2, g3, ?_, g5⟩
        intro k' r' hk' hr'
        obtain ⟨k'', rfl⟩ : ∃ k'', k' = k'' + 1 := ⟨k' - 1, by omega⟩
        have := g4 k'' r' (by omega) (by simpa using hr')
        rwa [show ii + 1 + k'' = ii + (k'' + 1) by omega] at this
      · have hlater : ∀ (k : ℕ) (r : List α), 0 < k → (row :: rows)[k]? = some r →
            ¬ ((ii + k) * w ≤ p ∧ p < (ii + k) * w + r.length) := by
          intro k r hk hr
          obtain ⟨k'', rfl⟩ : ∃ k'', k = k'' + 1 := ⟨k - 1, by omega⟩
          have := g1 k'' r (by simpa using hr)
          rwa [show ii + 1 + k'' = ii + (k'' + 1) by omega] at this
        by_cases hp : ii * w ≤ p ∧ p < ii * w + row.length
        · left
          refine ⟨0, row, rfl, by simpa using hp.1, by simpa using hp.2, hlater, ?_⟩
          rw [g2, e3, if_pos hp, Nat.add_zero]
        · right
          refine ⟨?_, by rw [g2, e3, if_neg hp]⟩
          intro k r hr
          rcases Nat.eq_zero_or_pos k with rfl | hk
          · cases hr
            simpa using hp
          · exact hlater k r hk hr

/-- Success does not depend on more than the number of columns. -/
theorem findInfo_narrow (N : NbrLists) (U : ℕ) (infoU : MlffInfo) (hU : N.findInfo U = .ok infoU) (umax : ℕ) :
    ((∃ info, N.findInfo umax = .ok info) ↔ ∀ (i : ℕ) (l : List ℤ), N.lists[i]? = some l →
      l = [] ∨ i * umax + l.length ≤ N.bins.supercell.primNum * umax) ∧
    ∀ info, N.findInfo umax = .ok info → info.numneigh = N.lists.map List.length ∧
      cWriteRows (umax : ℤ) 0 (N.lists.map (fun l => l.map (fun k => k.tmod (N.bins.supercell.primNum : ℤ))))
        (List.replicate (N.bins.supercell.primNum * umax) (-1)) = .ok info.firstneigh := by
  have hnec : ∀ info, N.findInfo umax = .ok info → ∀ (i : ℕ) (l : List ℤ), N.lists[i]? = some l →
      l = [] ∨ i * umax + l.length ≤ N.bins.supercell.primNum * umax := by
    intro info hinfo i l hl
    by_contra hcon
    rw [not_or, not_le] at hcon
    rw [findInfo_oob N umax i l hl hcon.2 hcon.1] at hinfo
    cases hinfo
  unfold NbrLists.findInfo at hU hnec ⊢
  simp only at hU hnec ⊢
  obtain ⟨types, t1, hU⟩ := bind_eq_ok.1 hU
  obtain ⟨fn, t2, hU⟩ := bind_eq_ok.1 hU
  obtain ⟨relRows, t3, hU⟩ := bind_eq_ok.1 hU
  have hrel := mapM_eq_ok.1 t3
  have hlen : ∀ (i : ℕ) (r : List ℝ), relRows[i]? = some r → ∃ l, N.lists[i]? = some l ∧ r.length = l.length * 3 := by
    intro i r hr
    obtain ⟨hi, rfl⟩ := List.getElem?_eq_some_iff.1 hr
    have hi' : i < N.lists.zipIdx.length := by rw [hrel.length_eq]; exact hi
    have := hrel.get hi' hi
    simp only [List.get_eq_getElem, List.getElem_zipIdx, zero_add] at this
    rw [List.length_zipIdx] at hi'
    refine ⟨N.lists[i], List.getElem?_eq_getElem hi', ?_⟩
    obtain ⟨c, _, this⟩ := bind_eq_ok.1 this
    obtain ⟨xs, hx, this⟩ := bind_eq_ok.1 this
    have hfl : relRows[i] = xs.flatten := (Except.ok.inj this).symm
    have hx := mapM_eq_ok.1 hx
    rw [hfl, hx.length_eq, List.length_flatten]
    have : ∀ x ∈ xs, x.length = 3 := by
      intro x hx'
      obtain ⟨j, hj, rfl⟩ := List.mem_iff_getElem.1 hx'
      have := hx.get (by rw [hx.length_eq]; exact hj) hj
      obtain ⟨a, _, this⟩ := bind_eq_ok.1 this
      simp only [List.get_eq_getElem] at this
      rw [← Except.ok.inj this]
      rfl
    rw [List.map_congr_left this, List.map_const', List.sum_replicate, smul_eq_mul]
  constructor
  · constructor
    · rintro ⟨info, hinfo⟩
      exact hnec info hinfo
    · intro h
      obtain ⟨a, h1, _⟩ := cWriteRows_in umax (N.lists.map (fun l => l.map (fun k => k.tmod (N.bins.supercell.primNum : ℤ)))) 0
        (List.replicate (N.bins.supercell.primNum * umax) (-1)) (by
          intro k r hr
          rw [List.getElem?_map] at hr
          obtain ⟨l, hl, rfl⟩ := Option.map_eq_some_iff.1 hr
          have := h k l hl
          simpa using this)
      obtain ⟨b, h2, _⟩ := cWriteRows_in (umax * 3) relRows 0
        (List.replicate (N.bins.supercell.primNum * umax * 3) 0) (by
          intro k r hr
          obtain ⟨l, hl, hlr⟩ := hlen k r hr
          rw [List.length_replicate, zero_add, hlr]
          rcases h k l hl with h0 | h0
          · left
            rw [h0] at hlr
            exact List.length_eq_zero_iff.1 (by simpa using hlr)
          · right
            nlinarith)
      have e3 : ((umax : ℤ) * 3) = ((umax * 3 : ℕ) : ℤ) := by push_cast; ring
      rw [t1, ok_bind, h1, ok_bind, t3, ok_bind, e3, h2, ok_bind]
      exact ⟨_, rfl⟩
  · intro info hinfo
    obtain ⟨_, _, hinfo⟩ := bind_eq_ok.1 hinfo
    obtain ⟨fn', t2', hinfo⟩ := bind_eq_ok.1 hinfo
    obtain ⟨_, _, hinfo⟩ := bind_eq_ok.1 hinfo
    obtain ⟨_, _, hinfo⟩ := bind_eq_ok.1 hinfo
    cases hinfo
    exact ⟨rfl, t2'⟩

end MaterSDK
