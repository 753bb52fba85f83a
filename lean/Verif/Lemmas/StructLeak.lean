import Verif.Lemmas.StructObj
import Verif.Spec.StructLeak

/-! # Counting lost arrays -/

namespace MaterSDK

variable {α β : Type}

theorem zeroFactors_noZero (op : ObjOp α β) (ops : List (ObjOp α β)) (h : op.noZero) :
    zeroFactors (op :: ops) = zeroFactors ops := by
  cases op with
  | supercell x sc =>
    have h' : sc 0 * sc 1 * sc 2 ≠ 0 := h
    rw [zeroFactors, if_neg, Nat.zero_add]
    rintro (h0 | h0 | h0) <;> simp [h0] at h'
  | _ => rfl

/-- A supercell with a factor 0 loses one block. -/
theorem objStep_zero (cls : ObjClass α β) (s s' : ObjState α β) (L : List ℕ) (hi : ObjInv cls s L) (x : ℕ)
    (sc : Fin 3 → ℕ) (h0 : sc 0 * sc 1 * sc 2 = 0) (hs : objStep cls s (.supercell x sc) = .ok s') :
    ∃ L', ObjInv cls s' L' ∧ L'.length = L.length + 1 := by
  obtain ⟨L', hi', -⟩ := (objStep_rel cls s L hi (.supercell x sc)).2 s' hs
  refine ⟨L', hi', ?_⟩
  unfold objStep at hs
  obtain ⟨lx, hx, hs⟩ := bind_eq_ok.1 hs
  have hx' : s.objs[x]? = some (some lx) := by
    unfold objGet at hx
    split at hx
    · rename_i h'; cases hx; exact h'
    · cases hx
  match lx, hx', hs with
  | [⟨_, none⟩], _, hs => cases hs
  | [], _, hs => cases hs
  | _ :: _ :: _, _, hs => cases hs
  | [⟨a, some p⟩], hx', hs =>
    simp only at hs
    obtain ⟨c, -, hs⟩ := bind_eq_ok.1 hs
    rw [if_pos h0] at hs
    have hs := Except.ok.inj hs
    have hlt := (List.getElem?_eq_some_iff.1 hx').1
    have c1 := countP_live _ _ hi.owns
    have c2 := countP_live _ _ hi'.owns
    rw [← hs] at c2
    simp only at c2
    have p1 := (allPtrs_set s.objs x _ hx').length_eq
    have p2 := (allPtrs_set (s.objs.set x (some [⟨cls.d, none⟩])) x _ (by
      rw [List.getElem?_set_self hlt])).length_eq
    rw [List.set_set] at p2
    simp only [List.length_append] at c1 c2 p1 p2
    have e1 : ((Option.map ptrs (some [(⟨a, some p⟩ : Lvl α)])).getD []).length = 1 := rfl
    have e2 : ((Option.map ptrs (some [(⟨cls.d, none⟩ : Lvl α)])).getD []).length = 0 := rfl
    omega

theorem objRun_count (cls : ObjClass α β) : ∀ (ops : List (ObjOp α β)) (s s' : ObjState α β) (L : List ℕ),
    ObjInv cls s L → ops.foldlM (objStep cls) s = .ok s' →
    ∃ L', ObjInv cls s' L' ∧ L'.length = L.length + zeroFactors ops
  | [], s, s', L, hi, h => by
    cases h
    exact ⟨L, hi, rfl⟩
  | op :: ops, s, s', L, hi, h => by
    rw [List.foldlM_cons] at h
    obtain ⟨s1, h1, h2⟩ := bind_eq_ok.1 h
    by_cases hz : op.noZero
    · obtain ⟨L1, hi1, e⟩ := (objStep_rel cls s L hi op).2 s1 h1
      obtain ⟨L', hi', e'⟩ := objRun_count cls ops s1 s' L1 hi1 h2
      exact ⟨L', hi', by rw [e', e hz, zeroFactors_noZero op ops hz]⟩
    · match op, hz, h1 with
      | .supercell x sc, hz, h1 =>
        have h0 : sc 0 * sc 1 * sc 2 = 0 := not_not.1 hz
        obtain ⟨L1, hi1, e⟩ := objStep_zero cls s s1 L hi x sc h0 h1
        obtain ⟨L', hi', e'⟩ := objRun_count cls ops s1 s' L1 hi1 h2
        refine ⟨L', hi', ?_⟩
        have : sc 0 = 0 ∨ sc 1 = 0 ∨ sc 2 = 0 := by
          rcases Nat.mul_eq_zero.1 h0 with h | h
          · rcases Nat.mul_eq_zero.1 h with h | h
            · exact .inl h
            · exact .inr (.inl h)
          · exact .inr (.inr h)
        rw [e', e, zeroFactors, if_pos this]
        omega
      | .dflt, hz, _ | .make _, hz, _ | .raw _, hz, _ | .copy _, hz, _ | .assign _ _, hz, _ | .destroy _, hz, _ =>
        exact absurd trivial hz

end MaterSDK
