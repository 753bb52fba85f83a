import Verif.Lemmas.Num

/-! # Printing a number that was already printed once changes nothing -/

namespace MaterSDK

theorem fixedValue_idem (k : Nat) (q : ℚ) : fixedValue k (fixedValue k q) = fixedValue k q := by
  have hp : (0 : ℚ) < 10 ^ k := by positivity
  have key : ∀ m : ℤ, 0 ≤ m → fixedValue k ((m : ℚ) / 10 ^ k) = (m : ℚ) / 10 ^ k := by
    intro m hm
    have hm' : (0 : ℚ) ≤ m := by exact_mod_cast hm
    unfold fixedValue
    rw [if_neg (by have : (0 : ℚ) ≤ (m : ℚ) / 10 ^ k := by positivity
                   linarith)]
    rw [div_mul_cancel₀ _ hp.ne', rhe_intCast]
  have key' : ∀ m : ℤ, 0 ≤ m → fixedValue k (-((m : ℚ) / 10 ^ k)) = -((m : ℚ) / 10 ^ k) := by
    intro m hm
    have hm' : (0 : ℚ) ≤ m := by exact_mod_cast hm
    by_cases h0 : m = 0
    · subst h0; simpa using key 0 le_rfl
    · have hpos : (0 : ℚ) < m := lt_of_le_of_ne hm' (by exact_mod_cast (Ne.symm h0))
      unfold fixedValue
      rw [if_pos (by have : (0 : ℚ) < (m : ℚ) / 10 ^ k := by positivity
                     linarith)]
      rw [neg_neg, div_mul_cancel₀ _ hp.ne', rhe_intCast]
  by_cases h : q < 0
  · have e : fixedValue k q = -((rhe (-q * 10 ^ k) : ℚ) / 10 ^ k) := by
      unfold fixedValue; rw [if_pos h]
    rw [e]
    exact key' _ (rhe_nonneg (by have : 0 ≤ -q := by linarith
                                 positivity))
  · have e : fixedValue k q = (rhe (q * 10 ^ k) : ℚ) / 10 ^ k := by
      unfold fixedValue; rw [if_neg h]
    rw [e]
    exact key _ (rhe_nonneg (by have : 0 ≤ q := by linarith
                                positivity))

/-- Decimal exponent of `m / 10^k * 10^e` when the mantissa is in range. -/
theorem log_mantissa {k : Nat} {m : ℤ} {e : ℤ} (h1 : (10 : ℤ) ^ k ≤ m) (h2 : m < (10 : ℤ) ^ (k + 1)) :
    Int.log 10 ((m : ℚ) / 10 ^ k * (10 : ℚ) ^ e) = e := by
  have hp : (0 : ℚ) < 10 ^ k := by positivity
  have he : (0 : ℚ) < (10 : ℚ) ^ e := by positivity
  have h1' : (10 : ℚ) ^ k ≤ m := by exact_mod_cast h1
  have h2' : (m : ℚ) < (10 : ℚ) ^ (k + 1) := by exact_mod_cast h2
  have hm : (0 : ℚ) < m := lt_of_lt_of_le hp h1'
  have hv : (0 : ℚ) < (m : ℚ) / 10 ^ k * (10 : ℚ) ^ e := by positivity
  apply le_antisymm
  · have : Int.log 10 ((m : ℚ) / 10 ^ k * (10 : ℚ) ^ e) < e + 1 := by
      rw [← Int.lt_zpow_iff_log_lt (by norm_num) hv]
      push_cast
      rw [zpow_add₀ (by norm_num), zpow_one, mul_comm ((10 : ℚ) ^ e)]
      gcongr
      rw [div_lt_iff₀ hp]
      rw [pow_succ] at h2'
      linarith
    omega
  · rw [← Int.zpow_le_iff_le_log (by norm_num) hv]
    push_cast
    have : 1 ≤ (m : ℚ) / 10 ^ k := by rw [le_div_iff₀ hp]; linarith
    nlinarith

theorem sciUValue_idem (k : Nat) {q : ℚ} (h : 0 ≤ q) : sciUValue k (sciUValue k q) = sciUValue k q := by
  by_cases hq : q = 0
  · simp [sciUValue, hq]
  · have hq' : 0 < q := lt_of_le_of_ne h (Ne.symm hq)
    have hp : (0 : ℚ) < 10 ^ k := by positivity
    set e := Int.log 10 q with he
    have hd : (0 : ℚ) < (10 : ℚ) ^ e := by positivity
    have hlog : (10 : ℚ) ^ e ≤ q := by
      simpa [he] using Int.zpow_log_le_self (b := 10) (r := q) (by norm_num) hq'
    have hlog2 : q < (10 : ℚ) ^ (e + 1) := by
      simpa [he] using Int.lt_zpow_succ_log_self (b := 10) (by norm_num) q
    set m := rhe (q / (10 : ℚ) ^ e * 10 ^ k) with hm
    have hm1 : (10 : ℤ) ^ k ≤ m := by
      have : rhe (((10 : ℤ) ^ k : ℤ) : ℚ) ≤ m := by
        apply rhe_mono
        push_cast
        have : 1 ≤ q / (10 : ℚ) ^ e := by rw [le_div_iff₀ hd]; linarith
        nlinarith
      rwa [rhe_intCast] at this
    have hm2 : m ≤ (10 : ℤ) ^ (k + 1) := by
      have : m ≤ rhe (((10 : ℤ) ^ (k + 1) : ℤ) : ℚ) := by
        apply rhe_mono
        push_cast
        have : q / (10 : ℚ) ^ e ≤ 10 := by
          rw [div_le_iff₀ hd]
          rw [zpow_add₀ (by norm_num), zpow_one] at hlog2
          linarith
        rw [pow_succ]
        nlinarith
      rwa [rhe_intCast] at this
    have hval : sciUValue k q = (m : ℚ) / 10 ^ k * (10 : ℚ) ^ e := by
      unfold sciUValue; rw [if_neg hq]
    have gen : ∀ (m' e' : ℤ), (10 : ℤ) ^ k ≤ m' → m' < (10 : ℤ) ^ (k + 1) →
        sciUValue k ((m' : ℚ) / 10 ^ k * (10 : ℚ) ^ e') = (m' : ℚ) / 10 ^ k * (10 : ℚ) ^ e' := by
      intro m' e' h1 h2
      have he' : (0 : ℚ) < (10 : ℚ) ^ e' := by positivity
      have hmp : (0 : ℚ) < m' := lt_of_lt_of_le hp (by exact_mod_cast h1)
      have hv : (0 : ℚ) < (m' : ℚ) / 10 ^ k * (10 : ℚ) ^ e' := by positivity
      unfold sciUValue
      rw [if_neg hv.ne', log_mantissa h1 h2]
      have : (m' : ℚ) / 10 ^ k * (10 : ℚ) ^ e' / (10 : ℚ) ^ e' * 10 ^ k = (m' : ℚ) := by
        field_simp
      rw [this, rhe_intCast]
    rw [hval]
    rcases lt_or_eq_of_le hm2 with hlt | heq
    · exact gen m e hm1 hlt
    · have e2 : (m : ℚ) / 10 ^ k * (10 : ℚ) ^ e = (((10 : ℤ) ^ k : ℤ) : ℚ) / 10 ^ k * (10 : ℚ) ^ (e + 1) := by
        rw [heq, zpow_add₀ (by norm_num)]
        push_cast
        rw [pow_succ]
        field_simp
      rw [e2]
      apply gen
      · exact le_rfl
      · exact pow_lt_pow_right₀ (by norm_num) (by omega)

theorem sciUValue_nonneg (k : Nat) {q : ℚ} (h : 0 ≤ q) : 0 ≤ sciUValue k q := by
  unfold sciUValue
  split
  · exact le_rfl
  · have h0 := rhe_nonneg (q := q / (10 : ℚ) ^ (Int.log 10 q) * 10 ^ k) (by positivity)
    have : (0 : ℚ) ≤ rhe (q / (10 : ℚ) ^ (Int.log 10 q) * 10 ^ k) := by exact_mod_cast h0
    positivity

theorem sciValue_idem (k : Nat) (q : ℚ) : sciValue k (sciValue k q) = sciValue k q := by
  by_cases h : q < 0
  · have e : sciValue k q = -sciUValue k (-q) := by unfold sciValue; rw [if_pos h]
    have hn := sciUValue_nonneg k (q := -q) (by linarith)
    have hi := sciUValue_idem k (q := -q) (by linarith)
    rw [e]
    by_cases h0 : sciUValue k (-q) = 0
    · rw [h0]; simp [sciValue, sciUValue]
    · have : 0 < sciUValue k (-q) := lt_of_le_of_ne hn (Ne.symm h0)
      unfold sciValue
      rw [if_pos (by linarith), neg_neg, hi]
  · have e : sciValue k q = sciUValue k q := by unfold sciValue; rw [if_neg h]
    have hn := sciUValue_nonneg k (q := q) (by linarith)
    have hi := sciUValue_idem k (q := q) (by linarith)
    rw [e]
    unfold sciValue
    rw [if_neg (by linarith), hi]

end MaterSDK
