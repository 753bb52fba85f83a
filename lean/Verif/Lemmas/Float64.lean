import Verif.Model.Float64
import Verif.Lemmas.Num
import Mathlib.Algebra.Order.Field.Power
import Mathlib.Data.Rat.Lemmas
import Mathlib.Tactic.Linarith
import Mathlib.Tactic.FieldSimp
import Mathlib.Tactic.NormNum
import Mathlib.Tactic.Positivity

/-! # Facts about rounding to doubles -/

namespace MaterSDK

theorem binExp_bounds {q : ℚ} (h : q ≠ 0) :
    (2 : ℚ) ^ binExp q ≤ |q| ∧ |q| < (2 : ℚ) ^ (binExp q + 1) := by
  have hn : q.num.natAbs ≠ 0 := by simpa using Rat.num_ne_zero.2 h
  have hd : q.den ≠ 0 := q.den_nz
  have habs : |q| = (q.num.natAbs : ℚ) / (q.den : ℚ) := by
    conv_lhs => rw [← Rat.num_div_den q]
    rw [abs_div, Nat.abs_cast, Nat.cast_natAbs]
    simp
  have n1 : (2 : ℚ) ^ (Nat.log2 q.num.natAbs : ℤ) ≤ q.num.natAbs := by
    rw [zpow_natCast]; exact_mod_cast Nat.log2_self_le hn
  have n2 : (q.num.natAbs : ℚ) < (2 : ℚ) ^ ((Nat.log2 q.num.natAbs : ℤ) + 1) := by
    have := Nat.lt_log2_self (n := q.num.natAbs)
    rw [← Nat.cast_succ, zpow_natCast]; exact_mod_cast this
  have d1 : (2 : ℚ) ^ (Nat.log2 q.den : ℤ) ≤ q.den := by
    rw [zpow_natCast]; exact_mod_cast Nat.log2_self_le hd
  have d2 : (q.den : ℚ) < (2 : ℚ) ^ ((Nat.log2 q.den : ℤ) + 1) := by
    have := Nat.lt_log2_self (n := q.den)
    rw [← Nat.cast_succ, zpow_natCast]; exact_mod_cast this
  have hdpos : (0 : ℚ) < q.den := by exact_mod_cast Nat.pos_of_ne_zero hd
  have two : (2 : ℚ) ≠ 0 := two_ne_zero
  set a : ℤ := (Nat.log2 q.num.natAbs : ℤ)
  set b : ℤ := (Nat.log2 q.den : ℤ)
  have lo : (2 : ℚ) ^ (a - b - 1) ≤ |q| := by
    rw [habs, le_div_iff₀ hdpos]
    calc (2 : ℚ) ^ (a - b - 1) * q.den ≤ (2 : ℚ) ^ (a - b - 1) * (2 : ℚ) ^ (b + 1) := by
          exact mul_le_mul_of_nonneg_left d2.le (by positivity)
      _ = (2 : ℚ) ^ a := by rw [← zpow_add₀ two]; congr 1; ring
      _ ≤ _ := n1
  have hi : |q| < (2 : ℚ) ^ (a - b + 1) := by
    rw [habs, div_lt_iff₀ hdpos]
    calc (q.num.natAbs : ℚ) < (2 : ℚ) ^ (a + 1) := n2
      _ = (2 : ℚ) ^ (a - b + 1) * (2 : ℚ) ^ b := by rw [← zpow_add₀ two]; congr 1; ring
      _ ≤ _ := mul_le_mul_of_nonneg_left d1 (by positivity)
  have hb : binExp q = if |q| < (2 : ℚ) ^ (a - b) then a - b - 1 else a - b := rfl
  rw [hb]
  split
  · next hlt => exact ⟨lo, by rw [show a - b - 1 + 1 = a - b by ring]; exact hlt⟩
  · next hge => exact ⟨not_lt.1 hge, hi⟩

theorem binExp_unique {q : ℚ} {e : ℤ} (h1 : (2 : ℚ) ^ e ≤ |q|) (h2 : |q| < (2 : ℚ) ^ (e + 1)) :
    binExp q = e := by
  have h : q ≠ 0 := by
    rintro rfl
    rw [abs_zero] at h1
    exact absurd h1 (not_le.2 (by positivity))
  obtain ⟨b1, b2⟩ := binExp_bounds h
  have one : (1 : ℚ) < 2 := one_lt_two
  have l1 : binExp q < e + 1 := (zpow_lt_zpow_iff_right₀ one).1 (b1.trans_lt h2)
  have l2 : e < binExp q + 1 := (zpow_lt_zpow_iff_right₀ one).1 (h1.trans_lt b2)
  omega

theorem binExp_neg (q : ℚ) : binExp (-q) = binExp q := by
  by_cases h : q = 0
  · rw [h, neg_zero]
  · exact binExp_unique (by rw [abs_neg]; exact (binExp_bounds h).1)
      (by rw [abs_neg]; exact (binExp_bounds h).2)

theorem binExp_scale {q : ℚ} (h : q ≠ 0) (k : ℤ) : binExp (q * 2 ^ k) = binExp q + k := by
  have two : (2 : ℚ) ≠ 0 := two_ne_zero
  have hp : (0 : ℚ) < 2 ^ k := by positivity
  apply binExp_unique
  · rw [zpow_add₀ two, abs_mul, abs_of_pos hp]
    exact mul_le_mul_of_nonneg_right (binExp_bounds h).1 hp.le
  · rw [show binExp q + k + 1 = (binExp q + 1) + k by ring, zpow_add₀ two, abs_mul, abs_of_pos hp]
    exact mul_lt_mul_of_pos_right (binExp_bounds h).2 hp

theorem rhe_neg (q : ℚ) : rhe (-q) = -rhe q := by
  have h1 := Int.floor_le q
  have h2 := Int.lt_floor_add_one q
  by_cases hz : q = ⌊q⌋
  · rw [hz, ← Int.cast_neg, rhe_intCast, rhe_intCast]
  · have hlt : (⌊q⌋ : ℚ) < q := lt_of_le_of_ne h1 (Ne.symm hz)
    have hf : ⌊-q⌋ = -⌊q⌋ - 1 := by
      rw [Int.floor_eq_iff]; push_cast
      constructor <;> linarith
    unfold rhe
    simp only [hf]
    push_cast
    split_ifs <;> first | omega | (exfalso; linarith)

theorem fl_zero : fl 0 = 0 := by simp [fl]

theorem fl_of_ne {q : ℚ} (h : q ≠ 0) :
    fl q = rhe (q / 2 ^ (binExp q - 52)) * 2 ^ (binExp q - 52) := by simp [fl, h]

/-- Rounding is odd. -/
theorem fl_neg (q : ℚ) : fl (-q) = -fl q := by
  by_cases h : q = 0
  · rw [h, neg_zero, fl_zero, neg_zero]
  · rw [fl_of_ne h, fl_of_ne (neg_ne_zero.2 h), binExp_neg, neg_div, rhe_neg]
    push_cast; ring

/-- Multiplying with a power of two commutes with rounding. -/
theorem fl_scale (q : ℚ) (k : ℤ) : fl (q * 2 ^ k) = fl q * 2 ^ k := by
  have two : (2 : ℚ) ≠ 0 := two_ne_zero
  by_cases h : q = 0
  · rw [h, zero_mul, fl_zero, zero_mul]
  · have hp : (2 : ℚ) ^ k ≠ 0 := by positivity
    rw [fl_of_ne h, fl_of_ne (mul_ne_zero h hp), binExp_scale h,
      show binExp q + k - 52 = (binExp q - 52) + k by ring, zpow_add₀ two, mul_div_mul_right _ _ hp]
    ring

/-- The relative error of rounding is at most 2^-53. -/
theorem fl_error (q : ℚ) : |fl q - q| ≤ |q| * 2 ^ (-53 : ℤ) := by
  by_cases h : q = 0
  · simp [h, fl_zero]
  · have two : (2 : ℚ) ≠ 0 := two_ne_zero
    have hu : (0 : ℚ) < 2 ^ (binExp q - 52) := by positivity
    have e : fl q - q = (rhe (q / 2 ^ (binExp q - 52)) - q / 2 ^ (binExp q - 52)) *
        2 ^ (binExp q - 52) := by
      rw [fl_of_ne h, sub_mul, div_mul_cancel₀ _ hu.ne']
    rw [e, abs_mul, abs_of_pos hu]
    calc _ ≤ (1 / 2 : ℚ) * 2 ^ (binExp q - 52) :=
          mul_le_mul_of_nonneg_right (rhe_error _) hu.le
      _ = 2 ^ binExp q * 2 ^ (-53 : ℤ) := by
          rw [show binExp q - 52 = binExp q + (-53) + 1 by ring, zpow_add₀ two, zpow_add₀ two]; ring
      _ ≤ _ := mul_le_mul_of_nonneg_right (binExp_bounds h).1 (by positivity)

theorem fl_pos {q : ℚ} (h : 0 < q) : 0 < fl q := by
  have := abs_le.1 (fl_error q)
  rw [abs_of_pos h] at this
  have e : (2 : ℚ) ^ (-53 : ℤ) < 1 := by norm_num
  nlinarith [this.1]

theorem fl_nonneg {q : ℚ} (h : 0 ≤ q) : 0 ≤ fl q := by
  rcases h.eq_or_lt with rfl | h
  · rw [fl_zero]
  · exact (fl_pos h).le

theorem fl_eq_zero {q : ℚ} : fl q = 0 ↔ q = 0 := by
  constructor
  · intro h
    by_contra hq
    rcases lt_or_gt_of_ne hq with h1 | h1
    · have := fl_pos (neg_pos.2 h1)
      rw [fl_neg, h, neg_zero] at this
      exact lt_irrefl _ this
    · exact (fl_pos h1).ne' h
  · rintro rfl; exact fl_zero

/-- Powers of two are doubles. -/
theorem fl_two_zpow (k : ℤ) : fl (2 ^ k) = 2 ^ k := by
  have h1 : fl 1 = 1 := by decide +kernel
  have := fl_scale 1 k
  rwa [one_mul, h1, one_mul] at this

/-- Rounding a double gives the double. -/
theorem fl_fl (q : ℚ) : fl (fl q) = fl q := by
  by_cases h : q = 0
  · rw [h, fl_zero, fl_zero]
  · have two : (2 : ℚ) ≠ 0 := two_ne_zero
    have hu : (0 : ℚ) < 2 ^ (binExp q - 52) := by positivity
    set u : ℚ := 2 ^ (binExp q - 52) with hud
    set z := rhe (q / u) with hz
    have e : fl q = z * u := fl_of_ne h
    obtain ⟨b1, b2⟩ := binExp_bounds h
    have hb1 : (2 : ℚ) ^ 52 * u = 2 ^ binExp q := by
      rw [hud, ← zpow_natCast, ← zpow_add₀ two]; congr 1; push_cast; ring
    have hb2 : (2 : ℚ) ^ 53 * u = 2 ^ (binExp q + 1) := by
      rw [hud, ← zpow_natCast, ← zpow_add₀ two]; congr 1; push_cast; ring
    have lo : (2 : ℤ) ^ 52 ≤ |z| ∧ |z| ≤ 2 ^ 53 := by
      have l : ∀ x : ℚ, 0 < x → (2 : ℚ) ^ 52 * u ≤ x → x ≤ 2 ^ 53 * u →
          (2 : ℤ) ^ 52 ≤ rhe (x / u) ∧ rhe (x / u) ≤ 2 ^ 53 := by
        intro x _ h1 h2
        constructor
        · have := rhe_mono (p := ((2 ^ 52 : ℤ) : ℚ)) (q := x / u)
            (by rw [le_div_iff₀ hu]; push_cast; exact h1)
          rwa [rhe_intCast] at this
        · have := rhe_mono (p := x / u) (q := ((2 ^ 53 : ℤ) : ℚ))
            (by rw [div_le_iff₀ hu]; push_cast; exact h2)
          rwa [rhe_intCast] at this
      rcases lt_or_gt_of_ne h with hneg | hpos
      · rw [abs_of_neg hneg] at b1 b2
        have := l (-q) (neg_pos.2 hneg) (by rw [hb1]; exact b1) (by rw [hb2]; exact b2.le)
        rw [neg_div, rhe_neg, ← hz] at this
        rw [abs_of_neg (by have := this.1; have p : (0 : ℤ) < 2 ^ 52 := by positivity
                           omega)]
        exact this
      · rw [abs_of_pos hpos] at b1 b2
        have := l q hpos (by rw [hb1]; exact b1) (by rw [hb2]; exact b2.le)
        rw [← hz] at this
        rw [abs_of_pos (by have := this.1; have p : (0 : ℤ) < 2 ^ 52 := by positivity
                           omega)]
        exact this
    rcases lo.2.lt_or_eq with hlt | heq
    · have hbe : binExp (z * u) = binExp q := by
        apply binExp_unique
        · rw [abs_mul, abs_of_pos hu, ← hb1]
          exact mul_le_mul_of_nonneg_right (by exact_mod_cast lo.1) hu.le
        · rw [abs_mul, abs_of_pos hu, ← hb2]
          exact mul_lt_mul_of_pos_right (by exact_mod_cast hlt) hu
      have hne : (z : ℚ) * u ≠ 0 := by rw [← e]; exact fun c => h (fl_eq_zero.1 c)
      rw [e, fl_of_ne hne, hbe, ← hud, mul_div_cancel_right₀ _ hu.ne', rhe_intCast]
    · have hz' : (|z| : ℚ) = 2 ^ 53 := by exact_mod_cast heq
      rw [e]
      have hpow : (2 : ℚ) ^ 53 * u = 2 ^ (binExp q + 1) := hb2
      rcases abs_eq (by positivity : (0 : ℚ) ≤ 2 ^ 53) |>.1 hz' with hz1 | hz1
      · rw [hz1, hpow, fl_two_zpow]
      · rw [hz1, neg_mul, fl_neg, hpow, fl_two_zpow]

end MaterSDK
