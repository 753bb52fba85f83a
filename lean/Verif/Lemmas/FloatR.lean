import Verif.Lemmas.Float64
import Mathlib.Data.Rat.Floor

/-! # Facts about rounding real numbers to doubles -/

namespace MaterSDK

theorem rheR_cast (q : ℚ) : rheR (q : ℝ) = rhe q := by
  have hf : ⌊(q : ℝ)⌋ = ⌊q⌋ := Rat.floor_cast q
  have e : (q : ℝ) - (⌊q⌋ : ℝ) = ((q - (⌊q⌋ : ℚ) : ℚ) : ℝ) := by push_cast; rfl
  have h2 : (1 / 2 : ℝ) = ((1 / 2 : ℚ) : ℝ) := by push_cast; rfl
  unfold rheR rhe
  simp only [hf]
  rw [e, h2]
  simp only [Rat.cast_lt]

theorem rheR_intCast (z : ℤ) : rheR (z : ℝ) = z := by simp [rheR]

theorem rheR_error (x : ℝ) : |(rheR x : ℝ) - x| ≤ 1 / 2 := by
  have h1 := Int.floor_le x
  have h2 := Int.lt_floor_add_one x
  unfold rheR
  rw [abs_le]
  split_ifs <;> push_cast <;> constructor <;> linarith

theorem rheR_mono {x y : ℝ} (h : x ≤ y) : rheR x ≤ rheR y := by
  have hf : ⌊x⌋ ≤ ⌊y⌋ := Int.floor_le_floor h
  rcases hf.lt_or_eq with hlt | heq
  · have a : rheR x ≤ ⌊x⌋ + 1 := by unfold rheR; split_ifs <;> omega
    have b : ⌊y⌋ ≤ rheR y := by unfold rheR; split_ifs <;> omega
    omega
  · unfold rheR
    rw [heq]
    split_ifs <;> first | omega | (exfalso; linarith)

theorem rheR_neg (x : ℝ) : rheR (-x) = -rheR x := by
  have h1 := Int.floor_le x
  have h2 := Int.lt_floor_add_one x
  by_cases hz : x = ⌊x⌋
  · rw [hz, ← Int.cast_neg, rheR_intCast, rheR_intCast]
  · have hlt : (⌊x⌋ : ℝ) < x := lt_of_le_of_ne h1 (Ne.symm hz)
    have hf : ⌊-x⌋ = -⌊x⌋ - 1 := by
      rw [Int.floor_eq_iff]; push_cast
      constructor <;> linarith
    unfold rheR
    simp only [hf]
    push_cast
    split_ifs <;> first | omega | (exfalso; linarith)

theorem logR_bounds {x : ℝ} (h : x ≠ 0) :
    (2 : ℝ) ^ Int.log 2 |x| ≤ |x| ∧ |x| < (2 : ℝ) ^ (Int.log 2 |x| + 1) := by
  have hp : 0 < |x| := abs_pos.2 h
  have a := Int.zpow_log_le_self (R := ℝ) (b := 2) (by norm_num) hp
  have b := Int.lt_zpow_succ_log_self (R := ℝ) (b := 2) (by norm_num) |x|
  push_cast at a b
  exact ⟨a, b⟩

theorem logR_unique {x : ℝ} {e : ℤ} (h1 : (2 : ℝ) ^ e ≤ |x|) (h2 : |x| < (2 : ℝ) ^ (e + 1)) :
    Int.log 2 |x| = e := by
  have h : x ≠ 0 := by
    rintro rfl
    rw [abs_zero] at h1
    exact absurd h1 (not_le.2 (by positivity))
  obtain ⟨b1, b2⟩ := logR_bounds h
  have one : (1 : ℝ) < 2 := one_lt_two
  have l1 : Int.log 2 |x| < e + 1 := (zpow_lt_zpow_iff_right₀ one).1 (b1.trans_lt h2)
  have l2 : e < Int.log 2 |x| + 1 := (zpow_lt_zpow_iff_right₀ one).1 (h1.trans_lt b2)
  omega

theorem zpow_ulp (k : ℤ) : (2 : ℝ) ^ k = ((2 ^ 52 : ℤ) : ℝ) * 2 ^ (k - 52) := by
  have h : ((2 ^ 52 : ℤ) : ℝ) = (2 : ℝ) ^ (52 : ℤ) := by norm_num
  rw [h, ← zpow_add₀ two_ne_zero]
  congr 1; ring

theorem zpow_ulp_succ (k : ℤ) : (2 : ℝ) ^ (k + 1) = ((2 ^ 53 : ℤ) : ℝ) * 2 ^ (k - 52) := by
  have h : ((2 ^ 53 : ℤ) : ℝ) = (2 : ℝ) ^ (53 : ℤ) := by norm_num
  rw [h, ← zpow_add₀ two_ne_zero]
  congr 1; ring

theorem flR_zero : flR 0 = 0 := by simp [flR]

theorem flR_of_ne {x : ℝ} (h : x ≠ 0) :
    flR x = rheR (x / 2 ^ (Int.log 2 |x| - 52)) * 2 ^ (Int.log 2 |x| - 52) := by simp [flR, h]

/-- On rational numbers `flR` is `fl`. -/
theorem flR_cast (q : ℚ) : flR (q : ℝ) = ((fl q : ℚ) : ℝ) := by
  by_cases h : q = 0
  · subst h; simp [flR_zero, fl_zero]
  · have h' : (q : ℝ) ≠ 0 := by exact_mod_cast h
    obtain ⟨b1, b2⟩ := binExp_bounds h
    have e : Int.log 2 |(q : ℝ)| = binExp q := by
      apply logR_unique
      · have : (((2 : ℚ) ^ binExp q : ℚ) : ℝ) ≤ ((|q| : ℚ) : ℝ) := by exact_mod_cast b1
        push_cast at this; exact this
      · have : ((|q| : ℚ) : ℝ) < (((2 : ℚ) ^ (binExp q + 1) : ℚ) : ℝ) := by exact_mod_cast b2
        push_cast at this; exact this
    rw [flR_of_ne h', fl_of_ne h, e]
    have e2 : (q : ℝ) / 2 ^ (binExp q - 52) = ((q / 2 ^ (binExp q - 52) : ℚ) : ℝ) := by push_cast; rfl
    rw [e2, rheR_cast]
    push_cast
    rfl

theorem flR_neg (x : ℝ) : flR (-x) = -flR x := by
  by_cases h : x = 0
  · rw [h, neg_zero, flR_zero, neg_zero]
  · rw [flR_of_ne h, flR_of_ne (neg_ne_zero.2 h), abs_neg, neg_div, rheR_neg]
    push_cast; ring

theorem flR_error (x : ℝ) : |flR x - x| ≤ |x| * 2 ^ (-53 : ℤ) := by
  by_cases h : x = 0
  · simp [h, flR_zero]
  · have two : (2 : ℝ) ≠ 0 := two_ne_zero
    set k := Int.log 2 |x| with hk
    have hu : (0 : ℝ) < 2 ^ (k - 52) := by positivity
    have e : flR x - x = (rheR (x / 2 ^ (k - 52)) - x / 2 ^ (k - 52)) * 2 ^ (k - 52) := by
      rw [flR_of_ne h, ← hk, sub_mul, div_mul_cancel₀ _ hu.ne']
    rw [e, abs_mul, abs_of_pos hu]
    calc _ ≤ (1 / 2 : ℝ) * 2 ^ (k - 52) :=
          mul_le_mul_of_nonneg_right (rheR_error _) hu.le
      _ = 2 ^ k * 2 ^ (-53 : ℤ) := by
          rw [show k - 52 = k + (-53) + 1 by ring, zpow_add₀ two, zpow_add₀ two]; ring
      _ ≤ _ := mul_le_mul_of_nonneg_right (logR_bounds h).1 (by positivity)

/-- Integers up to `2^53` times a power of two are doubles. -/
theorem flR_int_mul (z : ℤ) (hz : |z| ≤ 2 ^ 53) (k : ℤ) : flR (z * 2 ^ k) = z * 2 ^ k := by
  have hfl : ∀ z : ℤ, 0 < z → z ≤ 2 ^ 53 → flR (z * 2 ^ k) = z * 2 ^ k := by
    intro z h0 hz
    have two : (2 : ℝ) ≠ 0 := two_ne_zero
    have h0' : (0 : ℝ) < z := by exact_mod_cast h0
    have hp : (0 : ℝ) < z * 2 ^ k := by positivity
    obtain ⟨b1, b2⟩ := logR_bounds hp.ne'
    set e := Int.log 2 |(z : ℝ) * 2 ^ k| with he
    rw [abs_of_pos hp] at b1 b2
    have hle : e ≤ 53 + k := by
      have : (2 : ℝ) ^ e ≤ 2 ^ (53 + k) := by
        refine b1.trans ?_
        rw [zpow_add₀ two]
        refine mul_le_mul_of_nonneg_right ?_ (by positivity)
        exact_mod_cast hz
      exact (zpow_le_zpow_iff_right₀ one_lt_two).1 this
    rcases hle.lt_or_eq with hlt | heq
    · rw [flR_of_ne hp.ne', ← he]
      obtain ⟨n, hn⟩ : ∃ n : ℕ, (n : ℤ) = k - (e - 52) := ⟨(k - (e - 52)).toNat, by omega⟩
      have hx : (z : ℝ) * 2 ^ k = ((z * 2 ^ n : ℤ) : ℝ) * 2 ^ (e - 52) := by
        push_cast
        rw [mul_assoc, ← zpow_natCast (2 : ℝ) n, hn, ← zpow_add₀ two]
        congr 2; ring
      have hu : (2 : ℝ) ^ (e - 52) ≠ 0 := by positivity
      rw [hx, mul_div_cancel_right₀ _ hu, rheR_intCast]
    · have hx : (z : ℝ) * 2 ^ k = 2 ^ e := by
        apply le_antisymm _ b1
        rw [heq, zpow_add₀ two]
        refine mul_le_mul_of_nonneg_right ?_ (by positivity)
        exact_mod_cast hz
      rw [flR_of_ne hp.ne', ← he, hx]
      have : (2 : ℝ) ^ e / 2 ^ (e - 52) = ((2 ^ 52 : ℤ) : ℝ) := by
        rw [zpow_ulp e, mul_div_cancel_right₀ _ (by positivity)]
      rw [this, rheR_intCast]
      exact (zpow_ulp e).symm
  rcases lt_trichotomy z 0 with h | h | h
  · have := hfl (-z) (by omega) (by rw [abs_of_neg h] at hz; exact hz)
    push_cast at this
    rw [neg_mul, flR_neg] at this
    exact neg_injective this
  · subst h; simp [flR_zero]
  · exact hfl z h (by rw [abs_of_pos h] at hz; exact hz)

theorem flR_int (z : ℤ) (hz : |z| ≤ 2 ^ 53) : flR (z : ℝ) = z := by
  have := flR_int_mul z hz 0
  simpa using this

theorem flR_two_zpow (k : ℤ) : flR (2 ^ k) = 2 ^ k := by
  have := flR_int_mul 1 (by norm_num) k
  simpa using this

theorem flR_pos_bounds {x : ℝ} (h : 0 < x) :
    (2 : ℝ) ^ Int.log 2 |x| ≤ flR x ∧ flR x ≤ (2 : ℝ) ^ (Int.log 2 |x| + 1) := by
  obtain ⟨b1, b2⟩ := logR_bounds h.ne'
  set k := Int.log 2 |x| with hk
  rw [abs_of_pos h] at b1 b2
  have two : (2 : ℝ) ≠ 0 := two_ne_zero
  have hu : (0 : ℝ) < 2 ^ (k - 52) := by positivity
  rw [flR_of_ne h.ne', ← hk]
  have e1 : (2 : ℝ) ^ k = ((2 ^ 52 : ℤ) : ℝ) * 2 ^ (k - 52) := zpow_ulp k
  have e2 : (2 : ℝ) ^ (k + 1) = ((2 ^ 53 : ℤ) : ℝ) * 2 ^ (k - 52) := zpow_ulp_succ k
  constructor
  · rw [e1]
    refine mul_le_mul_of_nonneg_right ?_ hu.le
    have := rheR_mono (x := ((2 ^ 52 : ℤ) : ℝ)) (y := x / 2 ^ (k - 52)) (by rw [le_div_iff₀ hu, ← e1]; exact b1)
    rw [rheR_intCast] at this
    exact_mod_cast this
  · rw [e2]
    refine mul_le_mul_of_nonneg_right ?_ hu.le
    have := rheR_mono (x := x / 2 ^ (k - 52)) (y := ((2 ^ 53 : ℤ) : ℝ)) (by rw [div_le_iff₀ hu, ← e2]; exact b2.le)
    rw [rheR_intCast] at this
    exact_mod_cast this

theorem flR_pos {x : ℝ} (h : 0 < x) : 0 < flR x :=
  lt_of_lt_of_le (by positivity) (flR_pos_bounds h).1

theorem flR_nonneg {x : ℝ} (h : 0 ≤ x) : 0 ≤ flR x := by
  rcases h.eq_or_lt with rfl | h
  · rw [flR_zero]
  · exact (flR_pos h).le

/-- Rounding is monotone. -/
theorem flR_mono {x y : ℝ} (h : x ≤ y) : flR x ≤ flR y := by
  have pos : ∀ x y : ℝ, 0 < x → x ≤ y → flR x ≤ flR y := by
    intro x y hx h
    have hy : 0 < y := hx.trans_le h
    obtain ⟨a1, a2⟩ := logR_bounds hx.ne'
    obtain ⟨b1, b2⟩ := logR_bounds hy.ne'
    have hxy : |x| ≤ |y| := by rw [abs_of_pos hx, abs_of_pos hy]; exact h
    have hle : Int.log 2 |x| ≤ Int.log 2 |y| := by
      have := (zpow_lt_zpow_iff_right₀ (one_lt_two (α := ℝ))).1 ((a1.trans hxy).trans_lt b2)
      omega
    rcases hle.lt_or_eq with hlt | heq
    · refine (flR_pos_bounds hx).2.trans (le_trans ?_ (flR_pos_bounds hy).1)
      exact zpow_le_zpow_right₀ one_lt_two.le (by omega)
    · rw [flR_of_ne hx.ne', flR_of_ne hy.ne', ← heq]
      refine mul_le_mul_of_nonneg_right ?_ (by positivity)
      exact_mod_cast rheR_mono (div_le_div_of_nonneg_right h (by positivity))
  rcases lt_trichotomy x 0 with hx | hx | hx
  · rcases lt_or_ge y 0 with hy | hy
    · have := pos (-y) (-x) (by linarith) (by linarith)
      rw [flR_neg, flR_neg] at this
      linarith
    · have := flR_pos (x := -x) (by linarith)
      rw [flR_neg] at this
      linarith [flR_nonneg hy]
  · subst hx; rw [flR_zero]; exact flR_nonneg h
  · exact pos x y hx h

/-- Rounding a double gives the double. -/
theorem flR_flR (x : ℝ) : flR (flR x) = flR x := by
  by_cases h : x = 0
  · rw [h, flR_zero, flR_zero]
  · rw [flR_of_ne h]
    apply flR_int_mul
    obtain ⟨b1, b2⟩ := logR_bounds h
    set k := Int.log 2 |x|
    have two : (2 : ℝ) ≠ 0 := two_ne_zero
    have hu : (0 : ℝ) < 2 ^ (k - 52) := by positivity
    have e2 : (2 : ℝ) ^ (k + 1) = ((2 ^ 53 : ℤ) : ℝ) * 2 ^ (k - 52) := zpow_ulp_succ k
    have hx := abs_le.1 b2.le
    rw [abs_le]
    constructor
    · have := rheR_mono (x := ((-(2 ^ 53) : ℤ) : ℝ)) (y := x / 2 ^ (k - 52)) (by
        rw [le_div_iff₀ hu, Int.cast_neg, neg_mul, ← e2]; exact hx.1)
      rwa [rheR_intCast] at this
    · have := rheR_mono (x := x / 2 ^ (k - 52)) (y := ((2 ^ 53 : ℤ) : ℝ)) (by
        rw [div_le_iff₀ hu, ← e2]; exact hx.2)
      rwa [rheR_intCast] at this

/-- Multiplying with a power of two commutes with rounding. -/
theorem flR_scale (x : ℝ) (k : ℤ) : flR (x * 2 ^ k) = flR x * 2 ^ k := by
  have two : (2 : ℝ) ≠ 0 := two_ne_zero
  by_cases h : x = 0
  · rw [h, zero_mul, flR_zero, zero_mul]
  · have hp : (0 : ℝ) < 2 ^ k := by positivity
    obtain ⟨b1, b2⟩ := logR_bounds h
    have e : Int.log 2 |x * 2 ^ k| = Int.log 2 |x| + k := by
      apply logR_unique
      · rw [zpow_add₀ two, abs_mul, abs_of_pos hp]
        exact mul_le_mul_of_nonneg_right b1 hp.le
      · rw [show Int.log 2 |x| + k + 1 = (Int.log 2 |x| + 1) + k by ring, zpow_add₀ two, abs_mul, abs_of_pos hp]
        exact mul_lt_mul_of_pos_right b2 hp
    rw [flR_of_ne h, flR_of_ne (mul_ne_zero h hp.ne'), e,
      show Int.log 2 |x| + k - 52 = (Int.log 2 |x| - 52) + k by ring, zpow_add₀ two,
      mul_div_mul_right _ _ hp.ne']
    ring

end MaterSDK
