import Verif.Lemmas.Vec3

/-! # C175, C176: three-component vectors -/

namespace MaterSDK

/-- C175: a program whose divisors are powers of two, with valid indices, gives every variable the vector
of correctly rounded exact results, `x op= y` is `x = x op y` even if both are the same variable, and
what it shows are the components and whether vectors are equal.  Missing: other divisors, see
`C175_violated_quotient` and `C175_quotient_partial`. -/
theorem C175_values_partial (s : V3State) (ops : List V3Op) (hi : ∀ op ∈ ops, op.indexOk)
    (hd : ∀ op ∈ ops, op.divTwo) : v3Run s ops = .ok (v3Ref s ops) := by
  induction ops generalizing s with
  | nil => rfl
  | cons op ops ih =>
    simp only [v3Run, v3Ref]
    rw [v3Step_ref s op (hi op (by simp)) (hd op (by simp)), ok_bind,
      ih _ (fun o ho => hi o (by simp [ho])) (fun o ho => hd o (by simp [ho]))]
    rfl

/-- C175: an index other than 0, 1, 2 stops the program. -/
theorem C175_index_rejected (s : V3State) (x : ℕ) (i : ℤ) (a : ℚ) (h : i < 0 ∨ 3 ≤ i) :
    v3Step s (.put x i a) = .error .assertFail ∧ v3Step s (.get x i) = .error .assertFail := by
  have : v3Index i = .error .assertFail := by
    unfold v3Index
    rw [if_neg (by omega), if_neg (by omega), if_neg (by omega)]
  constructor <;> simp only [v3Step, this] <;> rfl

/-- C175: dividing by zero gives no vector of finite numbers, neither `y / 0` nor `x /= 0`. -/
theorem C175_zero_divisor (s : V3State) (x y : ℕ) :
    v3Step s (.div x y 0) = .error .undefined ∧ v3Step s (.divEq x 0) = .error .undefined := by
  constructor <;> simp [v3Step, v3Div]

/-- C175 fails for other divisors: the program `x = Vec3(49, 1, 3); x = x / 49;` and the one with `x /= 49`
leave a first component below 1. -/
theorem C175_violated_quotient (s : V3State) :
    ∃ t u : V3State, v3Run s [.make 0 49 1 3, .div 0 0 49] = .ok (t, []) ∧
      v3Run s [.make 0 49 1 3, .divEq 0 49] = .ok (u, []) ∧
      t 0 0 < 1 ∧ u 0 0 < 1 ∧
      (v3Ref s [.make 0 49 1 3, .div 0 0 49]).1 0 0 = 1 := by
  have e : fl (49 * fl (1 / 49)) < 1 := by decide +kernel
  have e1 : fl (49⁻¹ * 49) = 1 := by decide +kernel
  refine ⟨_, _, rfl, rfl, ?_, ?_, ?_⟩
  · simpa using e
  · simpa [v3InPlace, v3Put] using e
  · simpa [v3Ref, v3Exact] using e1

/-- C175: for every divisor but zero, `x = y / a` and `x /= a` give the quotients up to a relative error of
2^-52 + 2^-106.  Missing: they are not the nearest doubles. -/
theorem C175_quotient_partial (s : V3State) (x y : ℕ) (a : ℚ) (ha : a ≠ 0) :
    ∃ t u : V3State, v3Step s (.div x y a) = .ok (t, []) ∧ v3Step s (.divEq x a) = .ok (u, []) ∧
      (∀ i, |t x i - s y i / a| ≤ |s y i / a| * (2 ^ (-52 : ℤ) + 2 ^ (-106 : ℤ))) ∧
      (∀ i, |u x i - s x i / a| ≤ |s x i / a| * (2 ^ (-52 : ℤ) + 2 ^ (-106 : ℤ))) ∧
      (x = y → t = u) ∧ ∀ z, z ≠ x → t z = s z ∧ u z = s z := by
  have e1 : v3Step s (.div x y a) = .ok (Function.update s x (fun i => fl (s y i * fl (1 / a))), []) := by
    simp only [v3Step, v3Div, if_neg ha, ok_bind]
    show Except.ok _ = _
    congr 3
    exact v3_ext rfl rfl rfl
  have e2 : v3Step s (.divEq x a) = .ok (Function.update s x (fun i => fl (s x i * fl (1 / a))), []) := by
    simp only [v3Step, if_neg ha]
    rw [v3InPlace_eq _ _ _ (fun t i _ h2 => by simp only [h2])]
  refine ⟨_, _, e1, e2, ?_, ?_, ?_, ?_⟩
  · intro i; simpa using fl_div_error (s y i) a
  · intro i; simpa using fl_div_error (s x i) a
  · rintro rfl; rfl
  · intro z hz; simp [hz]

/-- A program with aliases: `x = (1, 2, 3); x += x; x *= x[1]; x /= -2; x == x`. -/
example : ∃ t : V3State, v3Run (fun _ => 0)
      [.make 0 1 2 3, .addEq 0 0, .scaleBy 0 1, .divEq 0 (-2), .eq 0 0, .get 0 2] =
        .ok (t, [.bool true, .num (-12)]) ∧ t 0 0 = -4 ∧
    (∀ op ∈ [V3Op.make 0 1 2 3, .addEq 0 0, .scaleBy 0 1, .divEq 0 (-2), .eq 0 0, .get 0 2],
      op.indexOk ∧ op.divTwo) := by
  have h : ∀ op ∈ [V3Op.make 0 1 2 3, .addEq 0 0, .scaleBy 0 1, .divEq 0 (-2), .eq 0 0, .get 0 2],
      op.indexOk ∧ op.divTwo := by
    intro op hop
    simp only [List.mem_cons, List.not_mem_nil, or_false] at hop
    rcases hop with rfl | rfl | rfl | rfl | rfl | rfl <;>
      simp [V3Op.indexOk, V3Op.divTwo]
    exact ⟨1, Or.inr (by norm_num)⟩
  have e1 : fl (1 + 1) = 2 := by decide +kernel
  have e2 : fl (2 + 2) = 4 := by decide +kernel
  have e3 : fl (3 + 3) = 6 := by decide +kernel
  have e4 : fl (4 * 2) = 8 := by decide +kernel
  have e6 : fl (4 * 6) = 24 := by decide +kernel
  have e7 : fl (-(2⁻¹ * 8)) = -4 := by decide +kernel
  have e8 : fl (-(2⁻¹ * 24)) = -12 := by decide +kernel
  refine ⟨(v3Ref (fun _ => 0)
    [.make 0 1 2 3, .addEq 0 0, .scaleBy 0 1, .divEq 0 (-2), .eq 0 0, .get 0 2]).1, ?_, ?_, h⟩
  · rw [C175_values_partial _ _ (fun o ho => (h o ho).1) (fun o ho => (h o ho).2)]
    congr 1
    refine Prod.ext rfl ?_
    simp [v3Ref, v3Exact, v3Shown, e3, e2, e6, e8]
  · simp [v3Ref, v3Exact, e1, e2, e4, e7]

/-! ## C176 -/

/-- C176: in doubles, exactly: the dot product is symmetric, the square of a vector is not negative and
zero only for the zero vector, the cross product changes its sign with the order, and the cross
product of a vector with itself is zero. Missing: orthogonality, see `C176_violated_orthogonal`. -/
theorem C176_identities_partial (v w : Vec ℚ) :
    v3Dot v w = v3Dot w v ∧ 0 ≤ v3Dot v v ∧ (v3Dot v v = 0 ↔ v = 0) ∧
      v3Cross v w = -v3Cross w v ∧ v3Cross v v = 0 := by
  have hcross : ∀ v w : Vec ℚ, v3Cross v w = -v3Cross w v := by
    intro v w
    have k : ∀ a b c d : ℚ, fl (fl (a * b) - fl (c * d)) = -fl (fl (d * c) - fl (b * a)) := by
      intro a b c d
      rw [← fl_neg, mul_comm d c, mul_comm b a]; congr 1; ring
    exact v3_ext (k _ _ _ _) (k _ _ _ _) (k _ _ _ _)
  have hsq : ∀ a : ℚ, 0 ≤ fl (a * a) := fun a => fl_nonneg (mul_self_nonneg a)
  have h1 : 0 ≤ fl (fl (v 0 * v 0) + fl (v 1 * v 1)) := fl_nonneg (add_nonneg (hsq _) (hsq _))
  refine ⟨?_, fl_nonneg (add_nonneg h1 (hsq _)), ?_, hcross v w, ?_⟩
  · unfold v3Dot
    rw [mul_comm (v 0), mul_comm (v 1), mul_comm (v 2)]
  · unfold v3Dot
    rw [fl_eq_zero, add_eq_zero_iff_of_nonneg h1 (hsq _), fl_eq_zero,
      add_eq_zero_iff_of_nonneg (hsq _) (hsq _), fl_eq_zero, fl_eq_zero, fl_eq_zero,
      mul_self_eq_zero, mul_self_eq_zero, mul_self_eq_zero, v3_eq_iff, and_assoc]
    rfl
  · have k : ∀ a b : ℚ, fl (fl (a * b) - fl (b * a)) = 0 := by
      intro a b; rw [mul_comm b a, sub_self, fl_zero]
    exact v3_ext (k _ _) (k _ _) (k _ _)

/-- C176: the errors of dot and cross product against exact arithmetic, relative to the sums of the
absolute values of the products. -/
theorem C176_errors (v w : Vec ℚ) :
    |v3Dot v w - (v 0 * w 0 + v 1 * w 1 + v 2 * w 2)| ≤
        (|v 0 * w 0| + |v 1 * w 1| + |v 2 * w 2|) * ((1 + 2 ^ (-53 : ℤ)) ^ 3 - 1) ∧
      ∀ i j k : Fin 3, (i, j, k) ∈ [((0 : Fin 3), (1 : Fin 3), (2 : Fin 3)), (1, 2, 0), (2, 0, 1)] →
        |v3Cross v w i - (v j * w k - v k * w j)| ≤
          (|v j * w k| + |v k * w j|) * ((1 + 2 ^ (-53 : ℤ)) ^ 2 - 1) := by
  set u : ℚ := 2 ^ (-53 : ℤ) with hu
  have hu0 : (0 : ℚ) < u := by positivity
  -- one more rounded addition
  have add2 : ∀ (x y X Y A B c : ℚ), |x - X| ≤ A * (c - 1) → |y - Y| ≤ B * (c - 1) → |X| ≤ A → |Y| ≤ B →
      |fl (x + y) - (X + Y)| ≤ (A + B) * (c * (1 + u) - 1) := by
    intro x y X Y A B c hx hy hX hY
    have h1 := fl_error (x + y)
    rw [← hu] at h1
    have h2 : |(x + y) - (X + Y)| ≤ (A + B) * (c - 1) := by
      calc _ = |(x - X) + (y - Y)| := by congr 1; ring
        _ ≤ |x - X| + |y - Y| := abs_add_le _ _
        _ ≤ _ := by linarith
    have h3 : |x + y| ≤ (A + B) * c := by
      calc |x + y| = |((x + y) - (X + Y)) + (X + Y)| := by congr 1; ring
        _ ≤ |(x + y) - (X + Y)| + |X + Y| := abs_add_le _ _
        _ ≤ (A + B) * (c - 1) + (|X| + |Y|) := add_le_add h2 (abs_add_le _ _)
        _ ≤ _ := by linarith
    calc |fl (x + y) - (X + Y)| = |(fl (x + y) - (x + y)) + ((x + y) - (X + Y))| := by congr 1; ring
      _ ≤ |fl (x + y) - (x + y)| + |(x + y) - (X + Y)| := abs_add_le _ _
      _ ≤ |x + y| * u + (A + B) * (c - 1) := add_le_add h1 h2
      _ ≤ (A + B) * c * u + (A + B) * (c - 1) := by
          have := mul_le_mul_of_nonneg_right h3 hu0.le; linarith
      _ = _ := by ring
  have one : ∀ p : ℚ, |fl p - p| ≤ |p| * ((1 + u) - 1) := by
    intro p; have := fl_error p; rw [← hu] at this; linarith
  constructor
  · have h1 := add2 _ _ _ _ _ _ _ (one (v 0 * w 0)) (one (v 1 * w 1)) le_rfl le_rfl
    have h2 : |fl (v 2 * w 2) - v 2 * w 2| ≤ |v 2 * w 2| * ((1 + u) * (1 + u) - 1) := by
      have := one (v 2 * w 2)
      have : 0 ≤ |v 2 * w 2| := abs_nonneg _
      nlinarith [mul_nonneg this hu0.le, mul_nonneg (mul_nonneg this hu0.le) hu0.le]
    have h3 := add2 _ _ _ _ _ _ _ h1 h2 (abs_add_le _ _) le_rfl
    rw [show (1 + u) ^ 3 - 1 = (1 + u) * (1 + u) * (1 + u) - 1 by ring]
    exact h3
  · have k : ∀ p q : ℚ, |fl (fl p - fl q) - (p - q)| ≤ (|p| + |q|) * ((1 + u) ^ 2 - 1) := by
      intro p q
      have := add2 (fl p) (-fl q) p (-q) |p| |q| (1 + u) (one p)
        (by rw [show -fl q - -q = -(fl q - q) by ring, abs_neg]; exact one q) le_rfl (by rw [abs_neg])
      rw [show (1 + u) ^ 2 - 1 = (1 + u) * (1 + u) - 1 by ring]
      simpa [sub_eq_add_neg] using this
    intro i j l h
    simp only [List.mem_cons, Prod.mk.injEq, List.not_mem_nil, or_false] at h
    rcases h with ⟨rfl, rfl, rfl⟩ | ⟨rfl, rfl, rfl⟩ | ⟨rfl, rfl, rfl⟩
    · exact k _ _
    · exact k _ _
    · exact k _ _

/-- C176 fails for orthogonality: for v = (0.1, 0.1, 0.1) and w = (0.1, 0.3, 0.7) the cross product is not
orthogonal to v in doubles. -/
theorem C176_violated_orthogonal :
    v3Dot ![fl (1 / 10), fl (1 / 10), fl (1 / 10)]
      (v3Cross ![fl (1 / 10), fl (1 / 10), fl (1 / 10)] ![fl (1 / 10), fl (3 / 10), fl (7 / 10)]) ≠ 0 := by
  decide +kernel

/-- The cross product of two axes is the third. -/
example : v3Cross ![1, 0, 0] ![0, 1, 0] = ![0, 0, 1] ∧ v3Dot ![1, 2, 3] ![1, 2, 3] = 14 := by
  decide +kernel

end MaterSDK
