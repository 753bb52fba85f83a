import Verif.Spec.Vec3
import Verif.Lemmas.Float64
import Verif.Lemmas.Except
import Mathlib.Data.Fin.VecNotation
import Mathlib.Tactic.FinCases
import Mathlib.Tactic.Ring

/-! # Lemmas about three-component vectors -/

namespace MaterSDK

theorem v3InPlace_eq (s : V3State) (x : ℕ) (f : V3State → Fin 3 → ℚ)
    (h : ∀ (t : V3State) (i : Fin 3), (∀ y, y ≠ x → t y = s y) → t x i = s x i → f t i = f s i) :
    v3InPlace s x f = Function.update s x (f s) := by
  have e1 : f (v3Put s x 0 (f s 0)) 1 = f s 1 :=
    h _ _ (fun y hy => by simp [v3Put, hy]) (by simp [v3Put])
  have e2 : f (v3Put (v3Put s x 0 (f s 0)) x 1 (f s 1)) 2 = f s 2 :=
    h _ _ (fun y hy => by simp [v3Put, hy]) (by simp [v3Put])
  simp only [v3InPlace, e1, e2]
  funext y
  by_cases hy : y = x
  · subst hy
    funext i
    fin_cases i <;> simp [v3Put]
  · simp [v3Put, hy]

theorem v3Index_ok {i : ℤ} (h : 0 ≤ i ∧ i < 3) :
    ∃ hl : i.toNat < 3, v3Index i = .ok ⟨i.toNat, hl⟩ := by
  have : i = 0 ∨ i = 1 ∨ i = 2 := by omega
  rcases this with rfl | rfl | rfl <;> exact ⟨by decide, rfl⟩

theorem v3_ext {v w : Vec ℚ} (h0 : v 0 = w 0) (h1 : v 1 = w 1) (h2 : v 2 = w 2) : v = w := by
  funext i; fin_cases i <;> assumption

theorem v3_eq_iff {v w : Vec ℚ} : v = w ↔ v 0 = w 0 ∧ v 1 = w 1 ∧ v 2 = w 2 :=
  ⟨by rintro rfl; exact ⟨rfl, rfl, rfl⟩, fun h => v3_ext h.1 h.2.1 h.2.2⟩

theorem fl_div_two (q : ℚ) {a : ℚ} (h : ∃ k : ℤ, a = 2 ^ k ∨ a = -2 ^ k) :
    fl (q * fl (1 / a)) = fl (a⁻¹ * q) := by
  obtain ⟨k, rfl | rfl⟩ := h
  · rw [one_div, ← zpow_neg, fl_two_zpow, mul_comm]
  · rw [one_div, inv_neg, ← zpow_neg, fl_neg, fl_two_zpow, mul_comm]

theorem v3Step_ref (s : V3State) (op : V3Op) (hi : op.indexOk) (hd : op.divTwo) :
    v3Step s op = .ok ((match v3Exact s op with
      | some (x, v) => Function.update s x v
      | none => s), v3Shown s op) := by
  cases op with
  | zero x => simp only [v3Step, v3Exact, v3Shown]; congr 3; exact v3_ext rfl rfl rfl
  | make x a b c => rfl
  | pos x y => simp only [v3Step, v3Exact, v3Shown]; congr 3; exact v3_ext rfl rfl rfl
  | neg x y => simp only [v3Step, v3Exact, v3Shown]; congr 3; exact v3_ext rfl rfl rfl
  | add x y z => simp only [v3Step, v3Exact, v3Shown]; congr 3; exact v3_ext rfl rfl rfl
  | sub x y z => simp only [v3Step, v3Exact, v3Shown]; congr 3; exact v3_ext rfl rfl rfl
  | addEq x y =>
    simp only [v3Step, v3Exact, v3Shown]
    rw [v3InPlace_eq]
    · rfl
    · intro t i h1 h2
      by_cases hy : y = x
      · subst hy; simp only [h2]
      · simp only [h1 y hy, h2]
  | subEq x y =>
    simp only [v3Step, v3Exact, v3Shown]
    rw [v3InPlace_eq]
    · rfl
    · intro t i h1 h2
      by_cases hy : y = x
      · subst hy; simp only [h2]
      · simp only [h1 y hy, h2]
  | scale x y a =>
    simp only [v3Step, v3Exact, v3Shown]; congr 3
    exact v3_ext (by simp [v3Scale, mul_comm]) (by simp [v3Scale, mul_comm]) (by simp [v3Scale, mul_comm])
  | scaleL x a y =>
    simp only [v3Step, v3Exact, v3Shown]; congr 3
    exact v3_ext (by simp [v3Scale, mul_comm]) (by simp [v3Scale, mul_comm]) (by simp [v3Scale, mul_comm])
  | scaleEq x a =>
    simp only [v3Step, v3Exact, v3Shown]
    rw [v3InPlace_eq _ _ _ (fun t i _ h2 => by simp only [h2])]
    congr 3
    exact v3_ext (by simp [mul_comm]) (by simp [mul_comm]) (by simp [mul_comm])
  | scaleBy x i =>
    obtain ⟨hl, e⟩ := v3Index_ok hi
    simp only [v3Step, v3Exact, v3Shown, e, ok_bind, dif_pos hl]
    rw [v3InPlace_eq _ _ _ (fun t i _ h2 => by simp only [h2])]
    show Except.ok _ = _
    congr 3
    exact v3_ext (by simp [mul_comm]) (by simp [mul_comm]) (by simp [mul_comm])
  | div x y a =>
    have ha : a ≠ 0 := by
      obtain ⟨k, rfl | rfl⟩ := hd
      · positivity
      · exact neg_ne_zero.2 (by positivity)
    simp only [v3Step, v3Exact, v3Shown, v3Div, if_neg ha, ok_bind]
    show Except.ok _ = _
    congr 3
    exact v3_ext (fl_div_two _ hd) (fl_div_two _ hd) (fl_div_two _ hd)
  | divEq x a =>
    have ha : a ≠ 0 := by
      obtain ⟨k, rfl | rfl⟩ := hd
      · positivity
      · exact neg_ne_zero.2 (by positivity)
    simp only [v3Step, v3Exact, v3Shown, if_neg ha]
    rw [v3InPlace_eq _ _ _ (fun t i _ h2 => by simp only [h2])]
    congr 3
    exact v3_ext (fl_div_two _ hd) (fl_div_two _ hd) (fl_div_two _ hd)
  | put x i a =>
    obtain ⟨hl, e⟩ := v3Index_ok hi
    simp only [v3Step, v3Exact, v3Shown, e, ok_bind]
    show Except.ok _ = _
    congr 2
    unfold v3Put
    congr 1
    funext k
    by_cases hk : k = ⟨i.toNat, hl⟩
    · subst hk; simp
    · rw [Function.update_of_ne hk, if_neg (fun c => hk (Fin.ext c))]
  | get x i =>
    obtain ⟨hl, e⟩ := v3Index_ok hi
    simp only [v3Step, v3Exact, v3Shown, e, ok_bind, dif_pos hl]
    rfl
  | eq x y =>
    simp only [v3Step, v3Exact, v3Shown, v3Eq]
    congr 4
    rw [Bool.eq_iff_iff]
    simp [v3_eq_iff, and_assoc]
  | ne x y =>
    simp only [v3Step, v3Exact, v3Shown, v3Ne]
    congr 4
    rw [Bool.eq_iff_iff]
    simp only [Bool.or_eq_true, bne_iff_ne, decide_eq_true_eq, ne_eq, v3_eq_iff]
    tauto

theorem fl_div_error (q a : ℚ) :
    |fl (q * fl (1 / a)) - q / a| ≤ |q / a| * (2 ^ (-52 : ℤ) + 2 ^ (-106 : ℤ)) := by
  have h1 := fl_error (1 / a)
  have h2 := fl_error (q * fl (1 / a))
  set u : ℚ := 2 ^ (-53 : ℤ) with hu
  have hu0 : (0 : ℚ) < u := by positivity
  have hc : (2 : ℚ) ^ (-52 : ℤ) + 2 ^ (-106 : ℤ) = u * (1 + u) + u := by rw [hu]; norm_num
  rw [hc]
  set d := fl (1 / a) - 1 / a with hdd
  have hd : q * fl (1 / a) = q / a + q * d := by rw [hdd]; ring
  have hqd : |q * d| ≤ |q / a| * u := by
    rw [abs_mul, div_eq_mul_one_div q a, abs_mul, mul_assoc]
    exact mul_le_mul_of_nonneg_left h1 (abs_nonneg _)
  have h3 : |q * fl (1 / a)| ≤ |q / a| * (1 + u) := by
    rw [hd]; calc _ ≤ |q / a| + |q * d| := abs_add_le _ _
      _ ≤ _ := by linarith
  calc |fl (q * fl (1 / a)) - q / a| = |(fl (q * fl (1 / a)) - q * fl (1 / a)) + q * d| := by
        congr 1; rw [hdd]; ring
    _ ≤ |fl (q * fl (1 / a)) - q * fl (1 / a)| + |q * d| := abs_add_le _ _
    _ ≤ |q * fl (1 / a)| * u + |q / a| * u := add_le_add h2 hqd
    _ ≤ |q / a| * (1 + u) * u + |q / a| * u := by
        have := mul_le_mul_of_nonneg_right h3 hu0.le; linarith
    _ = _ := by ring

end MaterSDK
