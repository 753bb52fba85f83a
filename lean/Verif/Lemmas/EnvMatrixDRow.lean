import Verif.Lemmas.EnvMatrixD

/-! # Error bounds for the environment matrix in doubles: rows and derivative blocks -/

namespace MaterSDK

open Classical

/-- `NearE` together with the size of the exact number. -/
structure AccE (η S k y z : ℝ) : Prop where
  near : NearE η S k y z
  size : |z| ≤ S
  nonneg : 0 ≤ k

/-- The unit of error: positive, small, and large against rounding. -/
structure UnitE (η : ℝ) : Prop where
  pos : 0 < η
  le : η ≤ 1 / 32
  round : 64 * uR ≤ η

section

variable {η S S' k k' y y' z z' : ℝ}

theorem AccE.scale (h : AccE η S k y z) : 0 ≤ S := (abs_nonneg _).trans h.size

/-- Product, rounded. -/
theorem AccE.mr (hη : UnitE η) (h : AccE η S k y z) (h' : AccE η S' k' y' z') {K : ℝ} (hK : K ≤ 96)
    (hk : k + k' + k * k' / 32 + 1 / 16 ≤ K) : AccE η (S * S') K (flR (y * y')) (z * z') := by
  have hkk : 0 ≤ k * k' := mul_nonneg h.nonneg h'.nonneg
  have hsz : |z * z'| ≤ S * S' := by
    rw [abs_mul]; exact mul_le_mul h.size h'.size (abs_nonneg _) h.scale
  have m := h.near.mul h'.near h.size h'.size hη.pos.le h.nonneg (e := k * k' / 32)
    (by have := mul_le_mul_of_nonneg_left hη.le hkk; linarith)
  have hk0 := h.nonneg
  have hk0' := h'.nonneg
  have r := m.round hsz (c := 1 / 16) (by
    have h1 : (k + k' + k * k' / 32) * η ≤ 96 * (1 / 32) :=
      mul_le_mul (by linarith) hη.le hη.pos.le (by norm_num)
    have h2 := hη.round
    have h3 := hη.pos
    have h4 := uR_pos
    nlinarith)
  exact ⟨r.mono hη.pos.le (mul_nonneg h.scale h'.scale) hk, hsz, by linarith⟩

/-- Difference, rounded. -/
theorem AccE.sr (hη : UnitE η) (h : AccE η S k y z) (h' : AccE η S' k y' z') {K : ℝ} (hK : K ≤ 96)
    (hk : k + 1 / 16 ≤ K) : AccE η (S + S') K (flR (y - y')) (z - z') := by
  have hsz : |z - z'| ≤ S + S' := (abs_sub _ _).trans (add_le_add h.size h'.size)
  have r := (h.near.sub h'.near).round hsz (c := 1 / 16) (by
    have h1 : k * η ≤ 96 * (1 / 32) := mul_le_mul (by linarith) hη.le hη.pos.le (by norm_num)
    have h2 := hη.round
    have h3 := hη.pos
    have h4 := uR_pos
    nlinarith)
  exact ⟨r.mono hη.pos.le (add_nonneg h.scale h'.scale) hk, hsz, by linarith [h.nonneg]⟩

/-- Sum, rounded. -/
theorem AccE.ar (hη : UnitE η) (h : AccE η S k y z) (h' : AccE η S' k y' z') {K : ℝ} (hK : K ≤ 96)
    (hk : k + 1 / 16 ≤ K) : AccE η (S + S') K (flR (y + y')) (z + z') := by
  have n : AccE η S' k (-y') (-z') := ⟨h'.near.neg, by rw [abs_neg]; exact h'.size, h'.nonneg⟩
  have := h.sr hη n hK hk
  rwa [sub_neg_eq_add, sub_neg_eq_add] at this

theorem AccE.up (hη : UnitE η) (h : AccE η S k y z) {K : ℝ} (hk : k ≤ K) : AccE η S K y z :=
  ⟨h.near.mono hη.pos.le h.scale hk, h.size, h.nonneg.trans hk⟩

theorem AccE.wide (hη : UnitE η) (h : AccE η S k y z) (hS : S ≤ S') : AccE η S' k y z :=
  ⟨h.near.rescale hη.pos.le (mul_le_mul_of_nonneg_left hS h.nonneg), h.size.trans hS, h.nonneg⟩

/-- Product without rounding. -/
theorem AccE.m (hη : UnitE η) (h : AccE η S k y z) (h' : AccE η S' k' y' z') {K : ℝ}
    (hk : k + k' + k * k' / 32 ≤ K) : AccE η (S * S') K (y * y') (z * z') := by
  have hkk : 0 ≤ k * k' := mul_nonneg h.nonneg h'.nonneg
  have hsz : |z * z'| ≤ S * S' := by
    rw [abs_mul]; exact mul_le_mul h.size h'.size (abs_nonneg _) h.scale
  have m := h.near.mul h'.near h.size h'.size hη.pos.le h.nonneg (e := k * k' / 32)
    (by have := mul_le_mul_of_nonneg_left hη.le hkk; linarith)
  exact ⟨m.mono hη.pos.le (mul_nonneg h.scale h'.scale) hk, hsz, by linarith [h.nonneg, h'.nonneg]⟩

theorem AccE.r (hη : UnitE η) (h : AccE η S k y z) {K : ℝ} (hK : K ≤ 96) (hk : k + 1 / 16 ≤ K) :
    AccE η S K (flR y) z := by
  have := h.sr hη (k := k) (S' := 0) (y' := 0) (z' := 0)
    ⟨nearE_self.mono hη.pos.le le_rfl h.nonneg, by simp, h.nonneg⟩ hK hk
  simpa using this

end

section

variable {rcut rs τ ρ : ℝ} {v w : Vec ℝ}

/-- The situation: `w` is the exact relative position, `v` the stored one. -/
structure CloseVec (rcut rs τ ρ : ℝ) (v w : Vec ℝ) : Prop where
  lt : rs < rcut
  pos : 0 < ρ
  far : ρ ≤ norm3 w
  close : ∀ p, |v p - w p| ≤ τ
  small : 64 * τ ≤ ρ
  small' : 64 * τ ≤ rcut - rs
  round : 64 * (uR * norm3 w) ≤ τ

/-- Its unit of error. -/
noncomputable def unitOf (rcut rs τ ρ : ℝ) : ℝ := τ * (1 / (rcut - rs) + 1 / ρ)

theorem CloseVec.tau_pos (h : CloseVec rcut rs τ ρ v w) : 0 < τ := by
  have h1 := h.round
  have := mul_pos uR_pos (h.pos.trans_le h.far)
  linarith

theorem CloseVec.unit (h : CloseVec rcut rs τ ρ v w) : UnitE (unitOf rcut rs τ ρ) := by
  have ht := h.tau_pos
  have hp : 0 < rcut - rs := sub_pos.2 h.lt
  have hρ := h.pos
  have e : unitOf rcut rs τ ρ = τ / (rcut - rs) + τ / ρ := by unfold unitOf; ring
  have a : τ / (rcut - rs) ≤ 1 / 64 := by rw [div_le_iff₀ hp]; linarith [h.small']
  have b : τ / ρ ≤ 1 / 64 := by rw [div_le_iff₀ hρ]; linarith [h.small]
  have a0 : 0 < τ / (rcut - rs) := by positivity
  have b0 : 0 < τ / ρ := by positivity
  refine ⟨by rw [e]; linarith, by rw [e]; linarith, ?_⟩
  rw [e]
  have : 64 * uR ≤ τ / ρ := by
    rw [le_div_iff₀ hρ]
    have := mul_le_mul_of_nonneg_left h.far uR_pos.le
    linarith [h.round]
  linarith

theorem CloseVec.unit_ge (h : CloseVec rcut rs τ ρ v w) :
    τ / (rcut - rs) ≤ unitOf rcut rs τ ρ ∧ τ / norm3 w ≤ unitOf rcut rs τ ρ := by
  have ht := h.tau_pos
  have hp : 0 < rcut - rs := sub_pos.2 h.lt
  have hρ := h.pos
  have e : unitOf rcut rs τ ρ = τ / (rcut - rs) + τ / ρ := by unfold unitOf; ring
  have a0 : 0 < τ / (rcut - rs) := by positivity
  have b0 : 0 < τ / ρ := by positivity
  refine ⟨by rw [e]; linarith, ?_⟩
  have := div_le_div_of_nonneg_left ht.le hρ h.far
  rw [e]; linarith

theorem CloseVec.coord (h : CloseVec rcut rs τ ρ v w) (p : Fin 3) :
    AccE (unitOf rcut rs τ ρ) (norm3 w) 1 (v p) (w p) := by
  refine ⟨?_, abs_le_norm3 w p, by norm_num⟩
  unfold NearE
  refine (h.close p).trans ?_
  have := (h.unit_ge).2
  rw [div_le_iff₀ (h.pos.trans_le h.far)] at this
  linarith

/-- The stored distance. -/
theorem CloseVec.length (h : CloseVec rcut rs τ ρ v w) : |lengthD flR v - norm3 w| ≤ 4 * τ := by
  have hu := uR_pos
  have ht := h.tau_pos
  obtain ⟨h1, h2⟩ := normD_bounds v
  have e : lengthD flR v
      = flR (Real.sqrt (flR (flR (flR (v 0 ^ 2) + flR (v 1 ^ 2)) + flR (v 2 ^ 2)))) := rfl
  rw [← e] at h1 h2
  have h3 : |norm3 v - norm3 w| ≤ 3 * τ := by
    refine (norm3_diff v w).trans ?_
    unfold sum1
    have a := h.close 0
    have b := h.close 1
    have c := h.close 2
    simp only [Pi.sub_apply]
    linarith
  have hr := h.round
  have hs := h.small
  have hf := h.far
  have hn := norm3_nonneg v
  rw [abs_le] at h3 ⊢
  have h4 : norm3 v ≤ norm3 w * (1 + 1 / 16) := by linarith [h3.2]
  have h5 : uR * norm3 v ≤ uR * (norm3 w * (1 + 1 / 16)) := mul_le_mul_of_nonneg_left h4 hu.le
  constructor <;> nlinarith [h3.1, h3.2]

theorem CloseVec.length_pos (h : CloseVec rcut rs τ ρ v w) :
    15 / 16 * norm3 w ≤ lengthD flR v ∧ 0 < lengthD flR v ∧ 0 < norm3 w := by
  have h1 := abs_le.1 h.length
  have h2 := h.small
  have h3 := h.far
  have h4 := h.pos
  refine ⟨by linarith, by linarith, by linarith⟩

/-- The exact reciprocal of the stored distance. -/
theorem CloseVec.inv (h : CloseVec rcut rs τ ρ v w) :
    AccE (unitOf rcut rs τ ρ) (1 / norm3 w) (43 / 10) (lengthD flR v)⁻¹ (1 / norm3 w) := by
  obtain ⟨h1, h2, h3⟩ := h.length_pos
  refine ⟨?_, (abs_of_pos (by positivity : 0 < 1 / norm3 w)).le, by norm_num⟩
  unfold NearE
  have e : (lengthD flR v)⁻¹ - 1 / norm3 w = (norm3 w - lengthD flR v) / (lengthD flR v * norm3 w) := by
    field_simp
  rw [e, abs_div, abs_of_pos (mul_pos h2 h3), div_le_iff₀ (mul_pos h2 h3), abs_sub_comm]
  refine h.length.trans ?_
  have h4 := h.unit_ge.2
  rw [div_le_iff₀ h3] at h4
  have hη := h.unit.pos
  have e2 : 43 / 10 * (unitOf rcut rs τ ρ * (1 / norm3 w)) * (lengthD flR v * norm3 w)
      = 43 / 10 * (unitOf rcut rs τ ρ * lengthD flR v) := by field_simp
  rw [e2]
  have h5 : unitOf rcut rs τ ρ * (15 / 16 * norm3 w) ≤ unitOf rcut rs τ ρ * lengthD flR v :=
    mul_le_mul_of_nonneg_left h1 hη.le
  have ht := h.tau_pos
  linarith

theorem CloseVec.recip (h : CloseVec rcut rs τ ρ v w) :
    AccE (unitOf rcut rs τ ρ) (1 / norm3 w) (44 / 10) (recipD flR (lengthD flR v)) (1 / norm3 w) := by
  have e : recipD flR (lengthD flR v) = flR ((lengthD flR v)⁻¹) := by
    unfold recipD; rw [if_neg h.length_pos.2.1.ne', one_div]
  rw [e]
  exact h.inv.r h.unit (by norm_num) (by norm_num)

theorem CloseVec.exactSwitch (h : CloseVec rcut rs τ ρ v w) :
    AccE (unitOf rcut rs τ ρ) 1 8 (cSwitch rcut rs (lengthD flR v)) (cSwitch rcut rs (norm3 w)) := by
  have hr := cSwitch_range h.lt (norm3 w)
  refine ⟨?_, abs_le.2 ⟨by linarith [hr.1], hr.2⟩, by norm_num⟩
  have hp : 0 < rcut - rs := sub_pos.2 h.lt
  unfold NearE
  refine (cSwitch_lip h.lt _ _).trans ?_
  have h1 := h.length
  have h2 := h.unit_ge.1
  calc 2 / (rcut - rs) * |lengthD flR v - norm3 w| ≤ 2 / (rcut - rs) * (4 * τ) :=
        mul_le_mul_of_nonneg_left h1 (by positivity)
    _ = 8 * (τ / (rcut - rs)) := by ring
    _ ≤ 8 * (unitOf rcut rs τ ρ * 1) := by linarith

theorem CloseVec.switch (h : CloseVec rcut rs τ ρ v w) :
    AccE (unitOf rcut rs τ ρ) 1 10 (switchD flR rcut rs (lengthD flR v)) (cSwitch rcut rs (norm3 w)) := by
  refine ⟨?_, h.exactSwitch.size, by norm_num⟩
  have h1 := h.exactSwitch.near
  have h2 := near_switchD h.lt (lengthD flR v)
  have h3 := h.unit.round
  unfold NearE at *
  have := abs_sub_le (switchD flR rcut rs (lengthD flR v)) (cSwitch rcut rs (lengthD flR v))
    (cSwitch rcut rs (norm3 w))
  linarith [uR_pos]

theorem CloseVec.switchDeriv (h : CloseVec rcut rs τ ρ v w) :
    AccE (unitOf rcut rs τ ρ) (2 / (rcut - rs)) 34 (switchDerivD flR rcut rs (lengthD flR v))
      (cSwitchDeriv rcut rs (norm3 w)) := by
  refine ⟨?_, cSwitchDeriv_abs h.lt _, by norm_num⟩
  have hp : 0 < rcut - rs := sub_pos.2 h.lt
  have h1 := cSwitchDeriv_lip h.lt (lengthD flR v) (norm3 w)
  have h2 := near_switchDerivD h.lt (lengthD flR v)
  have h3 := h.unit.round
  unfold NearE at *
  have h4 := abs_sub_le (switchDerivD flR rcut rs (lengthD flR v)) (cSwitchDeriv rcut rs (lengthD flR v))
    (cSwitchDeriv rcut rs (norm3 w))
  have h5 : 15 / (rcut - rs) ^ 2 * |lengthD flR v - norm3 w| ≤ 30 * (unitOf rcut rs τ ρ * (2 / (rcut - rs))) := by
    calc 15 / (rcut - rs) ^ 2 * |lengthD flR v - norm3 w| ≤ 15 / (rcut - rs) ^ 2 * (4 * τ) :=
          mul_le_mul_of_nonneg_left h.length (by positivity)
      _ = 30 * (τ / (rcut - rs) * (2 / (rcut - rs))) := by field_simp; ring
      _ ≤ 30 * (unitOf rcut rs τ ρ * (2 / (rcut - rs))) := by
        have := mul_le_mul_of_nonneg_right h.unit_ge.1 (by positivity : 0 ≤ 2 / (rcut - rs))
        linarith
  have h6 : 210 * (uR * (2 / (rcut - rs))) ≤ 4 * (unitOf rcut rs τ ρ * (2 / (rcut - rs))) := by
    have h7 : 0 ≤ 2 / (rcut - rs) := by positivity
    have := mul_le_mul_of_nonneg_right h3 h7
    have := mul_nonneg uR_pos.le h7
    linarith
  linarith

theorem CloseVec.weight (h : CloseVec rcut rs τ ρ v w) :
    AccE (unitOf rcut rs τ ρ) (1 / norm3 w) 16 (smoothD flR rcut rs (lengthD flR v))
      (1 / norm3 w * cSwitch rcut rs (norm3 w)) := by
  obtain ⟨h1, h2, h3⟩ := h.length_pos
  have m := h.inv.m h.unit h.exactSwitch (K := 14) (by norm_num)
  rw [mul_one] at m
  refine ⟨?_, m.size, by norm_num⟩
  have h4 := near_smoothD h.lt h2
  have h5 := m.near
  have h6 := h.unit.round
  unfold NearE at *
  have h7 := abs_sub_le (smoothD flR rcut rs (lengthD flR v))
    ((lengthD flR v)⁻¹ * cSwitch rcut rs (lengthD flR v)) (1 / norm3 w * cSwitch rcut rs (norm3 w))
  have h8 : 90 * (uR * (1 / lengthD flR v)) ≤ 2 * (unitOf rcut rs τ ρ * (1 / norm3 w)) := by
    have e1 : 1 / lengthD flR v ≤ 16 / 15 * (1 / norm3 w) := by
      rw [div_le_iff₀ h2]
      have : 16 / 15 * (1 / norm3 w) * lengthD flR v = 16 / 15 * lengthD flR v / norm3 w := by ring
      rw [this, le_div_iff₀ h3]
      linarith
    have hq : 0 < 1 / norm3 w := by positivity
    have e2 : uR * (1 / lengthD flR v) ≤ uR * (16 / 15 * (1 / norm3 w)) :=
      mul_le_mul_of_nonneg_left e1 uR_pos.le
    have e3 := mul_le_mul_of_nonneg_right h6 hq.le
    have := mul_pos uR_pos hq
    linarith
  linarith

/-- Every value of a rounded row. -/
theorem CloseVec.row (h : CloseVec rcut rs τ ρ v w) (a : Fin 4) :
    |envRowD flR rcut rs v a - cEnvRow rcut rs w a| ≤ 32 * (unitOf rcut rs τ ρ * (1 / ρ)) := by
  obtain ⟨_, _, h3⟩ := h.length_pos
  have hd : Real.sqrt (w 0 ^ 2 + w 1 ^ 2 + w 2 ^ 2) = norm3 w := rfl
  have hq : cRecip (norm3 w) = 1 / norm3 w := by rw [cRecip_eq, one_div]
  have hs : cSmooth rcut rs (norm3 w) = 1 / norm3 w * cSwitch rcut rs (norm3 w) := by rw [cSmooth_eq, one_div]
  have key : ∀ y z, AccE (unitOf rcut rs τ ρ) (1 / norm3 w) 32 y z →
      |y - z| ≤ 32 * (unitOf rcut rs τ ρ * (1 / ρ)) := by
    intro y z hyz
    refine le_trans hyz.near ?_
    have : 1 / norm3 w ≤ 1 / ρ := one_div_le_one_div_of_le h.pos h.far
    have := mul_le_mul_of_nonneg_left this h.unit.pos.le
    linarith
  have comp : ∀ p : Fin 3, AccE (unitOf rcut rs τ ρ) (1 / norm3 w) 32
      (flR (flR (smoothD flR rcut rs (lengthD flR v) * recipD flR (lengthD flR v)) * v p))
      (1 / norm3 w * cSwitch rcut rs (norm3 w) * (1 / norm3 w) * w p) := by
    intro p
    have m := (h.weight.mr h.unit h.recip (K := 23) (by norm_num) (by norm_num)).mr h.unit (h.coord p)
      (K := 32) (by norm_num) (by norm_num)
    have e : 1 / norm3 w * (1 / norm3 w) * norm3 w = 1 / norm3 w := by field_simp
    rwa [e] at m
  unfold envRowD cEnvRow
  simp only [hd, hq, hs]
  fin_cases a
  · exact key _ _ (h.weight.up h.unit (by norm_num))
  · exact key _ _ (comp 0)
  · exact key _ _ (comp 1)
  · exact key _ _ (comp 2)

/-- Every value of a rounded derivative block. -/
theorem CloseVec.deriv (h : CloseVec rcut rs τ ρ v w) (a : Fin 4) (b : Fin 3) :
    |envDerivD flR rcut rs v a b - cEnvDeriv rcut rs w a b|
      ≤ 256 * (unitOf rcut rs τ ρ * (1 / ρ * (1 / (rcut - rs) + 1 / ρ))) := by
  obtain ⟨_, _, h3⟩ := h.length_pos
  have hη := h.unit
  have hp : 0 < rcut - rs := sub_pos.2 h.lt
  have hd : Real.sqrt (w 0 ^ 2 + w 1 ^ 2 + w 2 ^ 2) = norm3 w := rfl
  have hq : cRecip (norm3 w) = 1 / norm3 w := by rw [cRecip_eq, one_div]
  have hS := h.switch
  have hD := h.switchDeriv
  have hQ := h.recip
  have hX := h.coord
  unfold envDerivD cEnvDeriv
  simp only [hd, hq]
  set q := recipD flR (lengthD flR v)
  set S := switchD flR rcut rs (lengthD flR v)
  set D := switchDerivD flR rcut rs (lengthD flR v)
  set s := cSwitch rcut rs (norm3 w)
  set e := cSwitchDeriv rcut rs (norm3 w)
  set r := norm3 w with hr
  set η := unitOf rcut rs τ ρ
  clear_value q S D s e η
  have f1 : 1 / r ≤ 1 / ρ := one_div_le_one_div_of_le h.pos h.far
  have f0 : 0 < 1 / r := by positivity
  have fΔ : 0 < 1 / (rcut - rs) := by positivity
  have key : ∀ (M k y z : ℝ), AccE η M k y z → M ≤ 3 * (1 / r * (1 / (rcut - rs) + 1 / r)) → k ≤ 85 →
      |y - z| ≤ 256 * (η * (1 / ρ * (1 / (rcut - rs) + 1 / ρ))) := by
    intro M k y z hyz hM hk
    have h1 := (hyz.up hη hk).wide hη hM
    refine le_trans h1.near ?_
    have h2 : 1 / r * (1 / (rcut - rs) + 1 / r) ≤ 1 / ρ * (1 / (rcut - rs) + 1 / ρ) :=
      mul_le_mul f1 (by linarith) (by positivity) (f0.le.trans f1)
    have h3 := mul_le_mul_of_nonneg_left h2 hη.pos.le
    have h4 : 0 ≤ η * (1 / r * (1 / (rcut - rs) + 1 / r)) := mul_nonneg hη.pos.le (by positivity)
    linarith
  have Q2 : AccE η (1 / r * (1 / r)) 11 (flR (q ^ 2)) ((1 / r) ^ 2) := by
    rw [sq q, sq (1 / r)]
    exact hQ.mr hη hQ (by norm_num) (by norm_num)
  have Q2' : AccE η (1 / r * (1 / r)) 10 (q * q) (1 / r * (1 / r)) := hQ.m hη hQ (by norm_num)
  have Q3' : AccE η (1 / r * (1 / r) * (1 / r)) 16 (q * q * q) (1 / r * (1 / r) * (1 / r)) := Q2'.m hη hQ (by norm_num)
  have Q3 : AccE η (1 / r * (1 / r) * (1 / r)) 18 (flR (q ^ 3)) ((1 / r) ^ 3) := by
    rw [pow_three' q, pow_three' (1 / r)]
    exact Q3'.r hη (by norm_num) (by norm_num)
  have Q4 : AccE η (1 / r * (1 / r) * (1 / r) * (1 / r)) 26 (flR (q ^ 4)) ((1 / r) ^ 4) := by
    have := Q3'.mr hη hQ (K := 26) (by norm_num) (by norm_num)
    have e1 : q * q * q * q = q ^ 4 := by ring
    have e2 : 1 / r * (1 / r) * (1 / r) * (1 / r) = (1 / r) ^ 4 := by ring
    rw [e1] at this
    nth_rewrite 2 [e2] at this
    exact this
  have two : AccE η 2 0 (2 : ℝ) 2 := ⟨nearE_self, by norm_num, le_rfl⟩
  have Q4t := two.mr hη Q4 (K := 27) (by norm_num) (by norm_num)
  have X2 : ∀ p, AccE η (r * r) 3 (flR (v p ^ 2)) (w p ^ 2) := by
    intro p
    have := (hX p).mr hη (hX p) (K := 3) (by norm_num) (by norm_num)
    rwa [← sq (v p), ← sq (w p)] at this
  have E0 : ∀ p, |derivD0 flR q S D (v p) - ((1 / r) ^ 2 * e * w p - (1 / r) ^ 3 * s * w p)|
      ≤ 256 * (η * (1 / ρ * (1 / (rcut - rs) + 1 / ρ))) := by
    intro p
    have t1 := (Q2.mr hη hD (K := 58) (by norm_num) (by norm_num)).mr hη (hX p) (K := 62) (by norm_num) (by norm_num)
    have t2 := ((Q3.mr hη hS (K := 34) (by norm_num) (by norm_num)).mr hη (hX p) (K := 38) (by norm_num)
      (by norm_num)).up hη (K := 62) (by norm_num)
    refine key _ _ _ _ (t1.sr hη t2 (K := 63) (by norm_num) (by norm_num)) ?_ (by norm_num)
    have : 1 / r * (1 / r) * (2 / (rcut - rs)) * r + 1 / r * (1 / r) * (1 / r) * 1 * r
        = 2 * (1 / r * (1 / (rcut - rs))) + 1 / r * (1 / r) := by field_simp
    rw [this]
    nlinarith [mul_pos f0 fΔ, mul_pos f0 f0]
  have ED : ∀ p, |derivDD flR q S D (v p)
      - ((1 / r) ^ 3 * e * w p ^ 2 + (1 / r) ^ 2 * s - 2 * (1 / r) ^ 4 * s * w p ^ 2)|
      ≤ 256 * (η * (1 / ρ * (1 / (rcut - rs) + 1 / ρ))) := by
    intro p
    have t1 := (Q3.mr hη hD (K := 72) (by norm_num) (by norm_num)).mr hη (X2 p) (K := 82) (by norm_num) (by norm_num)
    have t2 := (Q2.mr hη hS (K := 25) (by norm_num) (by norm_num)).up hη (K := 82) (by norm_num)
    have t3 := ((Q4t.mr hη hS (K := 46) (by norm_num) (by norm_num)).mr hη (X2 p) (K := 54) (by norm_num)
      (by norm_num)).up hη (K := 83) (by norm_num)
    refine key _ _ _ _ ((t1.ar hη t2 (K := 83) (by norm_num) (by norm_num)).sr hη t3 (K := 84) (by norm_num)
      (by norm_num)) ?_ (by norm_num)
    have : 1 / r * (1 / r) * (1 / r) * (2 / (rcut - rs)) * (r * r) + 1 / r * (1 / r) * 1
        + 2 * (1 / r * (1 / r) * (1 / r) * (1 / r)) * 1 * (r * r)
        = 2 * (1 / r * (1 / (rcut - rs))) + 3 * (1 / r * (1 / r)) := by field_simp; ring
    rw [this]
    nlinarith [mul_pos f0 fΔ, mul_pos f0 f0]
  have EO : ∀ p p', |derivDO flR q S D (v p) (v p')
      - ((1 / r) ^ 3 * e * w p * w p' - 2 * (1 / r) ^ 4 * s * w p * w p')|
      ≤ 256 * (η * (1 / ρ * (1 / (rcut - rs) + 1 / ρ))) := by
    intro p p'
    have t1 := ((Q3.mr hη hD (K := 72) (by norm_num) (by norm_num)).mr hη (hX p) (K := 76) (by norm_num)
      (by norm_num)).mr hη (hX p') (K := 80) (by norm_num) (by norm_num)
    have t3 := (((Q4t.mr hη hS (K := 46) (by norm_num) (by norm_num)).mr hη (hX p) (K := 49) (by norm_num)
      (by norm_num)).mr hη (hX p') (K := 53) (by norm_num) (by norm_num)).up hη (K := 80) (by norm_num)
    refine key _ _ _ _ (t1.sr hη t3 (K := 81) (by norm_num) (by norm_num)) ?_ (by norm_num)
    have : 1 / r * (1 / r) * (1 / r) * (2 / (rcut - rs)) * r * r
        + 2 * (1 / r * (1 / r) * (1 / r) * (1 / r)) * 1 * r * r
        = 2 * (1 / r * (1 / (rcut - rs))) + 2 * (1 / r * (1 / r)) := by field_simp
    rw [this]
    nlinarith [mul_pos f0 fΔ, mul_pos f0 f0]
  fin_cases a <;> fin_cases b
  · exact E0 0
  · exact E0 1
  · exact E0 2
  · exact ED 0
  · exact EO 0 1
  · exact EO 0 2
  · exact EO 1 0
  · exact ED 1
  · exact EO 1 2
  · exact EO 2 0
  · exact EO 2 1
  · exact ED 2

end

end MaterSDK
