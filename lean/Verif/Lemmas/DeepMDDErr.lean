import Verif.Model.DeepMDD
import Verif.Lemmas.EnvMatrixDRow
import Verif.Lemmas.Cross

/-! # Error bounds for the Python rows and derivative blocks in doubles -/

namespace MaterSDK

open Classical

/-! ## Without rounding -/

theorem pairEntriesD_map (R : ℝ → ℝ) (row : List NbrEntry) (nz : ℕ) :
    pairEntriesD R row nz = (pairEntries row nz).map (fun e => (e.1, e.2.1, fun q => R (e.2.2 q))) := by
  cases row with
  | nil => rfl
  | cons c rest => simp [pairEntriesD, pairEntries]

theorem extractFeaturePairD_id (table : List (List NbrEntry)) (cz nz : ℕ) :
    extractFeaturePairD id table cz nz = extractFeaturePair table cz nz := by
  unfold extractFeaturePairD extractFeaturePair
  have : ∀ row, pairEntriesD id row nz = pairEntries row nz := by
    intro row
    rw [pairEntriesD_map]
    simp
  simp only [this]

theorem getSD_id (rcut rs d : ℝ) : getSD id rcut rs d = getS rcut rs d := by
  simp [getSD, getS, polyD, scaledD, recipD, recip, switchPoly]

theorem getTildeRD_id (rcut rs : ℝ) (table : List (List NbrEntry)) (cz nz : ℕ) (width : ℤ) :
    getTildeRD id rcut rs table cz nz width = getTildeR rcut rs table cz nz width := by
  unfold getTildeRD getTildeR pairTildeR
  have : envRowPyD id rcut rs = envRow rcut rs := by
    funext e
    simp [envRowPyD, envRow, getSD_id, recipD, recip]
  rw [extractFeaturePairD_id, this]
  cases extractFeaturePair table cz nz <;> rfl

theorem derivBlockD_id (rcut rs : ℝ) (e : NbrEntry) : derivBlockD id rcut rs e = derivBlock rcut rs e := by
  unfold derivBlockD derivBlock
  simp only [vvD, dvvD, dpolyPyD, polyD, scaledD, pyDerivD0, pyDerivDD, pyDerivDO, id]
  rfl

theorem calcDerivativeD_id (rcut rs : ℝ) (table : List (List NbrEntry)) (cz nz : ℕ) (width : ℤ) :
    calcDerivativeD id rcut rs table cz nz width = calcDerivative rcut rs table cz nz width := by
  unfold calcDerivativeD calcDerivative
  have : derivBlockD id rcut rs = derivBlock rcut rs := funext (derivBlockD_id rcut rs)
  rw [extractFeaturePairD_id, this]
  rfl

/-! ## Rows -/

theorem polyD_zero : polyD flR 0 = 1 := by
  have h1 : flR 1 = 1 := by simpa using flR_int 1 (by norm_num)
  unfold polyD
  simp [flR_zero, h1]

/-- Below the cutoff the Python weight is the C++ one. -/
theorem getSD_smoothD {rcut rs d : ℝ} (hd : d < rcut) : getSD flR rcut rs d = smoothD flR rcut rs d := by
  have hr : flR (recipD flR d) = recipD flR d := by
    unfold recipD
    split
    · exact flR_zero
    · exact flR_flR _
  unfold getSD smoothD
  simp only
  by_cases h1 : d < rs
  · rw [if_pos h1, if_neg (fun h => absurd h.1 (not_lt.2 h1.le))]
    rfl
  · by_cases h2 : rs < d
    · rw [if_pos ⟨h2, hd⟩, if_neg h1, if_pos ⟨h2.le, hd⟩]
      rfl
    · have e : d = rs := le_antisymm (not_lt.1 h2) (not_lt.1 h1)
      have e0 : scaledD flR rcut rs d = 0 := by
        unfold scaledD
        rw [e, sub_self, flR_zero, zero_div, flR_zero]
      rw [if_neg (fun h => h2 h.1), if_neg h1, if_pos ⟨not_lt.1 h1, hd⟩, e0, polyD_zero, mul_one]
      exact hr.symm

theorem envRowPyD_envRowD {rcut rs : ℝ} {v : Vec ℝ} (hd : lengthD flR v < rcut) (nz : ℕ) :
    envRowPyD flR rcut rs (nz, lengthD flR v, v) = envRowD flR rcut rs v := by
  unfold envRowPyD envRowD
  simp only [getSD_smoothD hd]

/-! ## Derivative blocks -/

theorem near_dpolyPyD {w : ℝ} (h0 : 0 ≤ w) (h1 : w ≤ 1) : NearE uR 1 340 (dpolyPyD flR w) (dpoly w) := by
  have hu := uR_pos.le
  have hw2 : w ^ 2 ≤ 1 := by nlinarith
  have hw20 : 0 ≤ w ^ 2 := sq_nonneg w
  have a2 := nearE_roundU (pow_unit h0 h1 2)
  have a3 := nearE_roundU (pow_unit h0 h1 3)
  have b1 : NearE uR 6 (22 / 10) (flR (-6 * flR (w ^ 2))) (-6 * w ^ 2) := by
    have := a2.const (-6)
    have e : |(-6 : ℝ)| * 1 = 6 := by norm_num
    rw [e] at this
    have := this.roundU (abs_le.2 ⟨by linarith, by linarith⟩) (by norm_num)
    exact this.mono hu (by norm_num) (by norm_num)
  have b2 : NearE uR 15 (11 / 10) (flR (15 * w)) (15 * w) :=
    nearE_roundU (abs_le.2 ⟨by linarith, by linarith⟩)
  have b3 : NearE uR 9 (45 / 10) (flR (flR (-6 * flR (w ^ 2)) + flR (15 * w))) (-6 * w ^ 2 + 15 * w) := by
    have x2 := (b1.rescale (k' := 1) (S' := 132 / 10) hu (by norm_num)).add
      (b2.rescale (k' := 1) (S' := 165 / 10) hu (by norm_num))
    have x3 := x2.rescale (k' := 33 / 10) (S' := 9) hu (by norm_num)
    have := x3.roundU (abs_le.2 ⟨by nlinarith, by nlinarith⟩) (by norm_num)
    exact this.mono hu (by norm_num) (by norm_num)
  have b4 : NearE uR 10 (52 / 10) (flR (flR (flR (-6 * flR (w ^ 2)) + flR (15 * w)) - 10))
      (-6 * w ^ 2 + 15 * w - 10) := by
    have x1 := b3.sub ((nearE_self (η := uR) (S := 0) (z := 10)).mono (k' := 45 / 10) hu le_rfl (by norm_num))
    have x2 := x1.rescale (k' := 405 / 100) (S' := 10) hu (by norm_num)
    have := x2.roundU (abs_le.2 ⟨by nlinarith, by nlinarith⟩) (by norm_num)
    exact this.mono hu (by norm_num) (by norm_num)
  have hin : |-6 * w ^ 2 + 15 * w - 10| ≤ 10 := abs_le.2 ⟨by nlinarith, by nlinarith⟩
  have c1 : NearE uR 3 (22 / 10) (flR (3 * flR (w ^ 2))) (3 * w ^ 2) := by
    have := a2.const 3
    have e : |(3 : ℝ)| * 1 = 3 := by norm_num
    rw [e] at this
    have := this.roundU (abs_le.2 ⟨by linarith, by linarith⟩) (by norm_num)
    exact this.mono hu (by norm_num) (by norm_num)
  have h3 : |3 * w ^ 2| ≤ 3 := abs_le.2 ⟨by linarith, by linarith⟩
  have c2 := c1.mulU b4 h3 hin (by norm_num) (by norm_num) (by norm_num) (by norm_num)
  have c3 := (c2.roundU (by rw [abs_mul]; exact mul_le_mul h3 hin (abs_nonneg _) (by norm_num))
    (by norm_num)).rescale (k' := 1) (S' := 258) hu (by norm_num)
  have d1 : NearE uR 12 (11 / 10) (flR (-12 * w)) (-12 * w) :=
    nearE_roundU (abs_le.2 ⟨by linarith, by linarith⟩)
  have h15 : |-12 * w + 15| ≤ 15 := abs_le.2 ⟨by linarith, by linarith⟩
  have d2 : NearE uR 15 2 (flR (flR (-12 * w) + 15)) (-12 * w + 15) := by
    have x1 := d1.add ((nearE_self (η := uR) (S := 0) (z := 15)).mono (k' := 11 / 10) hu le_rfl (by norm_num))
    have x2 := x1.rescale (k' := 88 / 100) (S' := 15) hu (by norm_num)
    have := x2.roundU h15 (by norm_num)
    exact this.mono hu (by norm_num) (by norm_num)
  have d3 := a3.mulU d2 (pow_unit h0 h1 3) h15 (by norm_num) (by norm_num) (by norm_num) (by norm_num)
  have d4 := (d3.roundU (by rw [abs_mul]; exact mul_le_mul (pow_unit h0 h1 3) h15 (abs_nonneg _) (by norm_num))
    (by norm_num)).rescale (k' := 1) (S' := 65) hu (by norm_num)
  have e : 3 * w ^ 2 * (-6 * w ^ 2 + 15 * w - 10) + w ^ 3 * (-12 * w + 15) = dpoly w := by unfold dpoly; ring
  have f1 := c3.add d4
  rw [e] at f1
  have f2 := (f1.rescale (k' := 162) (S' := 2) hu (by norm_num)).roundU (dpoly_abs h0 h1) (by norm_num)
  exact f2.rescale hu (by norm_num)

theorem near_duu {rcut rs : ℝ} (h : rs < rcut) :
    NearE uR (1 / (rcut - rs)) 3 (flR (1 / flR (rcut - rs))) (1 / (rcut - rs)) := by
  have hu := uR_pos
  have hus : uR ≤ 1 / 1000 := by rw [uR_eq]; norm_num
  have hp : 0 < rcut - rs := sub_pos.2 h
  obtain ⟨e, he, ee⟩ := flR_rel (rcut - rs)
  rw [abs_le] at he
  have hb1 : 0 < 1 + e := by linarith
  have q1 : NearE uR (1 / (rcut - rs)) (3 / 2) (1 / flR (rcut - rs)) (1 / (rcut - rs)) := by
    unfold NearE
    have e1 : 1 / flR (rcut - rs) - 1 / (rcut - rs) = 1 / (rcut - rs) * (-e / (1 + e)) := by
      rw [ee]; field_simp; ring
    rw [e1, abs_mul, abs_of_pos (by positivity : 0 < 1 / (rcut - rs)), abs_div, abs_of_pos hb1]
    have : |-e| / (1 + e) ≤ 3 / 2 * uR := by
      rw [div_le_iff₀ hb1]
      have : |-e| ≤ uR := abs_le.2 ⟨by linarith, by linarith⟩
      nlinarith
    calc 1 / (rcut - rs) * (|-e| / (1 + e)) ≤ 1 / (rcut - rs) * (3 / 2 * uR) :=
          mul_le_mul_of_nonneg_left this (by positivity)
      _ = _ := by ring
  have := q1.roundU (abs_of_pos (by positivity : 0 < 1 / (rcut - rs))).le (by norm_num)
  exact this.mono hu.le (by positivity) (by norm_num)

/-- The rounded derivative of the switch, Python order. -/
theorem near_dvvD {rcut rs d : ℝ} (h : rs < rcut) (h2 : d < rcut) :
    NearE uR (2 / (rcut - rs)) 210 (dvvD flR rcut rs d) (cSwitchDeriv rcut rs d) := by
  have hu := uR_pos
  have hp : 0 < rcut - rs := sub_pos.2 h
  by_cases h1 : d < rs
  · rw [cSwitchDeriv, dvvD]
    rw [if_pos h1, if_pos h1]
    exact nearE_self.mono hu.le (by positivity) (by norm_num)
  · have h1 := not_lt.1 h1
    rw [cSwitchDeriv, dvvD]
    rw [if_neg (not_lt.2 h1), if_neg (not_lt.2 h1), if_pos ⟨h1, h2⟩]
    obtain ⟨a, b, c⟩ := near_scaledD h h1 h2.le
    set x := (d - rs) / (rcut - rs) with hx
    have hx0 : 0 ≤ x := div_nonneg (sub_nonneg.2 h1) hp.le
    have hx1 : x ≤ 1 := (div_le_one hp).2 (by linarith)
    have p1 : NearE uR 2 200 (dpolyPyD flR (scaledD flR rcut rs d)) (dpoly x) := by
      have h3 := near_dpolyPyD a b
      have h4 := dpoly_lip a b hx0 hx1
      unfold NearE at *
      have := abs_sub_le (dpolyPyD flR (scaledD flR rcut rs d)) (dpoly (scaledD flR rcut rs d)) (dpoly x)
      linarith
    have p2 := near_duu h
    have hd := dpoly_abs hx0 hx1
    have p3 := p2.mulU p1 (abs_of_pos (by positivity : 0 < 1 / (rcut - rs))).le hd (by norm_num)
      (by norm_num) (by norm_num) (by norm_num)
    have p4 := p3.roundU (by
      rw [abs_mul, abs_of_pos (by positivity : 0 < 1 / (rcut - rs))]
      exact mul_le_mul_of_nonneg_left hd (by positivity)) (by norm_num)
    have e : 1 / (rcut - rs) * 2 = 2 / (rcut - rs) := by ring
    rw [e, mul_comm (flR _)] at p4
    exact p4.mono hu.le (by positivity) (by norm_num)

section

variable {rcut rs τ ρ : ℝ} {v w : Vec ℝ}

theorem CloseVec.dvv (h : CloseVec rcut rs τ ρ v w) (hd : lengthD flR v < rcut) :
    AccE (unitOf rcut rs τ ρ) (2 / (rcut - rs)) 34 (dvvD flR rcut rs (lengthD flR v))
      (cSwitchDeriv rcut rs (norm3 w)) := by
  refine ⟨?_, cSwitchDeriv_abs h.lt _, by norm_num⟩
  have hp : 0 < rcut - rs := sub_pos.2 h.lt
  have h1 := cSwitchDeriv_lip h.lt (lengthD flR v) (norm3 w)
  have h2 := near_dvvD h.lt hd
  have h3 := h.unit.round
  unfold NearE at *
  have h4 := abs_sub_le (dvvD flR rcut rs (lengthD flR v)) (cSwitchDeriv rcut rs (lengthD flR v))
    (cSwitchDeriv rcut rs (norm3 w))
  have h5 : 15 / (rcut - rs) ^ 2 * |lengthD flR v - norm3 w| ≤ 30 * (unitOf rcut rs τ ρ * (2 / (rcut - rs))) := by
    calc 15 / (rcut - rs) ^ 2 * |lengthD flR v - norm3 w| ≤ 15 / (rcut - rs) ^ 2 * (4 * τ) :=
          mul_le_mul_of_nonneg_left h.length (by positivity)
      _ = 30 * (τ / (rcut - rs) * (2 / (rcut - rs))) := by field_simp; ring
      _ ≤ 30 * (unitOf rcut rs τ ρ * (2 / (rcut - rs))) := by
        have := mul_le_mul_of_nonneg_right h.unit_ge.1 (by positivity : 0 ≤ 2 / (rcut - rs))
        linarith
  have h6 : 210 * (uR * (2 / (rcut - rs))) ≤ 4 * (unitOf rcut rs τ ρ * (2 / (rcut - rs))) := by
    have h7 : 0 ≤ 2 / (rcut - rs) := by positivity
    have := mul_le_mul_of_nonneg_right h3 h7
    have := mul_nonneg uR_pos.le h7
    linarith
  linarith

theorem vvD_switchD {d : ℝ} (hd : d < rcut) : vvD flR rcut rs d = switchD flR rcut rs d := by
  unfold vvD switchD
  by_cases h1 : d < rs
  · rw [if_pos h1, if_pos h1]
  · rw [if_neg h1, if_neg h1, if_pos ⟨not_lt.1 h1, hd⟩]

/-- Every value of a rounded Python row. -/
theorem CloseVec.pyRow (h : CloseVec rcut rs τ ρ v w) (hd : lengthD flR v < rcut) (nz : ℕ) (a : Fin 4) :
    |envRowPyD flR rcut rs (nz, lengthD flR v, v) a - cEnvRow rcut rs w a|
      ≤ 32 * (unitOf rcut rs τ ρ * (1 / ρ)) := by
  rw [envRowPyD_envRowD hd]
  exact h.row a

/-- Every value of a rounded Python derivative block. -/
theorem CloseVec.pyDeriv (h : CloseVec rcut rs τ ρ v w) (hd : lengthD flR v < rcut) (nz : ℕ) (a : Fin 4)
    (b : Fin 3) :
    |derivBlockD flR rcut rs (nz, lengthD flR v, v) a b - (-cEnvDeriv rcut rs w) a b|
      ≤ 256 * (unitOf rcut rs τ ρ * (1 / ρ * (1 / (rcut - rs) + 1 / ρ))) := by
  obtain ⟨_, _, h3⟩ := h.length_pos
  have hη := h.unit
  have hp : 0 < rcut - rs := sub_pos.2 h.lt
  have hd' : Real.sqrt (w 0 ^ 2 + w 1 ^ 2 + w 2 ^ 2) = norm3 w := rfl
  have hq : cRecip (norm3 w) = 1 / norm3 w := by rw [cRecip_eq, one_div]
  have hS := h.switch
  rw [← vvD_switchD hd] at hS
  have hD := h.dvv hd
  have hQ := h.recip
  have hX := h.coord
  rw [Matrix.neg_apply]
  unfold derivBlockD cEnvDeriv
  simp only [hd', hq]
  set q := recipD flR (lengthD flR v)
  set S := vvD flR rcut rs (lengthD flR v)
  set D := dvvD flR rcut rs (lengthD flR v)
  set s := cSwitch rcut rs (norm3 w)
  set e := cSwitchDeriv rcut rs (norm3 w)
  set r := norm3 w with hr
  set η := unitOf rcut rs τ ρ
  clear_value q S D s e η
  have f1 : 1 / r ≤ 1 / ρ := one_div_le_one_div_of_le h.pos h.far
  have f0 : 0 < 1 / r := by positivity
  have fΔ : 0 < 1 / (rcut - rs) := by positivity
  have key : ∀ (M k y z z' : ℝ), AccE η M k y z → z = z' → M ≤ 3 * (1 / r * (1 / (rcut - rs) + 1 / r)) → k ≤ 85 →
      |y - z'| ≤ 256 * (η * (1 / ρ * (1 / (rcut - rs) + 1 / ρ))) := by
    intro M k y z z' hyz hz hM hk
    rw [← hz]
    have h1 := (hyz.up hη hk).wide hη hM
    refine le_trans h1.near ?_
    have h2 : 1 / r * (1 / (rcut - rs) + 1 / r) ≤ 1 / ρ * (1 / (rcut - rs) + 1 / ρ) :=
      mul_le_mul f1 (by linarith) (by positivity) (f0.le.trans f1)
    have h3 := mul_le_mul_of_nonneg_left h2 hη.pos.le
    have h4 : 0 ≤ η * (1 / r * (1 / (rcut - rs) + 1 / r)) := mul_nonneg hη.pos.le (by positivity)
    linarith
  have Q2 : AccE η (1 / r * (1 / r)) 11 (flR (q ^ 2)) ((1 / r) ^ 2) := by
    rw [sq q, sq (1 / r)]
    exact hQ.mr hη hQ (by norm_num) (by norm_num)
  have Q2' : AccE η (1 / r * (1 / r)) 10 (q * q) (1 / r * (1 / r)) := hQ.m hη hQ (by norm_num)
  have Q3' : AccE η (1 / r * (1 / r) * (1 / r)) 16 (q * q * q) (1 / r * (1 / r) * (1 / r)) := Q2'.m hη hQ (by norm_num)
  have Q3 : AccE η (1 / r * (1 / r) * (1 / r)) 18 (flR (q ^ 3)) ((1 / r) ^ 3) := by
    rw [pow_three' q, pow_three' (1 / r)]
    exact Q3'.r hη (by norm_num) (by norm_num)
  have Q4 : AccE η (1 / r * (1 / r) * (1 / r) * (1 / r)) 26 (flR (q ^ 4)) ((1 / r) ^ 4) := by
    have := Q3'.mr hη hQ (K := 26) (by norm_num) (by norm_num)
    have e1 : q * q * q * q = q ^ 4 := by ring
    have e2 : 1 / r * (1 / r) * (1 / r) * (1 / r) = (1 / r) ^ 4 := by ring
    rw [e1] at this
    nth_rewrite 2 [e2] at this
    exact this
  have two : AccE η 2 0 (2 : ℝ) 2 := ⟨nearE_self, by norm_num, le_rfl⟩
  have X2 : ∀ p, AccE η (r * r) 3 (flR (v p ^ 2)) (w p ^ 2) := by
    intro p
    have := (hX p).mr hη (hX p) (K := 3) (by norm_num) (by norm_num)
    rwa [← sq (v p), ← sq (w p)] at this
  have T : ∀ p p', AccE η (r * (1 / r * (1 / r)) * (2 / (rcut - rs)) * r * (1 / r)) 78
      (flR (flR (flR (flR (v p * flR (q ^ 2)) * D) * v p') * q)) (w p * (1 / r) ^ 2 * e * w p' * (1 / r)) := by
    intro p p'
    exact ((((hX p).mr hη Q2 (K := 13) (by norm_num) (by norm_num)).mr hη hD (K := 61) (by norm_num)
      (by norm_num)).mr hη (hX p') (K := 64) (by norm_num) (by norm_num)).mr hη hQ (K := 78) (by norm_num)
      (by norm_num)
  have E0 : ∀ p, |pyDerivD0 flR q S D (v p) - -((1 / r) ^ 2 * e * w p - (1 / r) ^ 3 * s * w p)|
      ≤ 256 * (η * (1 / ρ * (1 / (rcut - rs) + 1 / ρ))) := by
    intro p
    have t1 := ((hS.mr hη (hX p) (K := 12) (by norm_num) (by norm_num)).mr hη Q3 (K := 37) (by norm_num)
      (by norm_num)).up hη (K := 58) (by norm_num)
    have t2 := ((hQ.mr hη hD (K := 44) (by norm_num) (by norm_num)).mr hη (hX p) (K := 47) (by norm_num)
      (by norm_num)).mr hη hQ (K := 58) (by norm_num) (by norm_num)
    refine key _ _ _ _ _ (t1.sr hη t2 (K := 59) (by norm_num) (by norm_num)) (by ring) ?_ (by norm_num)
    have : 1 * r * (1 / r * (1 / r) * (1 / r)) + 1 / r * (2 / (rcut - rs)) * r * (1 / r)
        = 2 * (1 / r * (1 / (rcut - rs))) + 1 / r * (1 / r) := by field_simp; ring
    rw [this]
    nlinarith [mul_pos f0 fΔ, mul_pos f0 f0]
  have ED : ∀ p, |pyDerivDD flR q S D (v p)
      - -((1 / r) ^ 3 * e * w p ^ 2 + (1 / r) ^ 2 * s - 2 * (1 / r) ^ 4 * s * w p ^ 2)|
      ≤ 256 * (η * (1 / ρ * (1 / (rcut - rs) + 1 / ρ))) := by
    intro p
    have t1 := ((two.mr hη (X2 p) (K := 4) (by norm_num) (by norm_num)).mr hη Q4 (K := 34) (by norm_num)
      (by norm_num)).sr hη (Q2.up hη (K := 34) (by norm_num)) (K := 35) (by norm_num) (by norm_num)
    have t2 := (hS.mr hη t1 (K := 57) (by norm_num) (by norm_num)).up hη (K := 78) (by norm_num)
    refine key _ _ _ _ _ (t2.sr hη (T p p) (K := 79) (by norm_num) (by norm_num)) (by ring) ?_ (by norm_num)
    have : 1 * (2 * (r * r) * (1 / r * (1 / r) * (1 / r) * (1 / r)) + 1 / r * (1 / r))
        + r * (1 / r * (1 / r)) * (2 / (rcut - rs)) * r * (1 / r)
        = 2 * (1 / r * (1 / (rcut - rs))) + 3 * (1 / r * (1 / r)) := by field_simp; ring
    rw [this]
    nlinarith [mul_pos f0 fΔ, mul_pos f0 f0]
  have EO : ∀ (p p' a b : Fin 3), w p * w p' = w a * w b → |pyDerivDO flR q S D (v p) (v p') (v a) (v b)
      - -((1 / r) ^ 3 * e * w a * w b - 2 * (1 / r) ^ 4 * s * w a * w b)|
      ≤ 256 * (η * (1 / ρ * (1 / (rcut - rs) + 1 / ρ))) := by
    intro p p' a b hab
    have t1 := ((two.mr hη (hX p) (K := 2) (by norm_num) (by norm_num)).mr hη (hX p') (K := 4) (by norm_num)
      (by norm_num)).mr hη Q4 (K := 34) (by norm_num) (by norm_num)
    have t2 := (hS.mr hη t1 (K := 55) (by norm_num) (by norm_num)).up hη (K := 78) (by norm_num)
    refine key _ _ _ _ _ (t2.sr hη (T a b) (K := 79) (by norm_num) (by norm_num)) ?_ ?_ (by norm_num)
    · linear_combination (2 * s * (1 / r) ^ 4) * hab
    · have : 1 * (2 * r * r * (1 / r * (1 / r) * (1 / r) * (1 / r)))
          + r * (1 / r * (1 / r)) * (2 / (rcut - rs)) * r * (1 / r)
          = 2 * (1 / r * (1 / (rcut - rs))) + 2 * (1 / r * (1 / r)) := by field_simp; ring
      rw [this]
      nlinarith [mul_pos f0 fΔ, mul_pos f0 f0]
  fin_cases a <;> fin_cases b
  · exact E0 0
  · exact E0 1
  · exact E0 2
  · exact ED 0
  · exact EO 0 1 0 1 rfl
  · exact EO 0 2 0 2 rfl
  · exact EO 0 1 1 0 (mul_comm _ _)
  · exact ED 1
  · exact EO 1 2 1 2 rfl
  · exact EO 0 2 2 0 (mul_comm _ _)
  · exact EO 1 2 2 1 (mul_comm _ _)
  · exact ED 2

end

end MaterSDK
