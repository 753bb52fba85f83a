import Verif.Model.Se4pwD
import Verif.Lemmas.EnvMatrixDRow
import Verif.Lemmas.Se4pwEnv

/-! # `Se4pw` in doubles, for C220 -/

namespace MaterSDK

open Classical

theorem se4pwDerivD_id (rcut rs : ℝ) (v : Vec ℝ) : se4pwDerivD id rcut rs v = cSe4pwDeriv rcut rs v := by
  unfold se4pwDerivD cSe4pwDeriv
  simp only [switchD_id, switchDerivD_id, seD0, seDD, seDO, id]
  rfl

theorem se4pwGenerateD_id (p : SlotIn) (ilist : List ℤ) (x : List ℝ) (rcut rs : ℝ) :
    se4pwGenerateD id p ilist x rcut rs = se4pwGenerate p ilist x rcut rs := by
  unfold se4pwGenerateD se4pwGenerate
  simp only [envRowD_id, se4pwDerivD_id, id]

section

variable {rcut rs τ ρ : ℝ} {v w : Vec ℝ}

/-- Every value of a rounded derivative block. -/
theorem CloseVec.seDeriv (h : CloseVec rcut rs τ ρ v w) (a : Fin 4) (b : Fin 3) :
    |se4pwDerivD flR rcut rs v a b - cSe4pwDeriv rcut rs w a b|
      ≤ 256 * (unitOf rcut rs τ ρ * (1 / ρ * (1 / (rcut - rs) + 1 / ρ))) := by
  obtain ⟨_, _, h3⟩ := h.length_pos
  have hη := h.unit
  have hp : 0 < rcut - rs := sub_pos.2 h.lt
  have hd : Real.sqrt (w 0 ^ 2 + w 1 ^ 2 + w 2 ^ 2) = norm3 w := rfl
  have hq : cRecip (norm3 w) = 1 / norm3 w := by rw [cRecip_eq, one_div]
  have hS := h.switch
  have hD := h.switchDeriv
  have hQ := h.recip
  have hX := h.coord
  unfold se4pwDerivD cSe4pwDeriv
  simp only [hd, hq]
  set q := recipD flR (lengthD flR v)
  set S := switchD flR rcut rs (lengthD flR v)
  set D := switchDerivD flR rcut rs (lengthD flR v)
  set s := cSwitch rcut rs (norm3 w)
  set e := cSwitchDeriv rcut rs (norm3 w)
  set r := norm3 w with hr
  set η := unitOf rcut rs τ ρ
  clear_value q S D s e η
  have f1 : 1 / r ≤ 1 / ρ := one_div_le_one_div_of_le h.pos h.far
  have f0 : 0 < 1 / r := by positivity
  have fΔ : 0 < 1 / (rcut - rs) := by positivity
  have key : ∀ (M k y z : ℝ), AccE η M k y z → M ≤ 3 * (1 / r * (1 / (rcut - rs) + 1 / r)) → k ≤ 85 →
      |y - z| ≤ 256 * (η * (1 / ρ * (1 / (rcut - rs) + 1 / ρ))) := by
    intro M k y z hyz hM hk
    have h1 := (hyz.up hη hk).wide hη hM
    refine le_trans h1.near ?_
    have h2 : 1 / r * (1 / (rcut - rs) + 1 / r) ≤ 1 / ρ * (1 / (rcut - rs) + 1 / ρ) :=
      mul_le_mul f1 (by linarith) (by positivity) (f0.le.trans f1)
    have h3 := mul_le_mul_of_nonneg_left h2 hη.pos.le
    have h4 : 0 ≤ η * (1 / r * (1 / (rcut - rs) + 1 / r)) := mul_nonneg hη.pos.le (by positivity)
    linarith
  have Q2 : AccE η (1 / r * (1 / r)) 11 (flR (q ^ 2)) ((1 / r) ^ 2) := by
    rw [sq q, sq (1 / r)]
    exact hQ.mr hη hQ (by norm_num) (by norm_num)
  have Q2' : AccE η (1 / r * (1 / r)) 10 (q * q) (1 / r * (1 / r)) := hQ.m hη hQ (by norm_num)
  have Q3' : AccE η (1 / r * (1 / r) * (1 / r)) 16 (q * q * q) (1 / r * (1 / r) * (1 / r)) := Q2'.m hη hQ (by norm_num)
  have Q3 : AccE η (1 / r * (1 / r) * (1 / r)) 18 (flR (q ^ 3)) ((1 / r) ^ 3) := by
    rw [pow_three' q, pow_three' (1 / r)]
    exact Q3'.r hη (by norm_num) (by norm_num)
  have Q4 : AccE η (1 / r * (1 / r) * (1 / r) * (1 / r)) 26 (flR (q ^ 4)) ((1 / r) ^ 4) := by
    have := Q3'.mr hη hQ (K := 26) (by norm_num) (by norm_num)
    have e1 : q * q * q * q = q ^ 4 := by ring
    have e2 : 1 / r * (1 / r) * (1 / r) * (1 / r) = (1 / r) ^ 4 := by ring
    rw [e1] at this
    nth_rewrite 2 [e2] at this
    exact this
  have two : AccE η 2 0 (2 : ℝ) 2 := ⟨nearE_self, by norm_num, le_rfl⟩
  have X2 : ∀ p, AccE η (r * r) 3 (flR (v p ^ 2)) (w p ^ 2) := by
    intro p
    have := (hX p).mr hη (hX p) (K := 3) (by norm_num) (by norm_num)
    rwa [← sq (v p), ← sq (w p)] at this
  have E0 : ∀ p, |seD0 flR q S D (v p) - (s * w p * (1 / r) ^ 3 - e * w p * (1 / r) ^ 2)|
      ≤ 256 * (η * (1 / ρ * (1 / (rcut - rs) + 1 / ρ))) := by
    intro p
    have t1 := ((hS.mr hη (hX p) (K := 12) (by norm_num) (by norm_num)).mr hη Q3 (K := 37) (by norm_num)
      (by norm_num)).up hη (K := 61) (by norm_num)
    have t2 := (hD.mr hη (hX p) (K := 37) (by norm_num) (by norm_num)).mr hη Q2 (K := 61) (by norm_num) (by norm_num)
    refine key _ _ _ _ (t1.sr hη t2 (K := 62) (by norm_num) (by norm_num)) ?_ (by norm_num)
    have : 1 * r * (1 / r * (1 / r) * (1 / r)) + 2 / (rcut - rs) * r * (1 / r * (1 / r))
        = 2 * (1 / r * (1 / (rcut - rs))) + 1 / r * (1 / r) := by field_simp; ring
    rw [this]
    nlinarith [mul_pos f0 fΔ, mul_pos f0 f0]
  have ED : ∀ p, |seDD flR q S D (v p)
      - (2 * w p ^ 2 * s * (1 / r) ^ 4 - s * (1 / r) ^ 2 - w p ^ 2 * (1 / r) ^ 3 * e)|
      ≤ 256 * (η * (1 / ρ * (1 / (rcut - rs) + 1 / ρ))) := by
    intro p
    have t1 := ((two.mr hη (X2 p) (K := 4) (by norm_num) (by norm_num)).mr hη hS (K := 16) (by norm_num)
      (by norm_num)).mr hη Q4 (K := 56) (by norm_num) (by norm_num)
    have t2 := (hS.mr hη Q2 (K := 25) (by norm_num) (by norm_num)).up hη (K := 56) (by norm_num)
    have t3 := ((X2 p).mr hη Q3 (K := 23) (by norm_num) (by norm_num)).mr hη hD (K := 82) (by norm_num)
      (by norm_num)
    refine key _ _ _ _ (((t1.sr hη t2 (K := 57) (by norm_num) (by norm_num)).up hη (K := 82) (by norm_num)).sr hη t3
      (K := 83) (by norm_num) (by norm_num)) ?_ (by norm_num)
    have : 2 * (r * r) * 1 * (1 / r * (1 / r) * (1 / r) * (1 / r)) + 1 * (1 / r * (1 / r))
        + r * r * (1 / r * (1 / r) * (1 / r)) * (2 / (rcut - rs))
        = 2 * (1 / r * (1 / (rcut - rs))) + 3 * (1 / r * (1 / r)) := by field_simp; ring
    rw [this]
    nlinarith [mul_pos f0 fΔ, mul_pos f0 f0]
  have EO : ∀ p p', |seDO flR q S D (v p) (v p')
      - (2 * w p * w p' * s * (1 / r) ^ 4 - w p * w p' * (1 / r) ^ 3 * e)|
      ≤ 256 * (η * (1 / ρ * (1 / (rcut - rs) + 1 / ρ))) := by
    intro p p'
    have t1 := ((((two.mr hη (hX p) (K := 2) (by norm_num) (by norm_num)).mr hη (hX p') (K := 4) (by norm_num)
      (by norm_num)).mr hη hS (K := 16) (by norm_num) (by norm_num)).mr hη Q4 (K := 56) (by norm_num)
      (by norm_num)).up hη (K := 82) (by norm_num)
    have t3 := (((hX p).mr hη (hX p') (K := 3) (by norm_num) (by norm_num)).mr hη Q3 (K := 23) (by norm_num)
      (by norm_num)).mr hη hD (K := 82) (by norm_num) (by norm_num)
    refine key _ _ _ _ (t1.sr hη t3 (K := 83) (by norm_num) (by norm_num)) ?_ (by norm_num)
    have : 2 * r * r * 1 * (1 / r * (1 / r) * (1 / r) * (1 / r))
        + r * r * (1 / r * (1 / r) * (1 / r)) * (2 / (rcut - rs))
        = 2 * (1 / r * (1 / (rcut - rs))) + 2 * (1 / r * (1 / r)) := by field_simp; ring
    rw [this]
    nlinarith [mul_pos f0 fΔ, mul_pos f0 f0]
  fin_cases a <;> fin_cases b
  · exact E0 0
  · exact E0 1
  · exact E0 2
  · exact ED 0
  · exact EO 0 1
  · exact EO 0 2
  · exact EO 1 0
  · exact ED 1
  · exact EO 1 2
  · exact EO 2 0
  · exact EO 2 1
  · exact ED 2

end

/-! ## The loop keeps what holds for all values -/

theorem foldlM_inv {σ ι : Type} (I : σ → Prop) (step : σ → ι → Except CErr σ) (l : List ι)
    (h : ∀ a ∈ l, ∀ s s', I s → step s a = .ok s' → I s') (s s' : σ) (h0 : I s) (hr : l.foldlM step s = .ok s') :
    I s' := by
  induction l generalizing s with
  | nil => cases hr; exact h0
  | cons a l ih =>
    rw [List.foldlM_cons, bind_eq_ok] at hr
    obtain ⟨t, h1, h2⟩ := hr
    exact ih (fun b hb => h b (by simp [hb])) t (h a (by simp) s t h0 h1) h2

theorem slotFill_forall {α β : Type} (p : SlotIn) (P : α → Prop) (zero : α) (hz : P zero)
    (centre : ℕ → Except CErr β) (val : β → ℤ → ℤ → Except CErr α)
    (h : ∀ ii : ℕ, (ii : ℤ) < p.inum → ∀ c, centre ii = .ok c →
      ∀ m, cGet p.numneigh (ii : ℤ) = .ok m → ∀ jj : ℕ, (jj : ℤ) < m → ∀ nb t,
        cGet p.firstneigh (ii * p.width + jj) = .ok nb → cGet p.types nb = .ok t →
          ∀ a, val c (ii * p.width + jj) nb = .ok a → P a)
    (out : List α) (hr : slotFill p zero centre val = .ok out) : ∀ a ∈ out, P a := by
  unfold slotFill at hr
  split_ifs at hr with hneg
  refine foldlM_inv (fun o : List α => ∀ a ∈ o, P a) _ _ ?_ _ _ ?_ hr
  · intro ii hii o o' ho hs
    rw [List.mem_range] at hii
    rw [bind_eq_ok] at hs
    obtain ⟨c, hc, hs⟩ := hs
    rw [bind_eq_ok] at hs
    obtain ⟨m, hm, hs⟩ := hs
    rw [bind_eq_ok] at hs
    obtain ⟨st, hst, hs⟩ := hs
    cases hs
    refine foldlM_inv (fun s : List α × List ℤ => ∀ a ∈ s.1, P a) _ _ ?_ _ _ ?_ hst
    · intro jj hjj s s' hs hstep
      rw [List.mem_range] at hjj
      unfold slotStep at hstep
      rw [bind_eq_ok] at hstep
      obtain ⟨nb, hnb, hstep⟩ := hstep
      rw [bind_eq_ok] at hstep
      obtain ⟨t, ht, hstep⟩ := hstep
      rw [bind_eq_ok] at hstep
      obtain ⟨a, ha, hstep⟩ := hstep
      rw [bind_eq_ok] at hstep
      obtain ⟨start, _, hstep⟩ := hstep
      rw [bind_eq_ok] at hstep
      obtain ⟨k, _, hstep⟩ := hstep
      rw [bind_eq_ok] at hstep
      obtain ⟨o1, ho1, hstep⟩ := hstep
      rw [bind_eq_ok] at hstep
      obtain ⟨nl, _, hstep⟩ := hstep
      cases hstep
      have hPa := h ii (by omega) c hc m hm jj (by omega) nb t hnb ht a ha
      intro b hb
      unfold cSet at ho1
      split_ifs at ho1
      cases ho1
      rcases List.mem_or_eq_of_mem_set hb with hb | rfl
      · exact hs b hb
      · exact hPa
    · exact ho
  · intro a ha
    rw [List.mem_replicate] at ha
    rw [ha.2]
    exact hz

end MaterSDK
