import Verif.Lemmas.EnvStructureD

/-! # Helper lemmas for `Props/EnvMatrixD.lean` -/

namespace MaterSDK

open Classical

/-! ### A negative weight -/

/-- The weight for `rs = 1` and `rcut = 2` at rational distances between them. -/
def smoothQ (d : ℚ) : ℚ :=
  let w := fl (fl (d - 1) / fl (2 - 1))
  fl (fl (1 / d) * fl (fl (fl (w ^ 3) * fl (fl (fl (-6 * fl (w ^ 2)) + fl (15 * w)) - 10)) + 1))

theorem smoothD_cast (d : ℚ) (h1 : 1 ≤ d) (h2 : d < 2) : smoothD flR 2 1 (d : ℝ) = ((smoothQ d : ℚ) : ℝ) := by
  have h1' : (1 : ℝ) ≤ (d : ℝ) := by exact_mod_cast h1
  have h2' : (d : ℝ) < 2 := by exact_mod_cast h2
  have h0 : (d : ℝ) ≠ 0 := by linarith
  unfold smoothD
  simp only
  rw [if_neg (not_lt.2 h1'), if_pos ⟨h1', h2'⟩, if_neg h0]
  unfold smoothQ polyD scaledD
  simp only [← flR_cast, Rat.cast_mul, Rat.cast_add, Rat.cast_sub, Rat.cast_div, Rat.cast_pow, Rat.cast_one,
    Rat.cast_ofNat, Rat.cast_neg]

theorem smoothQ_neg : smoothQ (2 - 1 / 2 ^ 26) < 0 ∧ 0 < smoothQ (2 - 1 / 2 ^ 27) := by
  decide +kernel

theorem fl_near_two : fl (2 - 1 / 2 ^ 26) = 2 - 1 / 2 ^ 26 ∧ fl (2 - 1 / 2 ^ 27) = 2 - 1 / 2 ^ 27 := by
  decide +kernel

/-! ### The exact weight -/

theorem cSwitch_antitone {rcut rs : ℝ} (h : rs < rcut) : Antitone (cSwitch rcut rs) := by
  have hp : 0 < rcut - rs := sub_pos.2 h
  apply antitone_of_deriv_nonpos
  · exact fun u => (hasDerivAt_cSwitch h u).differentiableAt
  · intro u
    rw [(hasDerivAt_cSwitch h u).deriv, cSwitchDeriv_clamp h, dpoly_sq]
    have : 0 < 1 / (rcut - rs) := by positivity
    nlinarith [sq_nonneg (clamp01 ((u - rs) / (rcut - rs)) * (1 - clamp01 ((u - rs) / (rcut - rs))))]

theorem smoothWeight_anti {rcut rs d d' : ℝ} (h : rs < rcut) (hd : 0 < d) (hdd : d ≤ d') :
    0 ≤ smoothWeight rcut rs d' ∧ smoothWeight rcut rs d' ≤ smoothWeight rcut rs d := by
  rw [← cSmooth_weight, ← cSmooth_weight, cSmooth_eq, cSmooth_eq]
  have a := cSwitch_range h d'
  have b := cSwitch_antitone h hdd
  have c : d'⁻¹ ≤ d⁻¹ := inv_anti₀ hd hdd
  have e : 0 < d'⁻¹ := inv_pos.2 (hd.trans_le hdd)
  exact ⟨mul_nonneg e.le a.1, mul_le_mul c b a.1 (e.le.trans c)⟩

/-! ### The example cell -/

theorem exTyped_okD : CellOkD exL exTyped (fun _ => true) 3 := by
  have h := exL_okD _ (Or.inl rfl)
  refine ⟨exTyped_ok, h.rcut_pos, h.skew_le, h.scale_le, h.thick, ?_⟩
  intro a ha
  simp only [exTyped, List.mem_cons, List.not_mem_nil, or_false] at ha
  rcases ha with rfl | rfl
  · exact h.room (3, ![0, 0, 0]) (by simp [exAtoms])
  · exact h.room (8, ![2, 1, 1]) (by simp [exAtoms])

theorem exTyped_double : ∀ a ∈ exTyped, ∀ p, flR (a.2 p) = a.2 p := by
  intro a ha
  simp only [exTyped, List.mem_cons, List.not_mem_nil, or_false] at ha
  rcases ha with rfl | rfl
  · exact exAtoms_double (3, ![0, 0, 0]) (by simp [exAtoms])
  · exact exAtoms_double (8, ![2, 1, 1]) (by simp [exAtoms])

theorem exTyped_far : FarImages exL (exTyped.map Prod.snd) 1 := by
  intro i j p q t hi hj hne
  have h := exL_far i j p q t hi hj hne
  have hn : 0 ≤ dist3 (imagePos exL q t) p := Real.sqrt_nonneg _
  nlinarith

theorem exTyped_types : ∀ a ∈ exTyped, 0 ≤ a.1 ∧ a.1 < ([2, 2] : List ℕ).length := by
  intro a ha
  simp only [exTyped, List.mem_cons, List.not_mem_nil, or_false] at ha
  rcases ha with rfl | rfl <;> simp

theorem exTyped_roomD : ∀ (i : ℕ) (c : ℤ × Vec ℝ), exTyped[i]? = some c → ∀ (t m : ℕ),
    ([2, 2] : List ℕ)[t]? = some m → ∀ l : List (ℕ × (Fin 3 → ℤ)), l.Nodup →
      (∀ e ∈ l, NearBy exL (fun _ => true) (exTyped.map Prod.snd) (3 + nbrTol exL 3) c.2 e ∧
        e ≠ (i, 0) ∧ (exTyped[e.1]?).map Prod.fst = some (t : ℤ)) → l.length ≤ m := by
  intro i c hc t m hm l hl h
  have hm2 : m = 2 := by
    rcases t with _ | _ | t <;> simp at hm <;> exact hm.symm
  subst hm2
  obtain ⟨a, b⟩ := exL_tol
  have b' : nbrTol exL 3 ≤ 1 / 10 := b.trans (by norm_num)
  exact (hl.subperm (fun e he => exTyped_near_root (by linarith) (by nlinarith) i c hc e (h e he).1
    (h e he).2.1)).length_le

theorem exTyped_tol : 64 * nbrTol exL 3 ≤ 1 := by
  have := exL_tol.2
  norm_num at this
  linarith

theorem exTyped_envTol : envTol exL 3 1 1 ≤ 1 / 10 ^ 9 ∧ envDerivTol exL 3 1 1 ≤ 1 / 10 ^ 8 := by
  have := exL_tol.2
  unfold envTol envDerivTol
  norm_num at this ⊢
  constructor <;> linarith

end MaterSDK
