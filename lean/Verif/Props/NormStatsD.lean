import Verif.Lemmas.NormStatsD
import Verif.Spec.NormStatsD

/-!
# C223: averages and deviations of the normaliser in doubles

`A : NpSum flR` is any order of the additions in `np.sum`.
-/

namespace MaterSDK

/-- C223, the average: for any order of the additions, the average of the weights differs from their mean by at most
`19 · 2⁻⁵³` times the sum of their absolute values, the other three averages are zero. -/
theorem C223_average (A : NpSum flR) (rows : List (Fin 4 → ℝ)) (hlen : rows.length ≤ 2 ^ 45) :
    |(calcPairStatsD flR A rows).davg 0 - mean (rows.map (fun v => v 0))| ≤
      19 * (2 ^ (-53 : ℤ) * (rows.map (fun v => |v 0|)).sum) ∧
    ∀ q, q ≠ 0 → (calcPairStatsD flR A rows).davg q = 0 := by
  refine ⟨?_, fun q hq => ?_⟩
  · have e0 : (calcPairStatsD flR A rows).davg 0 =
        flR (A.run (rows.map (fun v => v 0)) / flR (((rows.map (fun v => v 0)).length : ℕ) + flR (1 / 10 ^ 15))) := rfl
    have e1 : (rows.map (fun v => |v 0|)).sum = ((rows.map (fun v => v 0)).map (fun x => |x|)).sum := by
      rw [List.map_map]; rfl
    rw [e0, e1]
    exact davg_err A (rows.map (fun v => v 0)) (by simpa using hlen)
  · fin_cases q
    · exact absurd rfl hq
    all_goals rfl

/-- C223, the deviation: if the variance of the samples is at least `176 n 2⁻⁵³` times their mean square, the deviation
is a number for every order of the additions, not below the double next to 1e-2, and close to the larger one of the
root of the variance and 1e-2. -/
theorem C223_deviation (A : NpSum flR) (rows : List (Fin 4 → ℝ)) (hne : rows ≠ []) (hlen : rows.length ≤ 2 ^ 45)
    (q : Fin 4)
    (hv : 176 * (rows.length * 2 ^ (-53 : ℤ)) * meanSq (compSamples rows q) ≤
      meanSq (compSamples rows q) - mean (compSamples rows q) ^ 2) :
    ∃ σ, (calcPairStatsD flR A rows).dstd q = some σ ∧ flR (1 / 100) ≤ σ ∧
      |σ - max (Real.sqrt (meanSq (compSamples rows q) - mean (compSamples rows q) ^ 2)) (1 / 100)| ≤
        9616 * (rows.length * 2 ^ (-53 : ℤ)) * meanSq (compSamples rows q) +
        2 ^ (-53 : ℤ) *
          max (Real.sqrt (meanSq (compSamples rows q) - mean (compSamples rows q) ^ 2)) (1 / 100) := by
  have hn0 : rows.length ≠ 0 := fun h => hne (List.length_eq_zero_iff.1 h)
  have esq : ∀ xs : List ℝ, meanSq xs = (xs.map (fun x => x * x)).sum / xs.length := by
    intro xs
    unfold meanSq
    simp only [sq]
  have eu : (2 : ℝ) ^ (-53 : ℤ) = uR := rfl
  rw [eu] at hv ⊢
  rw [esq] at hv ⊢
  have r1 : ∀ x : ℝ, 176 * (rows.length * uR) * x = 11 * (16 * (rows.length * uR) * x) := by intro x; ring
  have r2 : ∀ x : ℝ, 9616 * (rows.length * uR) * x = 601 * (16 * (rows.length * uR) * x) := by intro x; ring
  rw [r1] at hv
  rw [r2]
  unfold mean at hv ⊢
  by_cases hq : q = 0
  · subst hq
    have ec : compSamples rows 0 = rows.map (fun v => v 0) := rfl
    rw [ec] at hv ⊢
    obtain ⟨g1, g2, g3, g4⟩ := radius_sums A (rows.map (fun v => v 0)) (by simpa using hn0) (by simpa using hlen)
    rw [List.length_map] at hv g1 g2 g3 g4 ⊢
    rw [← div_one (A.run ((rows.map (fun v => v 0)).map (fun x => flR (x * x)))),
      ← div_one ((rows.map (fun v => v 0)).map (fun x => x * x)).sum] at g3
    rw [← div_one (rows.map (fun v => v 0)).sum, ← div_one ((rows.map (fun v => v 0)).map (fun x => |x|)).sum] at g4
    obtain ⟨σ, s1, s2⟩ := samples_std (c := 1) (List.length_map _) hn0 hn0 one_pos (by rw [one_mul]) g1 g2 g3 g4 hv
    rw [div_one] at s1
    refine ⟨σ, ?_, s2⟩
    rw [← s1]
    show calcStdD flR _ _ (rows.map (fun v => v 0)).length = _
    rw [List.length_map]
  · have ec : compSamples rows q = rows.flatMap (fun v => [v 1, v 2, v 3]) := if_neg hq
    rw [ec] at hv ⊢
    have el : (rows.flatMap (fun v => [v 1, v 2, v 3])).length = 3 * rows.length := flatMap_three rows
    obtain ⟨g1, g2, g3, g4⟩ := angle_sums A (rows.flatMap (fun v => [v 1, v 2, v 3])) el hn0 hlen
    rw [el] at hv ⊢
    obtain ⟨σ, s1, s2⟩ := samples_std (c := 3) el hn0 (by omega) (by norm_num) (by push_cast; ring) g1 g2 g3 g4 hv
    refine ⟨σ, ?_, s2⟩
    rw [← s1]
    have : (calcPairStatsD flR A rows).dstd q =
        calcStdD flR (flR (A.run ((rows.flatMap (fun v => [v 1, v 2, v 3])).map (fun x => flR (x * x))) / 3))
          (flR (A.run (rows.flatMap (fun v => [v 1, v 2, v 3])) / 3)) (rows.map (fun v => v 0)).length := by
      fin_cases q
      · exact absurd rfl hq
      all_goals rfl
    rw [this, List.length_map]

/-- C223, the floor: whatever the rows, a deviation that is a number is not below the double next to 1e-2, so that
`normalize` never divides by zero. -/
theorem C223_floor (A : NpSum flR) (rows : List (Fin 4 → ℝ)) (q : Fin 4) (σ : ℝ)
    (h : (calcPairStatsD flR A rows).dstd q = some σ) : flR (1 / 100) ≤ σ ∧ 1 / 101 < σ := by
  have key : flR (1 / 100) ≤ σ := by
    fin_cases q <;> exact calcStdD_floor h
  refine ⟨key, ?_⟩
  have h1 := abs_le.1 (flR_err (1 / 100))
  have h2 : |(1 / 100 : ℝ)| * uR ≤ 1 / 10 ^ 6 := by
    rw [abs_of_pos (by norm_num), uR_eq]
    norm_num
  have h3 : (1 : ℝ) / 101 < 1 / 100 - 1 / 10 ^ 6 := by norm_num
  linarith [h1.1]

/-- C223, no samples: the deviations are the double next to 1e-2. -/
theorem C223_no_samples (A : NpSum flR) (q : Fin 4) : (calcPairStatsD flR A []).dstd q = some (flR (1 / 100)) := by
  fin_cases q <;> simp [calcPairStatsD, calcStdD]

/-- C223, the limit: for three equal weights 0.1 (variance zero), added from left to right, the deviation is not a
number. -/
theorem C223_violated_constant : ∃ t : ℝ, flR t = t ∧
    (calcPairStatsD flR leftSum [![t, 0, 0, 0], ![t, 0, 0, 0], ![t, 0, 0, 0]]).dstd 0 = none := by
  refine ⟨((fl (1 / 10) : ℚ) : ℝ), ?_, ?_⟩
  · rw [flR_cast]
    norm_cast
    decide +kernel
  · exact tenth_nan

/-- The hypothesis of `C223_deviation`: weights 0 and 2, angular entries 1 and -1. -/
example : let rows : List (Fin 4 → ℝ) := [fun q => if q = 0 then 0 else 1, fun q => if q = 0 then 2 else -1]
    ∀ q, 176 * (rows.length * 2 ^ (-53 : ℤ)) * meanSq (compSamples rows q) ≤
      meanSq (compSamples rows q) - mean (compSamples rows q) ^ 2 := by
  intro rows q
  rw [zpow_neg]
  have h2 : (2 : Fin 4) ≠ 0 := by decide
  have h3 : (3 : Fin 4) ≠ 0 := by decide
  fin_cases q <;> norm_num [rows, compSamples, meanSq, mean, h2, h3]

end MaterSDK
