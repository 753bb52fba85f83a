import Verif.Lemmas.CellListGeom
import Verif.Model.CellLimits
import Verif.Spec.CellLimits

/-! # Box, widths and plane distances of a C++ structure -/

namespace MaterSDK

open Classical Matrix

theorem foldl_maxGt_neg {α : Type} (f : α → ℝ) (vs : List α) (m : ℝ) :
    vs.foldl (fun m w => if f w > m then f w else m) m =
      -(vs.foldl (fun m w => if -f w < m then -f w else m) (-m)) := by
  induction vs generalizing m with
  | nil => simp
  | cons v vs ih =>
    simp only [List.foldl_cons]
    rw [ih]
    congr 2
    by_cases h : f v > m
    · rw [if_pos h, if_pos (by linarith)]
    · rw [if_neg h, if_neg (by linarith)]

theorem maxLimit_spec (s : CStruct) (p : Fin 3) :
    (∀ w ∈ s.vertexes, w p ≤ s.maxLimit p) ∧ ∃ w ∈ s.vertexes, s.maxLimit p = w p := by
  unfold CStruct.maxLimit
  cases h : s.vertexes with
  | nil => exact absurd h (vertexes_ne_nil s)
  | cons v vs =>
    simp only
    rw [foldl_maxGt_neg (fun w : Vec ℝ => w p) vs (v p)]
    obtain ⟨h1, h2, h3⟩ := foldl_minLt_spec (fun w : Vec ℝ => -w p) vs (-v p)
    refine ⟨?_, ?_⟩
    · intro w hw
      rcases List.mem_cons.1 hw with rfl | hw
      · linarith
      · have := h2 w hw
        linarith
    · rcases h3 with h3 | ⟨w, hw, h3⟩
      · exact ⟨v, by simp, by rw [h3]; simp⟩
      · exact ⟨w, by simp [hw], by rw [h3]; simp⟩

theorem vertex_point {s : CStruct} {w : Vec ℝ} (h : w ∈ s.vertexes) : CellPoint s w := by
  unfold CStruct.vertexes at h
  obtain ⟨t, ht, rfl⟩ := List.mem_map.1 h
  rw [mem_cRange3] at ht
  refine ⟨fun i => (t i : ℝ), fun i => ?_, fun p => ?_⟩
  · obtain ⟨a, b⟩ := ht i
    exact ⟨Int.cast_nonneg a, by simpa using (Int.cast_le (R := ℝ)).2 b⟩
  · simp [Fin.sum_univ_three]

theorem maxLimit_eq (s : CStruct) (p : Fin 3) :
    s.maxLimit p = s.origin p + ∑ i, max 0 (s.basis i p) := by
  obtain ⟨h1, w, hw, h2⟩ := maxLimit_spec s p
  apply le_antisymm
  · rw [h2]
    obtain ⟨u, hu, hx⟩ := vertex_point hw
    rw [hx]
    have : ∑ i, u i * s.basis i p ≤ ∑ i, max 0 (s.basis i p) := by
      refine Finset.sum_le_sum (fun i _ => ?_)
      rcases le_total 0 (s.basis i p) with h | h
      · rw [max_eq_right h]; nlinarith [hu i]
      · rw [max_eq_left h]; nlinarith [hu i]
    linarith
  · have hm : (fun q => s.origin q + (((if 0 < s.basis 0 p then 1 else 0 : ℤ) : ℝ) * s.basis 0 q +
        ((if 0 < s.basis 1 p then 1 else 0 : ℤ) : ℝ) * s.basis 1 q +
        ((if 0 < s.basis 2 p then 1 else 0 : ℤ) : ℝ) * s.basis 2 q)) ∈ s.vertexes := by
      unfold CStruct.vertexes
      rw [List.mem_map]
      refine ⟨![if 0 < s.basis 0 p then 1 else 0, if 0 < s.basis 1 p then 1 else 0,
        if 0 < s.basis 2 p then 1 else 0], ?_, ?_⟩
      · rw [mem_cRange3]
        intro q
        fin_cases q <;> simp <;> split_ifs <;> simp
      · rfl
    refine le_trans (le_of_eq ?_) (h1 _ hm)
    have key : ∀ x : ℝ, ((if 0 < x then 1 else 0 : ℤ) : ℝ) * x = max 0 x := by
      intro x
      by_cases hx : 0 < x
      · simp [hx, le_of_lt hx]
      · simp [hx, not_lt.1 hx]
    simp only [key, Fin.sum_univ_three]

/-- The foot of the perpendicular from the origin to the plane. -/
theorem plane_foot (L : Matrix (Fin 3) (Fin 3) ℝ) (hL : L.det ≠ 0) (i : Fin 3) :
    ∃ c : Fin 3 → ℝ, c i = 1 ∧ dist3 (∑ k, c k • L k) 0 = planeDist L i := by
  set N := crossProduct (L (i + 1)) (L (i + 2)) with hN
  have hNN : 0 < dist3 N 0 := by
    have h := (coeff_bound L hL 0 i).1
    unfold planeDist at h
    rw [← hN] at h
    rcases (dist3_nonneg N 0).lt_or_eq with h' | h'
    · exact h'
    · rw [← h'] at h; simp at h
  have hsq : dist3 N 0 ^ 2 = ∑ k, N k ^ 2 := by
    unfold dist3
    rw [Real.sq_sqrt (Finset.sum_nonneg (fun _ _ => sq_nonneg _))]
    simp
  set a : ℝ := L.det / dist3 N 0 ^ 2 with ha
  obtain ⟨c, hc⟩ : ∃ c : Fin 3 → ℝ, ∑ k, c k • L k = a • N := by
    refine ⟨Matrix.vecMul (a • N) L⁻¹, ?_⟩
    have : Matrix.vecMul (Matrix.vecMul (a • N) L⁻¹) L = a • N := by
      rw [Matrix.vecMul_vecMul, Matrix.nonsing_inv_mul _ (isUnit_iff_ne_zero.2 hL), Matrix.vecMul_one]
    rw [← this]
    funext p
    conv_rhs => rw [Matrix.vecMul]
    simp [dotProduct, Finset.sum_apply, this]
  have h1 := cross_dot L c i
  rw [hc, ← hN] at h1
  have h2 : ∑ j, (a • N) j * N j = L.det := by
    have : ∑ j, (a • N) j * N j = a * dist3 N 0 ^ 2 := by
      rw [hsq, Finset.mul_sum]
      exact Finset.sum_congr rfl (fun j _ => by simp only [Pi.smul_apply, smul_eq_mul]; ring)
    rw [this, ha, div_mul_cancel₀ _ (pow_ne_zero 2 hNN.ne')]
  rw [h2] at h1
  refine ⟨c, ?_, ?_⟩
  · have : (1 - c i) * L.det = 0 := by linarith
    rcases mul_eq_zero.1 this with h | h
    · linarith
    · exact absurd h hL
  · rw [hc]
    have h3 : dist3 (a • N) 0 = |a| * dist3 N 0 := by
      have : dist3 (a • N) 0 = Real.sqrt (a ^ 2 * ∑ k, N k ^ 2) := by
        unfold dist3
        congr 1
        rw [Finset.mul_sum]
        exact Finset.sum_congr rfl (fun j _ => by
          simp only [Pi.smul_apply, smul_eq_mul, Pi.zero_apply]; ring)
      rw [this, Real.sqrt_mul (sq_nonneg a), Real.sqrt_sq_eq_abs, ← hsq, Real.sqrt_sq hNN.le]
    rw [h3, ha, abs_div, abs_of_nonneg (sq_nonneg (dist3 N 0))]
    unfold planeDist
    rw [← hN]
    field_simp

theorem dist3_smul_zero (a : ℝ) (v : Vec ℝ) : dist3 (a • v) 0 = |a| * dist3 v 0 := by
  have : dist3 (a • v) 0 = Real.sqrt (a ^ 2 * ∑ k, (v k - (0 : Vec ℝ) k) ^ 2) := by
    unfold dist3
    congr 1
    rw [Finset.mul_sum]
    exact Finset.sum_congr rfl (fun j _ => by simp only [Pi.smul_apply, smul_eq_mul, Pi.zero_apply]; ring)
  rw [this, Real.sqrt_mul (sq_nonneg a), Real.sqrt_sq_eq_abs]
  rfl

theorem planeDist_scale (L : Fin 3 → Vec ℝ) (k : Fin 3 → ℝ) (hk : ∀ i, 0 < k i) (i : Fin 3) :
    planeDist (Matrix.of (fun j p => L j p * k j)) i = k i * planeDist (Matrix.of L) i := by
  have hdet : (Matrix.of (fun j p => L j p * k j) : Matrix (Fin 3) (Fin 3) ℝ).det
      = (k i * k (i + 1) * k (i + 2)) * (Matrix.of L : Matrix (Fin 3) (Fin 3) ℝ).det := by
    fin_cases i <;> simp [Matrix.det_fin_three] <;> ring
  have hcross : crossProduct ((Matrix.of (fun j p => L j p * k j) : Matrix (Fin 3) (Fin 3) ℝ) (i + 1))
      ((Matrix.of (fun j p => L j p * k j) : Matrix (Fin 3) (Fin 3) ℝ) (i + 2))
      = (k (i + 1) * k (i + 2)) • crossProduct ((Matrix.of L : Matrix (Fin 3) (Fin 3) ℝ) (i + 1))
        ((Matrix.of L : Matrix (Fin 3) (Fin 3) ℝ) (i + 2)) := by
    funext p
    fin_cases p <;> simp [cross_apply] <;> ring
  unfold planeDist
  rw [hdet, hcross, dist3_smul_zero, abs_mul]
  have h0 := hk i
  have h1 := hk (i + 1)
  have h2 := hk (i + 2)
  rw [abs_of_pos (by positivity : 0 < k i * k (i + 1) * k (i + 2)), abs_of_pos (mul_pos h1 h2)]
  generalize dist3 _ 0 = D
  by_cases hD : D = 0
  · simp [hD]
  · field_simp

end MaterSDK
