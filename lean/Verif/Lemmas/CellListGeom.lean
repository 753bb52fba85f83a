import Verif.Lemmas.CellList
import Verif.Lemmas.NeighAux
import Mathlib.LinearAlgebra.Matrix.NonsingularInverse

/-! # Geometry of the C++ supercell and its bins -/

namespace MaterSDK

open Classical Matrix

/-! ## Replica ranges -/

theorem superLo_eq {n : ℤ} (h : 0 < n) :
    superLo n = if n % 2 = 0 then -(n / 2) + 1 else -((n - 1) / 2) := by
  unfold superLo
  rw [Int.tmod_eq_emod_of_nonneg h.le, Int.neg_tdiv, Int.neg_tdiv, Int.tdiv_eq_ediv_of_nonneg h.le,
    Int.tdiv_eq_ediv_of_nonneg (by omega)]

theorem superHi_eq {n : ℤ} (h : 0 < n) :
    superHi n = if n % 2 = 0 then n / 2 else (n - 1) / 2 := by
  unfold superHi
  rw [Int.tmod_eq_emod_of_nonneg h.le, Int.tdiv_eq_ediv_of_nonneg h.le,
    Int.tdiv_eq_ediv_of_nonneg (by omega)]

theorem superLo_odd (m : ℕ) : superLo (2 * (m : ℤ) + 1) = -m := by
  rw [superLo_eq (by omega), if_neg (by omega)]
  omega

theorem superHi_odd (m : ℕ) : superHi (2 * (m : ℤ) + 1) = m := by
  rw [superHi_eq (by omega), if_neg (by omega)]
  omega

theorem super_range {n : ℤ} (h : 0 < n) :
    superLo n ≤ 0 ∧ 0 ≤ superHi n ∧ superHi n - superLo n + 1 = n := by
  rw [superLo_eq h, superHi_eq h]
  split_ifs <;> omega

theorem primIdxAxis_eq {n : ℤ} (h : 0 < n) : primIdxAxis n = -superLo n := by
  rw [superLo_eq h]
  unfold primIdxAxis
  rw [Int.tmod_eq_emod_of_nonneg h.le, Int.tdiv_eq_ediv_of_nonneg h.le,
    Int.tdiv_eq_ediv_of_nonneg (by omega)]
  split_ifs <;> omega

/-! ## Interplanar distances -/

theorem norm3_eq (v : Vec ℝ) : norm3 v = dist3 v 0 := by
  have := norm3_eq_dist3 v 0
  simpa using this

theorem cCross_eq (v w : Vec ℝ) : cCross v w = crossProduct v w := by
  funext i
  fin_cases i <;> simp [cCross, cross_apply]

theorem cDot_normalize (u v : Vec ℝ) : cDot u (cNormalize v) = cDot u v / norm3 v := by
  unfold cDot cNormalize
  ring

theorem dist3_neg (v : Vec ℝ) : dist3 (-v) 0 = dist3 v 0 := by
  unfold dist3
  congr 1
  apply Finset.sum_congr rfl
  intro i _
  simp

theorem interplanar_eq (s : CStruct) (i : Fin 3) :
    s.interplanar i = planeDist (Matrix.of s.basis) i := by
  have e1 : (1 : Fin 3) + 1 = 2 := rfl
  have e2 : (1 : Fin 3) + 2 = 0 := rfl
  have e3 : (2 : Fin 3) + 1 = 0 := rfl
  have e4 : (2 : Fin 3) + 2 = 1 := rfl
  have hsw : dist3 (crossProduct (s.basis 2) (s.basis 0)) 0
      = dist3 (crossProduct (s.basis 0) (s.basis 2)) 0 := by
    rw [← cross_anticomm, dist3_neg]
  fin_cases i
  · show |cDot (s.basis 0) (cNormalize (cCross (s.basis 1) (s.basis 2)))| = _
    rw [cDot_normalize, abs_div, cCross_eq, norm3_eq, abs_of_nonneg (dist3_nonneg _ _)]
    unfold planeDist
    congr 1
    simp [cDot, cross_apply, Matrix.det_fin_three]
    congr 1
    ring
  · show |cDot (s.basis 1) (cNormalize (cCross (s.basis 0) (s.basis 2)))| = _
    rw [cDot_normalize, abs_div, cCross_eq, norm3_eq, abs_of_nonneg (dist3_nonneg _ _), ← hsw]
    unfold planeDist
    congr 1
    rw [← abs_neg]
    simp [cDot, cross_apply, Matrix.det_fin_three]
    congr 1
    ring
  · show |cDot (s.basis 2) (cNormalize (cCross (s.basis 0) (s.basis 1)))| = _
    rw [cDot_normalize, abs_div, cCross_eq, norm3_eq, abs_of_nonneg (dist3_nonneg _ _)]
    unfold planeDist
    congr 1
    simp [cDot, cross_apply, Matrix.det_fin_three]
    congr 1
    ring

theorem interplanar_pos (s : CStruct) (h : (Matrix.of s.basis).det ≠ 0) (i : Fin 3) :
    0 < s.interplanar i := by
  rw [interplanar_eq]
  exact (coeff_bound _ h 0 i).1

/-! ## Limits -/

theorem foldl_minLt_spec {α : Type} (f : α → ℝ) (vs : List α) (m : ℝ) :
    let r := vs.foldl (fun m w => if f w < m then f w else m) m
    r ≤ m ∧ (∀ w ∈ vs, r ≤ f w) ∧ (r = m ∨ ∃ w ∈ vs, r = f w) := by
  induction vs generalizing m with
  | nil => simp
  | cons v vs ih =>
    simp only [List.foldl_cons]
    by_cases h : f v < m
    · rw [if_pos h]
      obtain ⟨h1, h2, h3⟩ := ih (f v)
      refine ⟨by linarith, ?_, ?_⟩
      · intro w hw
        rcases List.mem_cons.1 hw with rfl | hw
        · exact h1
        · exact h2 w hw
      · right
        rcases h3 with h3 | ⟨w, hw, h3⟩
        · exact ⟨v, by simp, h3⟩
        · exact ⟨w, by simp [hw], h3⟩
    · rw [if_neg h]
      obtain ⟨h1, h2, h3⟩ := ih m
      refine ⟨h1, ?_, ?_⟩
      · intro w hw
        rcases List.mem_cons.1 hw with rfl | hw
        · push Not at h
          linarith
        · exact h2 w hw
      · rcases h3 with h3 | ⟨w, hw, h3⟩
        · exact Or.inl h3
        · exact Or.inr ⟨w, by simp [hw], h3⟩

theorem vertexes_ne_nil (s : CStruct) : s.vertexes ≠ [] := by
  intro h
  have := congrArg List.length h
  simp [CStruct.vertexes, cRange3_length] at this

theorem minLimit_spec (s : CStruct) (p : Fin 3) :
    (∀ w ∈ s.vertexes, s.minLimit p ≤ w p) ∧ ∃ w ∈ s.vertexes, s.minLimit p = w p := by
  unfold CStruct.minLimit
  cases h : s.vertexes with
  | nil => exact absurd h (vertexes_ne_nil s)
  | cons v vs =>
    obtain ⟨h1, h2, h3⟩ := foldl_minLt_spec (fun w : Vec ℝ => w p) vs (v p)
    refine ⟨?_, ?_⟩
    · intro w hw
      rcases List.mem_cons.1 hw with rfl | hw
      · exact h1
      · exact h2 w hw
    · rcases h3 with h3 | ⟨w, hw, h3⟩
      · exact ⟨v, by simp, h3⟩
      · exact ⟨w, by simp [hw], h3⟩

theorem minLimit_eq (s : CStruct) (p : Fin 3) :
    s.minLimit p = s.origin p + ∑ i, min 0 (s.basis i p) := by
  obtain ⟨h1, w, hw, h2⟩ := minLimit_spec s p
  apply le_antisymm
  · have hm : (fun q => s.origin q + (((if s.basis 0 p < 0 then 1 else 0 : ℤ) : ℝ) * s.basis 0 q +
        ((if s.basis 1 p < 0 then 1 else 0 : ℤ) : ℝ) * s.basis 1 q +
        ((if s.basis 2 p < 0 then 1 else 0 : ℤ) : ℝ) * s.basis 2 q)) ∈ s.vertexes := by
      unfold CStruct.vertexes
      rw [List.mem_map]
      refine ⟨![if s.basis 0 p < 0 then 1 else 0, if s.basis 1 p < 0 then 1 else 0,
        if s.basis 2 p < 0 then 1 else 0], ?_, ?_⟩
      · rw [mem_cRange3]
        intro q
        fin_cases q <;> simp <;> split_ifs <;> simp
      · rfl
    refine le_trans (h1 _ hm) ?_
    have key : ∀ x : ℝ, ((if x < 0 then 1 else 0 : ℤ) : ℝ) * x = min 0 x := by
      intro x
      by_cases hx : x < 0
      · simp [hx, le_of_lt hx]
      · simp [hx, not_lt.1 hx]
    simp only [key, Fin.sum_univ_three, le_refl]
  · rw [h2]
    unfold CStruct.vertexes at hw
    obtain ⟨t, ht, rfl⟩ := List.mem_map.1 hw
    rw [mem_cRange3] at ht
    have key : ∀ i, min 0 (s.basis i p) ≤ (t i : ℝ) * s.basis i p := by
      intro i
      obtain ⟨a, b⟩ := ht i
      have hti : t i = 0 ∨ t i = 1 := by omega
      rcases hti with e | e <;> rw [e] <;> simp
    have k0 := key 0
    have k1 := key 1
    have k2 := key 2
    simp only [Fin.sum_univ_three]
    linarith

/-! ## The bin of an atom -/

/-- A point of the (half-open) cell lies inside the box of the bins. -/
theorem inside_box (s : CStruct) (g : Fin 3 → ℝ) (hg : ∀ i, 0 ≤ g i ∧ g i < 1) (x : Vec ℝ)
    (p : Fin 3) (hx : x p = s.origin p + ∑ i, g i * s.basis i p) (hpos : ∃ q, 0 < s.basis q p) :
    0 ≤ x p - s.minLimit p ∧ x p - s.minLimit p < s.projected p := by
  rw [minLimit_eq, hx]
  have key : ∀ i, 0 ≤ g i * s.basis i p - min 0 (s.basis i p) ∧
      g i * s.basis i p - min 0 (s.basis i p) ≤ |s.basis i p| ∧
      (0 < s.basis i p → g i * s.basis i p - min 0 (s.basis i p) < |s.basis i p|) := by
    intro i
    obtain ⟨g0, g1⟩ := hg i
    rcases le_or_gt 0 (s.basis i p) with h | h
    · rw [min_eq_left h, abs_of_nonneg h]
      refine ⟨by nlinarith, by nlinarith, fun h' => by nlinarith⟩
    · rw [min_eq_right (le_of_lt h), abs_of_neg h]
      refine ⟨by nlinarith, by nlinarith, fun h' => by linarith⟩
  have k0 := key 0
  have k1 := key 1
  have k2 := key 2
  unfold CStruct.projected
  simp only [Fin.sum_univ_three]
  refine ⟨by linarith [k0.1, k1.1, k2.1], ?_⟩
  obtain ⟨q, hq⟩ := hpos
  fin_cases q
  · have := k0.2.2 hq; linarith [k0.2.1, k1.2.1, k2.2.1]
  · have := k1.2.2 hq; linarith [k0.2.1, k1.2.1, k2.2.1]
  · have := k2.2.2 hq; linarith [k0.2.1, k1.2.1, k2.2.1]

theorem bin_in_range {a size proj : ℝ} (hs : 0 < size) (h0 : 0 ≤ a) (h1 : a < proj) :
    0 ≤ ⌊a / size⌋ ∧ ⌊a / size⌋ < ⌈proj / size⌉ := by
  refine ⟨Int.floor_nonneg.2 (div_nonneg h0 hs.le), ?_⟩
  rw [Int.lt_ceil]
  exact lt_of_le_of_lt (Int.floor_le _) (div_lt_div_of_pos_right h1 hs)

theorem floor_diff {a b r : ℝ} (h : |a - b| ≤ r) : |⌊a⌋ - ⌊b⌋| ≤ ⌈r⌉ := by
  rw [abs_le] at h ⊢
  have hr := Int.le_ceil r
  have h1 : ⌊a⌋ ≤ ⌊b⌋ + ⌈r⌉ := by
    rw [← Int.floor_add_intCast]
    exact Int.floor_le_floor (by linarith)
  have h2 : ⌊b⌋ ≤ ⌊a⌋ + ⌈r⌉ := by
    rw [← Int.floor_add_intCast]
    exact Int.floor_le_floor (by linarith)
  constructor <;> linarith

theorem cDist2_eq (p q : Vec ℝ) : Real.sqrt (cDist2 p q) = dist3 p q := by
  unfold cDist2 dist3
  rw [Fin.sum_univ_three]

theorem cDist2_nonneg (p q : Vec ℝ) : 0 ≤ cDist2 p q := by
  unfold cDist2; positivity

theorem cDist2_sq (p q : Vec ℝ) : cDist2 p q = dist3 p q ^ 2 := by
  rw [← cDist2_eq, Real.sq_sqrt (cDist2_nonneg p q)]

theorem cDist2_lt {p q : Vec ℝ} {r : ℝ} (hr : 0 < r) : cDist2 p q < r ^ 2 ↔ dist3 p q < r := by
  rw [cDist2_sq]
  exact sq_lt_sq₀ (dist3_nonneg _ _) hr.le

theorem comp_le_dist3 (p q : Vec ℝ) (i : Fin 3) : |p i - q i| ≤ dist3 p q := by
  unfold dist3
  rw [← Real.sqrt_sq_eq_abs]
  apply Real.sqrt_le_sqrt
  exact Finset.single_le_sum (f := fun i => (p i - q i) ^ 2) (fun i _ => sq_nonneg _)
    (Finset.mem_univ i)

/-! ## Wrapping -/

theorem wrapBin_self {pbc : Bool} {nb c : ℤ} (h : 0 ≤ c ∧ c < nb) : wrapBin pbc nb c = c := by
  unfold wrapBin
  split_ifs
  · rfl
  · rw [Int.tmod_eq_emod_of_nonneg (by omega), Int.add_emod_right, Int.emod_eq_of_lt h.1 h.2]

theorem wrapBin_inj {pbc : Bool} {nb b e o o' c : ℤ} (hn : pbc = true → 2 * e + 1 ≤ nb)
    (ho : -e ≤ o ∧ o ≤ e) (ho' : -e ≤ o' ∧ o' ≤ e) (h1 : wrapBin pbc nb (b + o) = c)
    (h2 : wrapBin pbc nb (b + o') = c) : o = o' := by
  unfold wrapBin at h1 h2
  cases pbc with
  | false => simp at h1 h2; omega
  | true =>
    simp at h1 h2
    have hn := hn rfl
    have d1 : nb ∣ (b + o + nb) - c := by
      rw [← h1]; exact Int.dvd_self_sub_tmod
    have d2 : nb ∣ (b + o' + nb) - c := by
      rw [← h2]; exact Int.dvd_self_sub_tmod
    have d3 : nb ∣ o - o' := by
      have := dvd_sub d1 d2
      have e : (b + o + nb - c) - (b + o' + nb - c) = o - o' := by ring
      rwa [e] at this
    have : o - o' = 0 := Int.eq_zero_of_abs_lt_dvd d3 (by rw [abs_lt]; constructor <;> omega)
    omega

/-! ## How often a bin is visited -/

theorem count_of_unique {α : Type} (l : List α) (P : α → Prop) [DecidablePred P] (hn : l.Nodup) (a : α) (ha : a ∈ l)
    (hP : P a) (hu : ∀ b ∈ l, P b → b = a) : l.countP (fun b => decide (P b)) = 1 := by
  rw [List.countP_eq_length_filter]
  have : (l.filter (fun b => decide (P b))).Perm [a] := by
    rw [List.perm_ext_iff_of_nodup (hn.filter _) (List.nodup_singleton a)]
    intro b
    rw [List.mem_filter, List.mem_singleton]
    constructor
    · rintro ⟨h1, h2⟩
      exact hu b h1 (by simpa using h2)
    · rintro rfl
      exact ⟨ha, by simpa using hP⟩
  rw [this.length_eq]; rfl

end MaterSDK
