import Verif.Lemmas.CellListDPlane

/-! # Size of the supercell in doubles -/

namespace MaterSDK

open Classical Matrix

theorem cDot_cross_det (L : Fin 3 → Vec ℝ) :
    |cDot (L 0) (cCross (L 1) (L 2))| = |(Matrix.of L).det| ∧
    |cDot (L 1) (cCross (L 0) (L 2))| = |(Matrix.of L).det| ∧
    |cDot (L 2) (cCross (L 0) (L 1))| = |(Matrix.of L).det| := by
  refine ⟨?_, ?_, ?_⟩
  · congr 1
    simp [cDot, cCross, Matrix.det_fin_three]; ring
  · rw [← abs_neg]
    congr 1
    simp [cDot, cCross, Matrix.det_fin_three]; ring
  · congr 1
    simp [cDot, cCross, Matrix.det_fin_three]; ring

theorem skewOf_ge_one (L : Fin 3 → Vec ℝ) (hdet : (Matrix.of L).det ≠ 0) : 1 ≤ skewOf L := by
  have hd : 0 < |(Matrix.of L).det| := abs_pos.2 hdet
  unfold skewOf
  rw [le_div_iff₀ hd, one_mul, ← (cDot_cross_det L).1]
  refine (abs_cDot_le_norm _ _).trans ?_
  rw [mul_assoc]
  exact mul_le_mul_of_nonneg_left ((norm3_le_sum1 _).trans (sum1_cross_le _ _)) (sum1_nonneg _)

/-- The computed interplanar distances. -/
theorem near_interplanar (s : CStruct) (hdet : (Matrix.of s.basis).det ≠ 0) (hK : skewOf s.basis ≤ 4096)
    (i : Fin 3) :
    |s.interplanarD flR i - s.interplanar i| ≤ 48 * (uR * skewOf s.basis) * s.interplanar i := by
  have hd : 0 < |(Matrix.of s.basis).det| := abs_pos.2 hdet
  have hu := uR_pos
  have hsm : uR * skewOf s.basis ≤ 1 / 1000000 := by
    have : uR * skewOf s.basis ≤ uR * 4096 := mul_le_mul_of_nonneg_left hK hu.le
    refine this.trans ?_
    rw [uR_eq]; norm_num
  have hS : skewOf s.basis * |(Matrix.of s.basis).det|
      = sum1 (s.basis 0) * sum1 (s.basis 1) * sum1 (s.basis 2) := by
    unfold skewOf; field_simp
  obtain ⟨d0, d1, d2⟩ := cDot_cross_det s.basis
  fin_cases i
  · refine near_plane (s.basis 0) (s.basis 1) (s.basis 2) _ (by rw [d0]; exact hd) ?_ hsm
    rw [d0, hS]; ring
  · refine near_plane (s.basis 1) (s.basis 0) (s.basis 2) _ (by rw [d1]; exact hd) ?_ hsm
    rw [d1, hS]; ring
  · refine near_plane (s.basis 2) (s.basis 0) (s.basis 1) _ (by rw [d2]; exact hd) ?_ hsm
    rw [d2, hS]; ring

/-- Number of replicas on each side. -/
noncomputable def halfWidthD (s : CStruct) (rcut : ℝ) (pbc : Fin 3 → Bool) (p : Fin 3) : ℕ :=
  if pbc p = false then 0 else ⌈flR (rcut / s.interplanarD flR p)⌉.toNat

section

variable (s : CStruct) (rcut : ℝ) (pbc : Fin 3 → Bool)
  (hdet : (Matrix.of s.basis).det ≠ 0) (hK : skewOf s.basis ≤ 4096) (hr : 0 < rcut)

include hdet hK

theorem uK_small : uR * skewOf s.basis ≤ 1 / 2 ^ 41 ∧ uR ≤ uR * skewOf s.basis := by
  have hu := uR_pos
  have h1 := skewOf_ge_one s.basis hdet
  constructor
  · have : uR * skewOf s.basis ≤ uR * 4096 := mul_le_mul_of_nonneg_left hK hu.le
    refine this.trans ?_
    rw [uR_eq]; norm_num
  · nlinarith

theorem interplanarD_pos (i : Fin 3) : 0 < s.interplanarD flR i := by
  have h := (abs_le.1 (near_interplanar s hdet hK i)).1
  have hp := interplanar_pos s hdet i
  obtain ⟨h1, _⟩ := uK_small s hdet hK
  have : uR * skewOf s.basis * s.interplanar i ≤ 1 / 2 ^ 41 * s.interplanar i :=
    mul_le_mul_of_nonneg_right h1 hp.le
  norm_num at this
  nlinarith

include hr

theorem binScalingD_odd : binScalingD flR s rcut pbc = oddOf (halfWidthD s rcut pbc) := by
  funext p
  unfold binScalingD oddOf halfWidthD
  split_ifs
  · rfl
  · have : 0 ≤ ⌈flR (rcut / s.interplanarD flR p)⌉ :=
      Int.ceil_nonneg (flR_nonneg (div_nonneg hr.le (interplanarD_pos s hdet hK p).le))
    omega

/-- The replicas cover the cutoff up to rounding, and there are not too many. -/
theorem halfWidthD_bounds (p : Fin 3) :
    (pbc p = true → rcut * (1 - 50 * (uR * skewOf s.basis)) ≤ halfWidthD s rcut pbc p * s.interplanar p) ∧
    2 * (halfWidthD s rcut pbc p : ℝ) + 1 ≤ 3 * (rcut / s.interplanar p) + 3 := by
  have hp := interplanar_pos s hdet p
  have hp' := interplanarD_pos s hdet hK p
  have hn := abs_le.1 (near_interplanar s hdet hK p)
  obtain ⟨e1, e2⟩ := uK_small s hdet hK
  have hu := uR_pos
  set ε := uR * skewOf s.basis
  set d := s.interplanar p
  set d' := s.interplanarD flR p with hd'
  have hq : 0 < rcut / d := div_pos hr hp
  have hq' : 0 < rcut / d' := div_pos hr hp'
  have hre := abs_le.1 (flR_err (rcut / d'))
  rw [abs_of_pos hq'] at hre
  have hε1 : ε ≤ 1 / 1000000 := e1.trans (by norm_num)
  unfold halfWidthD
  rw [← hd']
  have h0 : 0 ≤ ⌈flR (rcut / d')⌉ := Int.ceil_nonneg (flR_nonneg hq'.le)
  have hcast : ((⌈flR (rcut / d')⌉.toNat : ℕ) : ℝ) = (⌈flR (rcut / d')⌉ : ℝ) := by
    have : ((⌈flR (rcut / d')⌉.toNat : ℕ) : ℤ) = ⌈flR (rcut / d')⌉ := by omega
    exact_mod_cast congrArg (fun z : ℤ => (z : ℝ)) this
  have hmul : rcut / d' * d' = rcut := div_mul_cancel₀ _ hp'.ne'
  have hmul2 : rcut / d * d = rcut := div_mul_cancel₀ _ hp.ne'
  constructor
  · intro hpb
    rw [if_neg (by simp [hpb]), hcast]
    have h1 : rcut / d' * (1 - ε) ≤ (⌈flR (rcut / d')⌉ : ℝ) := by
      refine le_trans ?_ (Int.le_ceil _)
      nlinarith [hre.1]
    refine le_trans ?_ (mul_le_mul_of_nonneg_right h1 hp.le)
    -- d' ≤ d (1 + 48 ε)
    have h2 : d' ≤ d * (1 + 48 * ε) := by nlinarith [hn.2]
    have h3 : (1 - 49 * ε) * d' ≤ d := by
      have h31 : (1 - 49 * ε) * d' ≤ (1 - 49 * ε) * (d * (1 + 48 * ε)) :=
        mul_le_mul_of_nonneg_left h2 (by linarith)
      have h32 : (1 - 49 * ε) * (d * (1 + 48 * ε)) ≤ d := by
        have : (1 - 49 * ε) * (1 + 48 * ε) ≤ 1 := by nlinarith
        calc (1 - 49 * ε) * (d * (1 + 48 * ε)) = d * ((1 - 49 * ε) * (1 + 48 * ε)) := by ring
          _ ≤ d * 1 := mul_le_mul_of_nonneg_left this hp.le
          _ = d := mul_one d
      linarith
    have h4 : rcut * (1 - 49 * ε) ≤ rcut / d' * d := by
      calc rcut * (1 - 49 * ε) = rcut / d' * ((1 - 49 * ε) * d') := by
            rw [show rcut / d' * ((1 - 49 * ε) * d') = rcut / d' * d' * (1 - 49 * ε) by ring, hmul]
        _ ≤ rcut / d' * d := mul_le_mul_of_nonneg_left h3 hq'.le
    have hε0 : 0 ≤ ε := le_trans hu.le e2
    calc rcut * (1 - 50 * ε) ≤ rcut * (1 - 49 * ε) * (1 - ε) := by nlinarith [mul_nonneg hr.le (mul_nonneg hε0 hε0)]
      _ ≤ rcut / d' * d * (1 - ε) := mul_le_mul_of_nonneg_right h4 (by linarith)
      _ = rcut / d' * (1 - ε) * d := by ring
  · split_ifs
    · push_cast; linarith
    · rw [hcast]
      have h1 := Int.ceil_lt_add_one (flR (rcut / d'))
      have h2 : d * (9 / 10) ≤ d' := by nlinarith [hn.1]
      have h3 : rcut / d' ≤ rcut / d * (10 / 9) := by
        rw [div_le_iff₀ hp']
        calc rcut = rcut / d * (10 / 9) * (d * (9 / 10)) := by
              rw [show rcut / d * (10 / 9) * (d * (9 / 10)) = rcut / d * d by ring, hmul2]
          _ ≤ rcut / d * (10 / 9) * d' := mul_le_mul_of_nonneg_left h2 (by linarith)
      have h4 : rcut / d' * uR ≤ rcut / d' * (1 / 1000000) := mul_le_mul_of_nonneg_left (e2.trans hε1) hq'.le
      linarith [hre.2]

/-- Everything the supercell holds fits the scale. -/
theorem axisLen_le_scale (p : Fin 3) :
    axisLen (axisOf s.basis p) (halfWidthD s rcut pbc) ≤ scaleOf s.basis rcut - rcut := by
  unfold axisLen scaleOf axisOf
  rw [add_sub_cancel_left]
  apply Finset.sum_le_sum
  intro i _
  have h := (halfWidthD_bounds s rcut pbc hdet hK hr i).2
  rw [interplanar_eq] at h
  exact mul_le_mul (abs_le_sum1 _ _) h (by positivity) (sum1_nonneg _)

/-- The supercell contains every image clearly closer than the cutoff. -/
theorem near_in_supercellD (x c : Vec ℝ) (fp fc : Vec ℝ)
    (hfp : ∀ i, 0 ≤ fp i ∧ fp i < 1) (hfc : ∀ i, 0 ≤ fc i ∧ fc i < 1)
    (ep : x = cartOf s.basis fp) (ec : c = cartOf s.basis fc) (t : Fin 3 → ℤ)
    (ht : ∀ q, pbc q = false → t q = 0)
    (hd : dist3 (imagePos s.basis x t) c ≤ rcut * (1 - 50 * (uR * skewOf s.basis))) (i : Fin 3) :
    |t i| ≤ halfWidthD s rcut pbc i := by
  cases hq : pbc i with
  | false => rw [ht i hq]; simp
  | true =>
    have hcov := (halfWidthD_bounds s rcut pbc hdet hK hr i).1 hq
    set m := halfWidthD s rcut pbc i
    obtain ⟨hp, hb⟩ := coeff_bound (Matrix.of s.basis) hdet (fun k => fp k + t k - fc k) i
    rw [← interplanar_eq] at hp hb
    have e : dist3 (∑ k, (fp k + t k - fc k) • Matrix.of s.basis k) 0
        = dist3 (imagePos s.basis x t) c := by
      unfold dist3
      congr 1
      apply Finset.sum_congr rfl
      intro j _
      congr 1
      rw [ec, ep]
      unfold imagePos cartOf
      simp only [sub_smul, add_smul, Finset.sum_sub_distrib, Finset.sum_add_distrib, Pi.zero_apply,
        Pi.sub_apply, Pi.add_apply, sub_zero]
      rfl
    rw [e] at hb
    have h1 : |fp i + t i - fc i| * s.interplanar i ≤ (m : ℝ) * s.interplanar i :=
      le_trans hb (le_trans hd hcov)
    have h2 : |fp i + t i - fc i| ≤ m := le_of_mul_le_mul_right h1 hp
    rw [abs_le] at h2
    have h3 := hfp i
    have h4 := hfc i
    have h5 : (t i : ℝ) < m + 1 := by linarith
    have h6 : -(m : ℝ) - 1 < t i := by linarith
    have h7 : t i < (m : ℤ) + 1 := by exact_mod_cast h5
    have h8 : -(m : ℤ) - 1 < t i := by exact_mod_cast h6
    rw [abs_le]
    constructor <;> omega

/-- Along a periodic axis the supercell is clearly longer than twice the cutoff. -/
theorem axisLen_large (hthick : ∀ i, rcut ≤ 2 ^ 20 * s.interplanar i) (p : Fin 3)
    (hperp : ∀ q, pbc q = false → s.basis q p = 0) :
    2 * rcut + (∑ k, |s.basis k p|) / 2 ≤ axisLen (axisOf s.basis p) (halfWidthD s rcut pbc) := by
  set L := Matrix.of s.basis with hL
  set c : Fin 3 → ℝ := fun k => L⁻¹ p k with hc
  have hunit : IsUnit L.det := isUnit_iff_ne_zero.2 hdet
  have hcomb : ∀ q, ∑ k, c k * s.basis k q = if p = q then 1 else 0 := by
    intro q
    have := congrFun (congrFun (Matrix.nonsing_inv_mul L hunit) p) q
    rw [Matrix.mul_apply, Matrix.one_apply] at this
    exact this
  have hvec : (∑ k, c k • L k) = fun q => if p = q then (1 : ℝ) else 0 := by
    funext q
    rw [← hcomb q]
    simp [Finset.sum_apply, hL]
  have hone : dist3 (∑ k, c k • L k) 0 = 1 := by
    rw [hvec]
    unfold dist3
    simp
  have hip := interplanar_pos s hdet
  have hbound : ∀ k, |c k| * s.interplanar k ≤ 1 := by
    intro k
    have := (coeff_bound L hdet c k).2
    rwa [hone, ← interplanar_eq] at this
  obtain ⟨e1, e2⟩ := uK_small s hdet hK
  have hu := uR_pos
  set ε := uR * skewOf s.basis
  have hε0 : 0 ≤ ε := hu.le.trans e2
  have hterm : ∀ k, s.basis k p ≠ 0 →
      2 * rcut * |c k| + 1 / 2 ≤ 2 * (halfWidthD s rcut pbc k : ℝ) + 1 := by
    intro k hk
    have hq : pbc k = true := by
      cases h : pbc k with
      | true => rfl
      | false => exact absurd (hperp k h) hk
    have hcov := (halfWidthD_bounds s rcut pbc hdet hK hr k).1 hq
    have h1 := hbound k
    have h2 := abs_nonneg (c k)
    have h3 := hip k
    have h4 : rcut * (1 - 50 * ε) * |c k| ≤ (halfWidthD s rcut pbc k : ℝ) := by
      calc rcut * (1 - 50 * ε) * |c k| ≤ (halfWidthD s rcut pbc k * s.interplanar k) * |c k| :=
            mul_le_mul_of_nonneg_right hcov h2
        _ = halfWidthD s rcut pbc k * (|c k| * s.interplanar k) := by ring
        _ ≤ halfWidthD s rcut pbc k * 1 := mul_le_mul_of_nonneg_left h1 (Nat.cast_nonneg _)
        _ = _ := mul_one _
    have h5 : rcut * |c k| ≤ 2 ^ 20 := by
      calc rcut * |c k| ≤ 2 ^ 20 * s.interplanar k * |c k| := mul_le_mul_of_nonneg_right (hthick k) h2
        _ = 2 ^ 20 * (|c k| * s.interplanar k) := by ring
        _ ≤ 2 ^ 20 * 1 := mul_le_mul_of_nonneg_left h1 (by norm_num)
        _ = 2 ^ 20 := mul_one _
    have h6 : ε * (rcut * |c k|) ≤ 1 / 2 ^ 41 * 2 ^ 20 :=
      mul_le_mul e1 h5 (mul_nonneg hr.le h2) (by norm_num)
    norm_num at h6
    nlinarith
  have hsum : (1 : ℝ) = ∑ k, c k * s.basis k p := by rw [hcomb p]; simp
  calc 2 * rcut + (∑ k, |s.basis k p|) / 2
      = 2 * rcut * (∑ k, c k * s.basis k p) + (∑ k, |s.basis k p|) / 2 := by rw [← hsum, mul_one]
    _ = ∑ k, (2 * rcut * (c k * s.basis k p) + |s.basis k p| / 2) := by
        simp only [Fin.sum_univ_three]; ring
    _ ≤ ∑ k, |s.basis k p| * (2 * (halfWidthD s rcut pbc k : ℝ) + 1) := by
      apply Finset.sum_le_sum
      intro k _
      by_cases hk : s.basis k p = 0
      · simp [hk]
      · have h1 : c k * s.basis k p ≤ |c k| * |s.basis k p| := by
          rw [← abs_mul]; exact le_abs_self _
        have h2 := hterm k hk
        have h3 : 0 < |s.basis k p| := abs_pos.2 hk
        have h4 := mul_le_mul_of_nonneg_left h2 h3.le
        have h5 := mul_le_mul_of_nonneg_left h1 (by linarith : (0 : ℝ) ≤ 2 * rcut)
        nlinarith

end

end MaterSDK
