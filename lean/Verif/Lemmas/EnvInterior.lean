import Verif.Lemmas.SlotDeriv
import Verif.Lemmas.Se4pwForces
import Mathlib.Topology.Algebra.Module.FiniteDimension

/-! # Positions and deformations the neighbour list handles form neighbourhoods -/

namespace MaterSDK

open Classical

/-- All distances between images in the second structure are close to those in the first. -/
def CloseImages {n : ℕ} (ε : ℝ) (L : Fin 3 → Vec ℝ) (x : Fin n → Vec ℝ) (L' : Fin 3 → Vec ℝ) (y : Fin n → Vec ℝ) :
    Prop :=
  ∀ (i j : Fin n) (t : Fin 3 → ℤ), dist3 (imagePos L (x j) t) (x i)
    ≤ dist3 (imagePos L' (y j) t) (y i) + ε * (1 + dist3 (imagePos L (x j) t) (x i))

theorem list_gap {ι : Type} (l : List ι) (d : ι → ℝ) (c : ℝ) (h : ∀ e ∈ l, c < d e) :
    ∃ ε > 0, ∀ e ∈ l, c + 3 * ε < d e := by
  induction l with
  | nil => exact ⟨1, one_pos, by simp⟩
  | cons a l ih =>
    obtain ⟨ε, h0, h1⟩ := ih (fun e he => h e (List.mem_cons_of_mem _ he))
    have ha := h a List.mem_cons_self
    refine ⟨min ε ((d a - c) / 4), lt_min h0 (by linarith), ?_⟩
    intro e he
    rcases List.mem_cons.1 he with rfl | he
    · have := min_le_right ε ((d e - c) / 4)
      linarith
    · have := min_le_left ε ((d a - c) / 4)
      linarith [h1 e he]

theorem fin_gap {n : ℕ} {P : Fin n → ℝ → Prop} (hmono : ∀ i ε ε', P i ε → 0 < ε' → ε' ≤ ε → P i ε')
    (h : ∀ i, ∃ ε > 0, P i ε) : ∃ ε > 0, ∀ i, P i ε := by
  choose f h0 h1 using h
  by_cases hn : Nonempty (Fin n)
  · refine ⟨Finset.univ.inf' Finset.univ_nonempty f, ?_, ?_⟩
    · rw [gt_iff_lt, Finset.lt_inf'_iff]
      exact fun i _ => h0 i
    · intro i
      refine hmono i _ _ (h1 i) ?_ (Finset.inf'_le _ (Finset.mem_univ i))
      rw [Finset.lt_inf'_iff]
      exact fun i _ => h0 i
  · exact ⟨1, one_pos, fun i => absurd ⟨i⟩ hn⟩

theorem atomsAt_pos_inv {n : ℕ} (z : Fin n → ℤ) (x : Fin n → Vec ℝ) (i : ℕ) (p : Vec ℝ)
    (h : ((atomsAt z x).map Prod.snd)[i]? = some p) : ∃ i' : Fin n, (i' : ℕ) = i ∧ x i' = p := by
  have hi : i < n := by
    have := (List.getElem?_eq_some_iff.1 h).1
    simpa [atomsAt] using this
  have := atomsAt_pos z x ⟨i, hi⟩
  rw [h] at this
  exact ⟨⟨i, hi⟩, rfl, (Option.some.inj this).symm⟩

theorem atomsAt_inv {n : ℕ} (z : Fin n → ℤ) (x : Fin n → Vec ℝ) (i : ℕ) (c : ℤ × Vec ℝ)
    (h : (atomsAt z x)[i]? = some c) : ∃ i' : Fin n, (i' : ℕ) = i ∧ c = (z i', x i') := by
  have hi : i < n := by
    have := (List.getElem?_eq_some_iff.1 h).1
    simpa [atomsAt] using this
  have := atomsAt_get z x ⟨i, hi⟩
  rw [h] at this
  exact ⟨⟨i, hi⟩, rfl, Option.some.inj this⟩

theorem close_apart (A : ArgSort) (L : Fin 3 → Vec ℝ) {n : ℕ} (z : Fin n → ℤ) (x : Fin n → Vec ℝ)
    (hok : CellOk L (atomsAt z x) (fun _ => true)) (hap : ApartImages L ((atomsAt z x).map Prod.snd)) :
    ∃ ε0 > 0, ∀ (ε : ℝ) (L' : Fin 3 → Vec ℝ) (y : Fin n → Vec ℝ), 0 < ε → ε ≤ ε0 → CloseImages ε L x L' y →
      ApartImages L' ((atomsAt z y).map Prod.snd) := by
  have hc1 : Real.sqrt (1 / 1000) < 1 := by
    rw [Real.sqrt_lt' one_pos]; norm_num
  have hgap : ∃ ε > 0, ∀ i : Fin n, ∀ e : Fin n × (Fin 3 → ℤ), dist3 (imagePos L (x e.1) e.2) (x i) < 2 → e ≠ (i, 0) →
      Real.sqrt (1 / 1000) + 3 * ε < dist3 (imagePos L (x e.1) e.2) (x i) := by
    refine fin_gap (P := fun i ε => ∀ e : Fin n × (Fin 3 → ℤ), dist3 (imagePos L (x e.1) e.2) (x i) < 2 → e ≠ (i, 0) →
      Real.sqrt (1 / 1000) + 3 * ε < dist3 (imagePos L (x e.1) e.2) (x i)) ?_ ?_
    · intro i ε ε' h _ hle e h1 h2
      linarith [h e h1 h2]
    · intro i
      obtain ⟨E0, e1, e2⟩ := imgs_list A L (atomsAt z x) 2 (by norm_num) hok hap i _ (atomsAt_get z x i)
      obtain ⟨E, _, _, hE⟩ := fin_images L z x 2 i E0 e1 e2
      obtain ⟨ε, h0, h1⟩ := list_gap E (fun e => dist3 (imagePos L (x e.1) e.2) (x i)) (Real.sqrt (1 / 1000)) (by
        intro e he
        have hne : ((e.1 : ℕ), e.2) ≠ ((i : ℕ), 0) := by
          intro h
          rw [Prod.mk.injEq] at h
          exact ((hE e).1 he).2 (Prod.ext (Fin.ext h.1) h.2)
        have := hap i e.1 (x i) (x e.1) e.2 (atomsAt_pos z x i) (atomsAt_pos z x e.1) hne
        have := Real.sqrt_lt_sqrt (by norm_num) this
        rwa [Real.sqrt_sq (dist3_nonneg _ _)] at this)
      exact ⟨ε, h0, fun e h2 h3 => h1 e ((hE e).2 ⟨h2, h3⟩)⟩
  obtain ⟨ε1, h0, h1⟩ := hgap
  refine ⟨min ε1 (1 / 4), lt_min h0 (by norm_num), ?_⟩
  intro ε L' y hε hle hclose i j p q t hi hj hne
  obtain ⟨i, rfl, rfl⟩ := atomsAt_pos_inv z y i p hi
  obtain ⟨j, rfl, rfl⟩ := atomsAt_pos_inv z y j q hj
  have hne' : (j, t) ≠ (i, (0 : Fin 3 → ℤ)) := by
    intro h
    rw [Prod.mk.injEq] at h
    exact hne (by rw [h.1, h.2])
  have hcl := hclose i j t
  have hle1 := le_trans hle (min_le_left _ _)
  have hle2 := le_trans hle (min_le_right _ _)
  refine Real.lt_sq_of_sqrt_lt ?_
  by_cases hd : dist3 (imagePos L (x j) t) (x i) < 2
  · have := h1 i (j, t) hd hne'
    simp only at this
    nlinarith
  · rw [not_lt] at hd
    nlinarith

theorem close_room (L : Fin 3 → Vec ℝ) {n : ℕ} (z : Fin n → ℤ) (x : Fin n → Vec ℝ) (umax : List ℕ)
    (rcut δ : ℝ) (hr : 0 < rcut) (hδ : 0 < δ)
    (hap : ApartImages L ((atomsAt z x).map Prod.snd))
    (hroom : CrystalRoom (typedCrystal L (atomsAt z x)) umax (rcut + δ)) :
    ∃ ε0 > 0, ∀ (ε : ℝ) (L' : Fin 3 → Vec ℝ) (y : Fin n → Vec ℝ), 0 < ε → ε ≤ ε0 → CloseImages ε L x L' y →
      CrystalRoom (typedCrystal L' (atomsAt z y)) umax rcut := by
  refine ⟨min (1 / 2) (δ / (2 * (1 + rcut + δ))), lt_min (by norm_num) (by positivity), ?_⟩
  intro ε L' y hε hle hclose
  have hle1 := le_trans hle (min_le_left _ _)
  have hle2 := le_trans hle (min_le_right _ _)
  rw [le_div_iff₀ (by positivity)] at hle2
  refine crystalRoom_of_nearBy L' (atomsAt z y) rcut umax ?_
  intro i c hc t m hm l hl hall
  obtain ⟨i, rfl, rfl⟩ := atomsAt_inv z y i c hc
  refine crystalRoom_nearBy L (atomsAt z x) (rcut + δ) hap umax hroom i _ (atomsAt_get z x i) t m hm l hl ?_
  intro e he
  obtain ⟨⟨_, p, hp, hd⟩, h2, h3⟩ := hall e he
  obtain ⟨j, hj, rfl⟩ := atomsAt_pos_inv z y e.1 p hp
  refine ⟨⟨by simp, x j, ?_, ?_⟩, h2, ?_⟩
  · rw [← hj]; exact atomsAt_pos z x j
  · have hcl := hclose i j e.2
    by_contra hge
    rw [not_lt] at hge
    simp only at hd hge
    nlinarith
  · rw [← hj, atomsAt_get] at h3 ⊢
    exact h3

theorem cartOf_vecMul (L : Fin 3 → Vec ℝ) (f : Vec ℝ) : cartOf L f = Matrix.vecMul f (Matrix.of L) := by
  funext j
  simp [cartOf, Matrix.vecMul, dotProduct, Finset.sum_apply]

/-- Positions strictly inside the cell, with images apart and with slots to spare, are interior points of the
positions the neighbour list handles. -/
theorem positions_nhds (A : ArgSort) (L : Fin 3 → Vec ℝ) {n : ℕ} (z : Fin n → ℤ) (x : Fin n → Vec ℝ) (umax : List ℕ)
    (rcut δ : ℝ) (hr : 0 < rcut) (hδ : 0 < δ)
    (hx : x ∈ envPositions L z umax (rcut + δ)) (hin : ∀ i, StrictlyInside L (x i)) :
    envPositions L z umax rcut ∈ nhds x := by
  obtain ⟨hok, hap, hroom⟩ := hx
  obtain ⟨ε1, p1, q1⟩ := close_apart A L z x hok hap
  obtain ⟨ε2, p2, q2⟩ := close_room L z x umax rcut δ hr hδ hap hroom
  have hunit : IsUnit (Matrix.of L).det := isUnit_iff_ne_zero.2 hok.nonsing
  have hclose : ∀ᶠ y in nhds x, ∀ j, dist3 (y j) (x j) < min ε1 ε2 / 2 := by
    rw [Filter.eventually_all]
    intro j
    have hcont : Continuous (fun y : Fin n → Vec ℝ => dist3 (y j) (x j)) := by
      unfold dist3
      fun_prop
    exact hcont.continuousAt.eventually_lt continuousAt_const (by
      rw [dist3_self]
      have := lt_min p1 p2
      linarith)
  have hcell : ∀ᶠ y in nhds x, ∀ j : Fin n, ∀ a : Fin 3, 0 < Matrix.vecMul (y j) (Matrix.of L)⁻¹ a ∧
      Matrix.vecMul (y j) (Matrix.of L)⁻¹ a < 1 := by
    rw [Filter.eventually_all]
    intro j
    rw [Filter.eventually_all]
    intro a
    have hcont : Continuous (fun y : Fin n → Vec ℝ => Matrix.vecMul (y j) (Matrix.of L)⁻¹ a) := by
      unfold Matrix.vecMul dotProduct
      fun_prop
    obtain ⟨f, hf, hxf⟩ := hin j
    have he : Matrix.vecMul (x j) (Matrix.of L)⁻¹ = f := by
      rw [hxf, cartOf_vecMul, Matrix.vecMul_vecMul, Matrix.mul_nonsing_inv _ hunit, Matrix.vecMul_one]
    refine Filter.Eventually.and ?_ ?_
    · exact continuousAt_const.eventually_lt hcont.continuousAt (by rw [he]; exact (hf a).1)
    · exact hcont.continuousAt.eventually_lt continuousAt_const (by rw [he]; exact (hf a).2)
  filter_upwards [hclose, hcell] with y h1 h2
  have hcl : CloseImages (min ε1 ε2) L x L y := by
    intro i j t
    have t1 := dist3_triangle (imagePos L (x j) t) (imagePos L (y j) t) (x i)
    have t2 := dist3_triangle (imagePos L (y j) t) (y i) (x i)
    have t3 : dist3 (imagePos L (x j) t) (imagePos L (y j) t) = dist3 (y j) (x j) := by
      rw [dist3_comm (y j), imagePos, imagePos, dist3_shift]
    have t4 := h1 i
    have t5 := h1 j
    have t6 := dist3_nonneg (imagePos L (x j) t) (x i)
    have t7 := lt_min p1 p2
    nlinarith
  refine ⟨⟨hok.nonsing, ?_, ?_, hok.dir, hok.perp⟩, q1 _ L y (lt_min p1 p2) (min_le_left _ _) hcl,
    q2 _ L y (lt_min p1 p2) (min_le_right _ _) hcl⟩
  · intro h
    refine hok.nonempty ?_
    have := congrArg List.length h
    simp only [atomsAt, List.length_ofFn, List.length_nil] at this
    subst this
    rfl
  · intro a ha
    obtain ⟨i, rfl⟩ := List.mem_ofFn.1 ha
    refine ⟨_, fun a => ⟨(h2 i a).1.le, (h2 i a).2⟩, ?_⟩
    rw [cartOf_vecMul, Matrix.vecMul_vecMul, Matrix.nonsing_inv_mul _ hunit, Matrix.vecMul_one]

/-- The deformations after which the neighbour list handles the structure are a neighbourhood of no deformation, if
there are slots to spare. -/
theorem strains_nhds (A : ArgSort) (L : Fin 3 → Vec ℝ) {n : ℕ} (z : Fin n → ℤ) (x : Fin n → Vec ℝ) (umax : List ℕ)
    (rcut δ : ℝ) (hr : 0 < rcut) (hδ : 0 < δ) (hx : x ∈ envPositions L z umax (rcut + δ)) :
    envStrains L z umax rcut x ∈ nhds (0 : Vec ℝ →L[ℝ] Vec ℝ) := by
  obtain ⟨hok, hap, hroom⟩ := hx
  obtain ⟨ε1, p1, q1⟩ := close_apart A L z x hok hap
  obtain ⟨ε2, p2, q2⟩ := close_room L z x umax rcut δ hr hδ hap hroom
  have hsmall : ∀ᶠ η in nhds (0 : Vec ℝ →L[ℝ] Vec ℝ), 2 * ‖η‖ < min ε1 ε2 := by
    have hc : Continuous (fun η : Vec ℝ →L[ℝ] Vec ℝ => 2 * ‖η‖) := by fun_prop
    exact hc.continuousAt.eventually_lt continuousAt_const (by simpa using ⟨p1, p2⟩)
  have hent : ∀ q p, Continuous (fun η : Vec ℝ →L[ℝ] Vec ℝ => strained η L q p) := by
    intro q p
    have h1 : Continuous (fun η : Vec ℝ →L[ℝ] Vec ℝ => (ContinuousLinearMap.apply ℝ (Vec ℝ) (L q)) η) :=
      ContinuousLinearMap.continuous _
    exact continuous_const.add ((continuous_apply p).comp h1)
  have h0L : strained (0 : Vec ℝ →L[ℝ] Vec ℝ) L = L := by funext i; simp [strained]
  have hdet : ∀ᶠ η in nhds (0 : Vec ℝ →L[ℝ] Vec ℝ), (Matrix.of (strained η L)).det ≠ 0 := by
    have hc : Continuous (fun η : Vec ℝ →L[ℝ] Vec ℝ => (Matrix.of (strained η L)).det) :=
      Continuous.matrix_det (continuous_pi (fun q => continuous_pi (fun p => hent q p)))
    exact hc.continuousAt.eventually_ne (by rw [h0L]; exact hok.nonsing)
  have hdir : ∀ᶠ η in nhds (0 : Vec ℝ →L[ℝ] Vec ℝ), ∀ p, ∃ q, 0 < strained η L q p := by
    rw [Filter.eventually_all]
    intro p
    obtain ⟨q, hq⟩ := hok.dir p
    have : ∀ᶠ η in nhds (0 : Vec ℝ →L[ℝ] Vec ℝ), 0 < strained η L q p :=
      continuousAt_const.eventually_lt (hent q p).continuousAt (by rw [h0L]; exact hq)
    filter_upwards [this] with η h
    exact ⟨q, h⟩
  filter_upwards [hsmall, hdet, hdir] with η h1 h2 h3
  have hcl : CloseImages (min ε1 ε2) L x (strained η L) (strained η x) := by
    intro i j t
    have hq : imagePos (strained η L) (strained η x j) t - strained η x i
        = (imagePos L (x j) t - x i) + η (imagePos L (x j) t - x i) := by
      simp only [imagePos, strained, map_sub, map_add, map_sum, map_smul, smul_add, Finset.sum_add_distrib]
      abel
    rw [← norm3_eq_dist3, ← norm3_eq_dist3, hq]
    set q := imagePos L (x j) t - x i with hqd
    have t1 : norm3 q ≤ norm3 (q + η q) + norm3 (η q) := by
      have := dist3_triangle q (-(η q)) 0
      rw [← norm3_eq_dist3, ← norm3_eq_dist3, ← norm3_eq_dist3] at this
      have hneg : norm3 (-(η q) - 0) = norm3 (η q) := by
        unfold norm3; simp
      rw [sub_neg_eq_add, sub_zero, hneg] at this
      exact this
    have t2 := norm3_le_two (η q)
    have t3 := η.le_opNorm q
    have t4 := norm_le_norm3 q
    have t5 : ‖η‖ * ‖q‖ ≤ ‖η‖ * norm3 q := mul_le_mul_of_nonneg_left t4 (norm_nonneg _)
    have t6 : 2 * ‖η‖ * norm3 q ≤ min ε1 ε2 * norm3 q := mul_le_mul_of_nonneg_right h1.le (Real.sqrt_nonneg _)
    have t7 := lt_min p1 p2
    linarith
  refine ⟨⟨h2, ?_, ?_, h3, fun _ _ _ h => by simp at h⟩, q1 _ _ _ (lt_min p1 p2) (min_le_left _ _) hcl,
    q2 _ _ _ (lt_min p1 p2) (min_le_right _ _) hcl⟩
  · intro h
    refine hok.nonempty ?_
    have := congrArg List.length h
    simp only [atomsAt, List.length_ofFn, List.length_nil] at this
    subst this
    rfl
  · intro a ha
    obtain ⟨i, rfl⟩ := List.mem_ofFn.1 ha
    obtain ⟨f, hf, hxf⟩ := hok.inCell _ (List.mem_ofFn.2 ⟨i, rfl⟩)
    refine ⟨f, hf, ?_⟩
    simp only at hxf
    simp only [strained]
    rw [hxf]
    simp only [cartOf, strained, map_sum, map_smul, smul_add, Finset.sum_add_distrib]

end MaterSDK
