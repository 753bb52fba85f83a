import Verif.Lemmas.MsdD
import Verif.Props.Displacement

/-! # C224: mean-square displacements in doubles -/

namespace MaterSDK

/-- C224: in doubles and for every order of the additions there is one value for each frame but the first, with a
relative error of at most `17 n 2⁻⁵³`. -/
theorem C224_values (A : NpSum flR) (cpus : ℕ) (hc : 3 ≤ cpus) (frames : List (Struct ℝ)) (n : ℕ) (hn : 0 < n)
    (hb : n ≤ 2 ^ 45) (h : ∀ f ∈ frames, f.sites.length = n) :
    ∃ vals, calcMsdD flR A cpus frames = .ok vals ∧ vals.length = frames.length - 1 ∧
      ∀ (k : ℕ) (f g : Struct ℝ), frames[k]? = some f → frames[k + 1]? = some g →
        ∃ y, vals[k]? = some (some y) ∧
          |y - (List.zipWith (fun t u : Site ℝ => dist3 u.pos t.pos ^ 2) f.sites g.sites).sum / n| ≤
            17 * (n * 2 ^ (-53 : ℤ)) *
              ((List.zipWith (fun t u : Site ℝ => dist3 u.pos t.pos ^ 2) f.sites g.sites).sum / n) := by
  have hpair : ∀ f g : Struct ℝ, f ∈ frames → g ∈ frames → ∃ y, calcMsdSD flR A f g = .ok (some y) ∧
      |y - (List.zipWith (fun t u : Site ℝ => dist3 u.pos t.pos ^ 2) f.sites g.sites).sum / n| ≤
        17 * (n * uR) * ((List.zipWith (fun t u : Site ℝ => dist3 u.pos t.pos ^ 2) f.sites g.sites).sum / n) := by
    intro f g hf hg
    have lf := h f hf
    have lg := h g hg
    have nf : f.sites ≠ [] := fun h0 => by rw [h0] at lf; simp at lf; omega
    have ng : g.sites ≠ [] := fun h0 => by rw [h0] at lg; simp at lg; omega
    have hr : npSubRows (g.sites.map Site.pos) (f.sites.map Site.pos) =
        .ok (List.zipWith (· - ·) (g.sites.map Site.pos) (f.sites.map Site.pos)) :=
      npSubRows_same (by simp [lf, lg])
    have hrl : (List.zipWith (· - ·) (g.sites.map Site.pos) (f.sites.map Site.pos) : List (Vec ℝ)).length = n := by
      simp [lf, lg]
    obtain ⟨y, x, h1, h2, h3⟩ := meanSquareD_err A
      (List.zipWith (· - ·) (g.sites.map Site.pos) (f.sites.map Site.pos))
      (fun h0 => by rw [h0] at hrl; simp at hrl; omega) (by rw [hrl]; exact hb)
    rw [hrl] at h3
    have hx : calcMsdS f g = .ok (some x) := by
      rw [calcMsdS, if_neg (by simp [nf, ng]), hr, ok_bind, h2]
      rfl
    rw [calcMsdS_same (lf.trans lg.symm) ng, lg] at hx
    have hx := Option.some.inj (Except.ok.inj hx)
    refine ⟨y, ?_, ?_⟩
    · rw [calcMsdSD, if_neg (by simp [nf, ng]), hr, ok_bind, h1]
      rfl
    · rw [hx]
      exact h3
  have hall : ∀ p ∈ consecutiveFrames frames, ∃ v, calcMsdSD flR A p.1 p.2 = .ok v := by
    intro p hp
    obtain ⟨y, hy, -⟩ := hpair p.1 p.2 (List.of_mem_zip hp).1 (List.mem_of_mem_tail (List.of_mem_zip hp).2)
    exact ⟨_, hy⟩
  obtain ⟨vals, hv⟩ : ∃ vals, (consecutiveFrames frames).mapM
      (fun p : Struct ℝ × Struct ℝ => calcMsdSD flR A p.1 p.2) = .ok vals := by
    cases hm : (consecutiveFrames frames).mapM (fun p : Struct ℝ × Struct ℝ => calcMsdSD flR A p.1 p.2) with
    | ok vals => exact ⟨vals, rfl⟩
    | error e =>
      obtain ⟨p, hp, he⟩ := mapM_eq_error hm
      obtain ⟨v, hv⟩ := hall p hp
      rw [hv] at he
      cases he
  have hF := mapM_eq_ok.1 hv
  refine ⟨vals, by rw [calcMsdD, poolMap_large hc, hv], ?_, ?_⟩
  · rw [← hF.length_eq, consecutiveFrames, List.length_zip, List.length_tail]
    omega
  · intro k f g hf hg
    have hz : (consecutiveFrames frames)[k]? = some (f, g) := by
      unfold consecutiveFrames
      rw [List.getElem?_zip_eq_some]
      exact ⟨hf, by rw [List.getElem?_tail]; exact hg⟩
    obtain ⟨v, hvk, hfv⟩ := forall₂_get hF hz
    obtain ⟨y, hy, hb⟩ := hpair f g (List.mem_of_getElem? hf) (List.mem_of_getElem? hg)
    rw [hy] at hfv
    refine ⟨y, ?_, hb⟩
    rw [hvk, Except.ok.inj hfv]

/-- C224: atoms that do not move give exactly 0. -/
theorem C224_at_rest (A : NpSum flR) (cpus : ℕ) (hc : 3 ≤ cpus) (f : Struct ℝ) (hne : f.sites ≠ [])
    (hb : f.sites.length ≤ 2 ^ 45) : calcMsdD flR A cpus [f, f] = .ok [some 0] := by
  obtain ⟨vals, h1, h2, h3⟩ := C224_values A cpus hc [f, f] f.sites.length (List.length_pos_iff.2 hne) hb
    (by simp)
  obtain ⟨y, h4, h5⟩ := h3 0 f f rfl rfl
  have h0 : (List.zipWith (fun t u : Site ℝ => dist3 u.pos t.pos ^ 2) f.sites f.sites).sum = 0 := by
    rw [List.zipWith_self, List.sum_eq_zero]
    intro x hx
    obtain ⟨t, -, rfl⟩ := List.mem_map.1 hx
    simp [dist3]
  rw [h0, zero_div, mul_zero, sub_zero] at h5
  have hy : y = 0 := abs_eq_zero.1 (le_antisymm h5 (abs_nonneg y))
  rw [h1]
  match vals, h2, h4 with
  | [v], _, h4 =>
    have : v = some y := Option.some.inj h4
    rw [this, hy]

/-- C224: no value is negative, and a value is 0 exactly if no atom has moved since the frame before. -/
theorem C224_zero_iff (A : NpSum flR) (cpus : ℕ) (hc : 3 ≤ cpus) (frames : List (Struct ℝ)) (n : ℕ) (hn : 0 < n)
    (hb : n ≤ 2 ^ 45) (h : ∀ f ∈ frames, f.sites.length = n) (vals : List (Option ℝ))
    (hv : calcMsdD flR A cpus frames = .ok vals) (k : ℕ) (f g : Struct ℝ) (hf : frames[k]? = some f)
    (hg : frames[k + 1]? = some g) :
    ∃ y, vals[k]? = some (some y) ∧ 0 ≤ y ∧ (y = 0 ↔ f.sites.map Site.pos = g.sites.map Site.pos) := by
  obtain ⟨vals', h1, -, h3⟩ := C224_values A cpus hc frames n hn hb h
  rw [hv] at h1
  cases h1
  obtain ⟨y, h4, h5⟩ := h3 k f g hf hg
  have hnR : (0 : ℝ) < n := by exact_mod_cast hn
  have hl : f.sites.length = g.sites.length :=
    (h f (List.mem_of_getElem? hf)).trans (h g (List.mem_of_getElem? hg)).symm
  obtain ⟨s0, s1⟩ := zip_dist_zero f.sites g.sites hl
  have hs : (n : ℝ) * 2 ^ (-53 : ℤ) ≤ 1 / 256 := small_u hb
  have hx : 0 ≤ (List.zipWith (fun t u : Site ℝ => dist3 u.pos t.pos ^ 2) f.sites g.sites).sum / n :=
    div_nonneg s0 hnR.le
  have hz : (List.zipWith (fun t u : Site ℝ => dist3 u.pos t.pos ^ 2) f.sites g.sites).sum / n = 0 ↔
      f.sites.map Site.pos = g.sites.map Site.pos := by
    rw [div_eq_zero_iff, or_iff_left hnR.ne', s1]
  generalize (List.zipWith (fun t u : Site ℝ => dist3 u.pos t.pos ^ 2) f.sites g.sites).sum / (n : ℝ) = x at h5 hx hz
  generalize (n : ℝ) * 2 ^ (-53 : ℤ) = t at h5 hs
  have h6 := mul_le_mul_of_nonneg_right hs hx
  obtain ⟨h7, h8⟩ := abs_le.1 h5
  refine ⟨y, h4, by linarith, ?_⟩
  rw [← hz]
  constructor
  · intro hy
    linarith
  · intro hx0
    rw [hx0] at h7 h8
    linarith

/-- C224: rounding makes no call fail and saves none. -/
theorem C224_errors (A : NpSum flR) (cpus : ℕ) (frames : List (Struct ℝ)) (e : PyErr) :
    calcMsdD flR A cpus frames = .error e ↔ calcMsd cpus frames = .error e := by
  unfold calcMsdD calcMsd poolMap
  split
  · exact ⟨fun h => by cases h; rfl, fun h => by cases h; rfl⟩
  · exact mapM_error_congr (fun p e => calcMsdSD_error flR A p.1 p.2 e) e _

/-- Two frames of two atoms, one of which moves by 1: the value is 1/2 up to rounding. -/
example (A : NpSum flR) : ∃ (vals : List (Option ℝ)) (y : ℝ), calcMsdD flR A 8 [⟨1, [⟨1, 0, none⟩, ⟨1, ![5, 0, 0], none⟩]⟩,
      ⟨1, [⟨1, ![1, 0, 0], none⟩, ⟨1, ![5, 0, 0], none⟩]⟩] = .ok vals ∧ vals[0]? = some (some y) ∧
    |y - 1 / 2| ≤ 17 * (2 * 2 ^ (-53 : ℤ)) * (1 / 2) := by
  obtain ⟨vals, h1, -, h3⟩ := C224_values A 8 (by norm_num) [⟨1, [⟨1, 0, none⟩, ⟨1, ![5, 0, 0], none⟩]⟩,
      ⟨1, [⟨1, ![1, 0, 0], none⟩, ⟨1, ![5, 0, 0], none⟩]⟩] 2 (by norm_num) (by norm_num) (by simp)
  obtain ⟨y, h4, h5⟩ := h3 0 _ _ rfl rfl
  refine ⟨vals, y, h1, h4, ?_⟩
  have e : (List.zipWith (fun t u : Site ℝ => dist3 u.pos t.pos ^ 2) [⟨1, 0, none⟩, ⟨1, ![5, 0, 0], none⟩]
      [⟨1, ![1, 0, 0], none⟩, ⟨1, ![5, 0, 0], none⟩]).sum / ((2 : ℕ) : ℝ) = 1 / 2 := by
    simp [dist3_sq]
  rw [e] at h5
  exact_mod_cast h5

end MaterSDK
