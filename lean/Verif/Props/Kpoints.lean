import Verif.Lemmas.Kpoints
import Verif.Spec.Kpoints
import Verif.Lemmas.KpathSteps
import Verif.Lemmas.Dict
import Verif.Lemmas.DeepMDNorm
import Mathlib.Tactic.NormNum
import Mathlib.Tactic.FieldSimp
import Mathlib.Tactic.FinCases
import Mathlib.Tactic.IntervalCases

/-! # k-points: C37, C49-C51, C69, C70 -/

namespace MaterSDK

/-! ## C37 -/

/-- C37: which files give k-path distances. -/
theorem C37_accepts (rows : List Str) (lat : Matrix (Fin 3) (Fin 3) ℝ) :
    (∃ l, distanceA rows lat = .ok l) ↔
      lat.det ≠ 0 ∧ rows.drop 2 ≠ [] ∧ ∀ row ∈ rows.drop 2, ∃ k, RowKpt row k := by
  constructor
  · rintro ⟨l, h⟩
    unfold distanceA splitDistances at h
    obtain ⟨parts, h1, -⟩ := bind_eq_ok.1 h
    obtain ⟨cs, h2, -⟩ := bind_eq_ok.1 h1
    obtain ⟨hdet, hne, ks, hks, -⟩ := (kptCoordsA_iff rows lat cs).1 h2
    refine ⟨hdet, hne, fun row hrow => ?_⟩
    obtain ⟨i, hi, rfl⟩ := List.mem_iff_getElem.1 hrow
    obtain ⟨k, -, hk⟩ := forall₂_get hks (List.getElem?_eq_getElem hi)
    exact ⟨k, hk⟩
  · rintro ⟨hdet, hne, hrow⟩
    obtain ⟨ks, hks⟩ : ∃ ks, List.Forall₂ RowKpt (rows.drop 2) ks := by
      clear hne
      generalize rows.drop 2 = rs at hrow
      induction rs with
      | nil => exact ⟨[], .nil⟩
      | cons r rs ih =>
        obtain ⟨k, hk⟩ := hrow r (by simp)
        obtain ⟨ks, hks⟩ := ih (fun r' hr' => hrow r' (by simp [hr']))
        exact ⟨k :: ks, .cons hk hks⟩
    obtain ⟨l, hl, -⟩ := distanceA_core rows lat hdet hne ks hks
    exact ⟨l, hl⟩

/-- C37: the distances along the k-path start at 0 and there is one per k-point. From one k-point to the
next the value stays the same if both rows carry a label (a jump between path segments); otherwise it
grows by the reciprocal-space distance of the two k-points. -/
theorem C37_distances (rows : List Str) (lat b : Matrix (Fin 3) (Fin 3) ℝ) (l : List ℝ)
    (hb : IsReciprocal lat b) (h : distanceA rows lat = .ok l) :
    l.length = (rows.drop 2).length ∧ l[0]? = some 0 ∧ l.Pairwise (· ≤ ·) ∧
    ∀ i x y r s, l[i]? = some x → l[i + 1]? = some y → (rows.drop 2)[i]? = some r →
      (rows.drop 2)[i + 1]? = some s →
      (Labelled r ∧ Labelled s → y = x) ∧
      (¬ (Labelled r ∧ Labelled s) → ∀ u v, RowKpt r u → RowKpt s v →
        y = x + norm3 (Matrix.vecMul (v - u) b)) := by
  have h0 := h
  unfold distanceA splitDistances at h0
  obtain ⟨parts, h1, -⟩ := bind_eq_ok.1 h0
  obtain ⟨cs, h2, -⟩ := bind_eq_ok.1 h1
  obtain ⟨hdet, hne, ks, hks, -⟩ := (kptCoordsA_iff rows lat cs).1 h2
  obtain ⟨l', hl', hlen, hz, hrel⟩ := distanceA_core rows lat hdet hne ks hks
  obtain rfl := Except.ok.inj (h.symm.trans hl')
  have hB : (2 * Real.pi) • (lat⁻¹).transpose = b := recip_two_pi hb
  rw [hB] at hrel
  have hlr : (rows.drop 2).length = ks.length := hks.length_eq
  have hstep : ∀ i (hi : i + 1 < l.length), l[i]'(by omega) ≤ l[i + 1] := by
    intro i hi
    obtain ⟨r, hr⟩ : ∃ r, (rows.drop 2)[i]? = some r := ⟨_, List.getElem?_eq_getElem (by omega)⟩
    obtain ⟨s, hs⟩ : ∃ s, (rows.drop 2)[i + 1]? = some s := ⟨_, List.getElem?_eq_getElem (by omega)⟩
    obtain ⟨u, hu⟩ : ∃ u, ks[i]? = some u := ⟨_, List.getElem?_eq_getElem (by omega)⟩
    obtain ⟨v, hv⟩ : ∃ v, ks[i + 1]? = some v := ⟨_, List.getElem?_eq_getElem (by omega)⟩
    obtain ⟨g1, g2⟩ := hrel i _ _ r s u v (List.getElem?_eq_getElem (by omega))
      (List.getElem?_eq_getElem hi) hr hs hu hv
    by_cases hc : Labelled r ∧ Labelled s
    · exact (g1 hc).ge
    · rw [g2 hc]
      have : 0 ≤ norm3 (Matrix.vecMul (v - u) b) := Real.sqrt_nonneg _
      linarith
  refine ⟨by omega, hz, ?_, ?_⟩
  · rw [List.pairwise_iff_getElem]
    intro i j hi hj hij
    obtain ⟨d, rfl⟩ : ∃ d, j = i + 1 + d := ⟨j - (i + 1), by omega⟩
    clear hij
    induction d with
    | zero => exact hstep i hj
    | succ d ih => exact (ih (by omega)).trans (hstep (i + 1 + d) hj)
  · intro i x y r s hx hy hr hs
    obtain ⟨u', hu', hru⟩ := forall₂_get hks hr
    obtain ⟨v', hv', hrv⟩ := forall₂_get hks hs
    obtain ⟨g1, g2⟩ := hrel i x y r s u' v' hx hy hr hs hu' hv'
    refine ⟨g1, fun hc u v hu hv => ?_⟩
    rw [rowKpt_unique hu hru, rowKpt_unique hv hrv]
    exact g2 hc

/-- C37: the distances in Bohr are the distances in Angstrom times 0.529177249, one by one; both exist for
the same files. -/
theorem C37_bohr (rows : List Str) (lat : Matrix (Fin 3) (Fin 3) ℝ) (l : List ℝ) :
    distanceBohr rows lat = .ok l ↔
      ∃ m, distanceA rows lat = .ok m ∧ l = m.map (fun v => v * 0.529177249) := by
  have e : (529177249 / 1000000000 : ℝ) = 0.529177249 := by norm_num
  unfold distanceBohr
  rw [bind_eq_ok, e]
  exact exists_congr fun m => and_congr_right fun _ =>
    ⟨fun h => (Except.ok.inj h).symm, fun h => congrArg Except.ok h.symm⟩

/-- Two path segments: G to M and, after a jump, K to G. -/
def exampleKpt : List Str :=
  [chars% "4\n", chars% "2 0\n", chars% "0.0 0.0 0.0 0.1 G\n", chars% "0.25 0.0 0.0 0.1\n",
    chars% "0.5 0.0 0.0 0.1 M\n", chars% "0.0 0.5 0.0 0.1 K\n", chars% "0.0 0.0 0.0 0.1 G\n"]

theorem exampleKpt_rows : ∀ row ∈ exampleKpt.drop 2, ∃ k, RowKpt row k := by
  intro row hrow
  simp only [exampleKpt, List.drop_succ_cons, List.drop_zero, List.mem_cons, List.not_mem_nil,
    or_false] at hrow
  rcases hrow with rfl | rfl | rfl | rfl | rfl
  · exact ⟨_, chars% "0.0", chars% "0.0", chars% "0.0", [chars% "0.1", chars% "G"], 0, 0, 0,
      by decide +kernel, by decide +kernel, by decide +kernel, by decide +kernel, rfl⟩
  · exact ⟨_, chars% "0.25", chars% "0.0", chars% "0.0", [chars% "0.1"], 1/4, 0, 0,
      by decide +kernel, by decide +kernel, by decide +kernel, by decide +kernel, rfl⟩
  · exact ⟨_, chars% "0.5", chars% "0.0", chars% "0.0", [chars% "0.1", chars% "M"], 1/2, 0, 0,
      by decide +kernel, by decide +kernel, by decide +kernel, by decide +kernel, rfl⟩
  · exact ⟨_, chars% "0.0", chars% "0.5", chars% "0.0", [chars% "0.1", chars% "K"], 0, 1/2, 0,
      by decide +kernel, by decide +kernel, by decide +kernel, by decide +kernel, rfl⟩
  · exact ⟨_, chars% "0.0", chars% "0.0", chars% "0.0", [chars% "0.1", chars% "G"], 0, 0, 0,
      by decide +kernel, by decide +kernel, by decide +kernel, by decide +kernel, rfl⟩

example : ∃ l, distanceA exampleKpt 1 = .ok l :=
  (C37_accepts exampleKpt 1).2 ⟨by simp, by decide +kernel, exampleKpt_rows⟩

example : IsReciprocal 1 ((2 * Real.pi) • 1) := by
  simp [IsReciprocal, Matrix.transpose_smul]

-- The jump in the example: rows 2 and 3 carry labels.
example : ∃ r s, (exampleKpt.drop 2)[2]? = some r ∧ (exampleKpt.drop 2)[3]? = some s ∧
    Labelled r ∧ Labelled s :=
  ⟨_, _, rfl, rfl, by unfold Labelled; decide +kernel, by unfold Labelled; decide +kernel⟩

/-! ## C70 and C49 -/

/-- C70: what counts as vacuum. Direction `i` counts as vacuum exactly when the stored Cartesian
coordinates of any two atoms along axis `i` differ by less than the length of lattice vector `i` minus 10.
A structure without atoms is refused. -/
theorem C70_meaning (s : Struct ℝ) :
    (s.sites = [] → s.judgeVacuum = .error .valueError) ∧
    (s.sites ≠ [] → ∃ v : Fin 3 → Bool, s.judgeVacuum = .ok [v 0, v 1, v 2] ∧
      ∀ i, v i = true ↔ WithinRange s i (norm3 (s.lattice i) - 10)) := by
  refine ⟨fun h => ?_, judgeVacuum_spec s⟩
  have : ∀ i, s.vacuumAlong i = .error .valueError := by
    intro i
    unfold Struct.vacuumAlong
    simp only [h, List.map_nil, npMax]
    rfl
  unfold Struct.judgeVacuum
  rw [List.mapM_cons, this 0]
  rfl

/-- C70 (partial): moving the whole structure rigidly does not change the vacuum directions. Missing: the
same for moving single atoms by lattice vectors, which fails, see `C70_images`. -/
theorem C70_translation_partial (s : Struct ℝ) (d : Vec ℝ) :
    ({ s with sites := s.sites.map (fun t => { t with pos := t.pos + d }) } : Struct ℝ).judgeVacuum
      = s.judgeVacuum := by
  by_cases hs : s.sites = []
  · rw [(C70_meaning s).1 hs]
    exact (C70_meaning _).1 (by simp [hs])
  · obtain ⟨v, h1, h2⟩ := (C70_meaning s).2 hs
    obtain ⟨w, h3, h4⟩ := (C70_meaning
      { s with sites := s.sites.map (fun t => { t with pos := t.pos + d }) }).2 (by simpa using hs)
    have hvw : ∀ i, v i = w i := by
      intro i
      rw [Bool.eq_iff_iff, h2 i, h4 i]
      simp [WithinRange]
    rw [h1, h3, hvw 0, hvw 1, hvw 2]

/-- A cubic cell of length 20 with two atoms at the given heights. -/
def twoLayers (z w : ℝ) : Struct ℝ :=
  ⟨(20 : ℝ) • 1, [⟨6, ![0, 0, z], none⟩, ⟨6, ![0, 0, w], none⟩]⟩

theorem twoLayers_len (z w : ℝ) (i : Fin 3) : norm3 ((twoLayers z w).lattice i) = 20 := by
  fin_cases i <;> simp [twoLayers, norm3]

/-- C70 fails: a slab of thickness 1 in a cell of height 20 has vacuum along the third axis if its two
layers are stored at heights 0 and 1, but not if the first layer is stored at the equivalent height 20. -/
theorem C70_images :
    (∃ a b, (twoLayers 0 1).judgeVacuum = .ok [a, b, true]) ∧
    (∃ a b, (twoLayers 20 1).judgeVacuum = .ok [a, b, false]) := by
  constructor
  · obtain ⟨v, h1, h2⟩ := (C70_meaning (twoLayers 0 1)).2 (by simp [twoLayers])
    refine ⟨v 0, v 1, ?_⟩
    have : v 2 = true := by
      rw [h2, twoLayers_len]
      simp [WithinRange, twoLayers]
      norm_num
    rw [h1, this]
  · obtain ⟨v, h1, h2⟩ := (C70_meaning (twoLayers 20 1)).2 (by simp [twoLayers])
    refine ⟨v 0, v 1, ?_⟩
    have : v 2 = false := by
      rw [← Bool.not_eq_true, h2, twoLayers_len]
      simp [WithinRange, twoLayers]
    rw [h1, this]

/-- C49: density 0 gives one division per direction, for any structure. -/
theorem C49_zero (s : Struct ℝ) : getKmesh s 0 = .ok [1, 1, 1] := by
  unfold getKmesh
  rw [if_pos rfl]

/-- C49 (partial): for a positive density, a non-singular lattice and at least one atom there is a mesh of
three divisions, each at least 1, and 1 along vacuum directions. Along other directions the division is the
reciprocal length over the density, rounded to the nearest integer, or 1 if that rounds to 0. Missing:
negative densities, see `C49_negative`. -/
theorem C49_mesh_partial (s : Struct ℝ) (b : Matrix (Fin 3) (Fin 3) ℝ) (density : ℝ) (hd : 0 < density)
    (hb : IsReciprocal s.lattice b) (hs : s.sites ≠ []) :
    ∃ (m : Fin 3 → ℤ) (v : Fin 3 → Bool), getKmesh s density = .ok [m 0, m 1, m 2] ∧
      s.judgeVacuum = .ok [v 0, v 1, v 2] ∧
      ∀ i, 1 ≤ m i ∧ (v i = true → m i = 1) ∧
        (v i = false → |(m i : ℝ) - norm3 (b i) / (density * (2 * Real.pi))| ≤ 1 / 2 ∨
          m i = 1 ∧ norm3 (b i) / (density * (2 * Real.pi)) ≤ 1 / 2) := by
  obtain ⟨v, hv, -⟩ := (C70_meaning s).2 hs
  have hB := recip_two_pi hb
  have hdet : s.lattice.det ≠ 0 := by
    have hpi : (2 * Real.pi) ≠ 0 := by positivity
    have h1 : s.lattice * ((2 * Real.pi)⁻¹ • b).transpose = 1 := by
      unfold IsReciprocal at hb
      rw [Matrix.transpose_smul, Matrix.mul_smul, hb, smul_smul, inv_mul_cancel₀ hpi, one_smul]
    exact (recip_unique h1).1
  let k : Fin 3 → ℤ := fun i => pyRound (norm3 (b i) / (density * 2 * Real.pi))
  let m : Fin 3 → ℤ := fun i =>
    if (if v i then 1 else k i) = 0 then 1 else (if v i then 1 else k i)
  refine ⟨m, v, ?_, hv, ?_⟩
  · unfold getKmesh recipLattice
    rw [if_neg hd.ne', recip_cryst_ok hdet]
    simp only [ok_bind]
    have e1 : (pure ((2 * Real.pi) • s.lattice⁻¹.transpose) :
        Except PyErr (Matrix (Fin 3) (Fin 3) ℝ)) = .ok ((2 * Real.pi) • s.lattice⁻¹.transpose) := rfl
    rw [e1, hB, ok_bind, hv, ok_bind]
    rfl
  · intro i
    have hk0 : 0 ≤ k i := by
      refine pyRound_nonneg _ (div_nonneg (Real.sqrt_nonneg _) ?_)
      have := Real.pi_pos
      positivity
    have hnear : |(k i : ℝ) - norm3 (b i) / (density * 2 * Real.pi)| ≤ 1 / 2 := pyRound_near _
    rw [show density * (2 * Real.pi) = density * 2 * Real.pi by ring]
    simp only [m]
    cases hvi : v i with
    | true => simp
    | false =>
      simp only [Bool.false_eq_true, if_false]
      by_cases h0 : k i = 0
      · rw [h0] at hnear ⊢
        refine ⟨by simp, by simp, fun _ => Or.inr ⟨by simp, ?_⟩⟩
        have := (abs_le.1 hnear).1
        push_cast at this
        linarith
      · rw [if_neg h0]
        exact ⟨by omega, by simp, fun _ => Or.inl hnear⟩

/-- C49: without atoms, or for a singular lattice, there is no mesh for a non-zero density. -/
theorem C49_rejects (s : Struct ℝ) (density : ℝ) (hd : density ≠ 0)
    (h : s.sites = [] ∨ s.lattice.det = 0) : getKmesh s density = .error .valueError := by
  unfold getKmesh recipLattice recipCryst
  rw [if_neg hd]
  by_cases hdet : s.lattice.det = 0
  · rw [if_pos hdet]; rfl
  · rw [if_neg hdet]
    have hs := h.resolve_right hdet
    rw [(C70_meaning s).1 hs]
    rfl

/-- One atom in a unit cube. -/
def unitCube : Struct ℝ := ⟨1, [⟨6, 0, none⟩]⟩

/-- C49 fails for a negative density: the divisions are negative. -/
theorem C49_negative : getKmesh unitCube (-1 / 10) = .ok [-10, -10, -10] := by
  have hdet : unitCube.lattice.det ≠ 0 := by simp [unitCube]
  obtain ⟨v, hv, hvi⟩ := (C70_meaning unitCube).2 (by simp [unitCube])
  have hvf : ∀ i, v i = false := by
    intro i
    rw [← Bool.not_eq_true, hvi]
    intro h
    have := h ⟨6, 0, none⟩ (by simp [unitCube]) ⟨6, 0, none⟩ (by simp [unitCube])
    have e : norm3 (unitCube.lattice i) = 1 := by
      fin_cases i <;> simp [unitCube, norm3]
    rw [e] at this
    norm_num at this
  have hB : (2 * Real.pi) • unitCube.lattice⁻¹.transpose = (2 * Real.pi) • 1 := by simp [unitCube]
  have hk : ∀ i : Fin 3, pyRound (norm3 (((2 * Real.pi) • (1 : Matrix (Fin 3) (Fin 3) ℝ)) i) /
      ((-1 / 10 : ℝ) * 2 * Real.pi)) = -10 := by
    intro i
    have hpi := Real.pi_pos
    have e : norm3 (((2 * Real.pi) • (1 : Matrix (Fin 3) (Fin 3) ℝ)) i) = 2 * Real.pi := by
      have h2 : Real.sqrt ((2 * Real.pi) ^ 2) = 2 * Real.pi := Real.sqrt_sq (by positivity)
      fin_cases i <;> simp [norm3] <;> simpa using h2
    rw [e]
    have : 2 * Real.pi / ((-1 / 10 : ℝ) * 2 * Real.pi) = ((-10 : ℤ) : ℝ) := by
      field_simp
      norm_num
    rw [this]
    exact pyRound_intCast _
  unfold getKmesh recipLattice
  rw [if_neg (by norm_num), recip_cryst_ok hdet]
  simp only [ok_bind]
  have e1 : (pure ((2 * Real.pi) • unitCube.lattice⁻¹.transpose) :
      Except PyErr (Matrix (Fin 3) (Fin 3) ℝ)) = .ok ((2 * Real.pi) • unitCube.lattice⁻¹.transpose) := rfl
  rw [e1, hB, ok_bind, hv, ok_bind]
  simp only [List.map_cons, List.map_nil, hk, hvf]
  rfl

example : IsReciprocal unitCube.lattice ((2 * Real.pi) • 1) ∧ unitCube.sites ≠ [] :=
  ⟨by simp [IsReciprocal, unitCube, Matrix.transpose_smul], by simp [unitCube]⟩

/-! ## C50 and C69 -/

/-- C50: two-dimensional paths. Every returned k-point has third coordinate 0 and every label of a
returned path is a returned k-point. Each returned path comes from an input path: it is that path (with
`G` for `\\Gamma`) without the labels that are no returned k-points, and has at least two points; the order
of the paths and of the points is kept. Input paths with two or more such points are not lost. -/
theorem C50_two_dim (d : KDict) (paths : List (List Str)) (kpts : KDict) (ps : List (List Str))
    (h : kpathSampler 2 d paths = .ok (kpts, ps)) :
    (∀ p ∈ kpts, p.2 2 = 0) ∧
    (∀ p ∈ ps, 2 ≤ p.length ∧ ∀ k ∈ p, ∃ c, (k, c) ∈ kpts) ∧
    (∃ qs, qs.Sublist paths ∧
      List.Forall₂ (fun p q => p = (q.map (fun k => if k = gammaName then gName else k)).filter
        (fun k => decide (k ∈ kpts.map Prod.fst))) ps qs ∧
      ∀ q ∈ paths, q ∉ qs → ((q.map (fun k => if k = gammaName then gName else k)).filter
        (fun k => decide (k ∈ kpts.map Prod.fst))).length ≤ 1) := by
  unfold kpathSampler at h
  obtain ⟨kp, hk, h⟩ := bind_eq_ok.1 h
  obtain ⟨ps', hps, h⟩ := bind_eq_ok.1 h
  obtain ⟨rfl, rfl⟩ := Prod.mk.inj (Except.ok.inj h)
  have hkeys : ∀ k, k ∈ kp.map Prod.fst ↔ ∃ c, (k, c) ∈ kp := by
    intro k
    simp [List.mem_map]
  unfold getKpaths at hps
  simp only [if_true] at hps
  split at hps
  · cases hps
  obtain rfl := Except.ok.inj hps
  refine ⟨?_, ?_, ?_⟩
  · unfold getKpoints at hk
    simp only [if_true] at hk
    obtain rfl := Except.ok.inj hk
    intro p hp
    simpa using (List.mem_filter.1 hp).2
  · intro p hp
    obtain ⟨h1, h2⟩ := List.mem_filter.1 hp
    refine ⟨by simpa [Nat.succ_le_iff] using h2, ?_⟩
    obtain ⟨q, -, rfl⟩ := List.mem_map.1 h1
    intro k hk
    exact (hkeys k).1 (by simpa using (List.mem_filter.1 hk).2)
  · refine ⟨paths.filter (fun q => decide (((renamePath q).filter
      (fun k => decide (k ∈ kp.map Prod.fst))).length > 1)), List.filter_sublist, ?_, ?_⟩
    · rw [List.map_map, List.filter_map, List.forall₂_map_left_iff]
      exact List.forall₂_same.2 (fun q _ => rfl)
    · intro q hq hn
      by_contra hlt
      refine hn (List.mem_filter.2 ⟨hq, ?_⟩)
      simp only [decide_eq_true_eq]
      unfold renamePath
      omega

/-- C50: the k-points of a two-dimensional system are exactly the in-plane points of the dictionary, with
`\\Gamma` called `G`. (`d` is a Python dictionary, so its keys are distinct; no other point is called `G`.) -/
theorem C50_points (d : KDict) (hd : (d.map Prod.fst).Nodup) (hG : gName ∉ d.map Prod.fst)
    (k : Str) (c : Vec ℚ) :
    ∃ kpts, getKpoints 2 d = .ok kpts ∧
      ((k, c) ∈ kpts ↔ c 2 = 0 ∧ ((k ≠ gammaName ∧ (k, c) ∈ d) ∨ (k = gName ∧ (gammaName, c) ∈ d))) := by
  refine ⟨_, rfl, ?_⟩
  have hren : (k, c) ∈ renameGamma d ↔
      (k ≠ gammaName ∧ (k, c) ∈ d) ∨ (k = gName ∧ (gammaName, c) ∈ d) := by
    unfold renameGamma
    split
    · rename_i p hp
      have hp1 := List.mem_of_find?_eq_some hp
      have hp2 : p.1 = gammaName := by simpa using List.find?_some hp
      have hp3 : ∀ c', (gammaName, c') ∈ d ↔ c' = p.2 := by
        intro c'
        constructor
        · intro h
          have := List.inj_on_of_nodup_map hd h hp1 (by simp [hp2])
          rw [← this]
        · rintro rfl
          rw [← hp2]; exact hp1
      have hG' : gName ∉ (d.filter (fun q => decide (q.1 ≠ gammaName))).map Prod.fst :=
        fun h => hG ((List.filter_sublist.map _).subset h)
      unfold dictUpdate
      rw [if_neg hG', List.mem_append, List.mem_filter, List.mem_singleton, hp3]
      simp only [Prod.mk.injEq, decide_eq_true_eq]
      constructor
      · rintro (⟨h1, h2⟩ | h)
        · exact Or.inl ⟨h2, h1⟩
        · exact Or.inr h
      · rintro (⟨h1, h2⟩ | h)
        · exact Or.inl ⟨h2, h1⟩
        · exact Or.inr h
    · rename_i hp
      rw [List.find?_eq_none] at hp
      have hno : ∀ c', (gammaName, c') ∉ d := fun c' h => by simpa using hp _ h
      constructor
      · intro h
        exact Or.inl ⟨fun e => hno c (e ▸ h), h⟩
      · rintro (h | h)
        · exact h.2
        · exact absurd h.2 (hno c)
  rw [List.mem_filter, hren]
  simp only [decide_eq_true_eq]
  exact And.comm

/-- C50: a three-dimensional system keeps all points and paths; any other dimension is refused. -/
theorem C50_other_dims (dim : Int) (d : KDict) (paths : List (List Str)) :
    (dim = 3 → kpathSampler dim d paths =
      .ok (renameGamma d, paths.map (List.map (fun k => if k = gammaName then gName else k)))) ∧
    (dim ≠ 2 → dim ≠ 3 → kpathSampler dim d paths = .error .runtimeError) := by
  constructor
  · rintro rfl
    rfl
  · intro h2 h3
    unfold kpathSampler getKpoints
    rw [if_neg h2, if_neg h3]
    rfl

/-- C69 (partial): the steps of a two-dimensional path. If the in-plane points of an input path are
consecutive in it (only leading and trailing points are out of plane), every step of the path made from it
is a step of the input path. Missing: paths that leave the plane and return, see `C69_new_step`. -/
theorem C69_steps_partial (kpts : KDict) (path pre mid post : List Str)
    (hp : renamePath path = pre ++ mid ++ post)
    (hpre : ∀ k ∈ pre, k ∉ kpts.map Prod.fst) (hmid : ∀ k ∈ mid, k ∈ kpts.map Prod.fst)
    (hpost : ∀ k ∈ post, k ∉ kpts.map Prod.fst) :
    getKpaths 2 kpts [path] = .ok (if 1 < mid.length then [mid] else []) ∧
      ∀ x y, Step mid x y → Step (renamePath path) x y := by
  constructor
  · unfold getKpaths
    simp only [if_true, List.map_cons, List.map_nil, List.isEmpty_cons, Bool.false_eq_true, if_false]
    have e : (renamePath path).filter (fun k => decide (k ∈ kpts.map Prod.fst)) = mid := by
      have e1 : pre.filter (fun k => decide (k ∈ kpts.map Prod.fst)) = [] :=
        List.filter_eq_nil_iff.2 (fun k hk => by simpa using hpre k hk)
      have e2 : post.filter (fun k => decide (k ∈ kpts.map Prod.fst)) = [] :=
        List.filter_eq_nil_iff.2 (fun k hk => by simpa using hpost k hk)
      have e3 : mid.filter (fun k => decide (k ∈ kpts.map Prod.fst)) = mid :=
        List.filter_eq_self.2 (fun k hk => by simpa using hmid k hk)
      rw [hp, List.filter_append, List.filter_append, e1, e2, e3]
      simp
    rw [e]
    by_cases hl : 1 < mid.length
    · rw [if_pos hl, List.filter_cons_of_pos (by simpa using hl)]; rfl
    · rw [if_neg hl, List.filter_cons_of_neg (by simpa using hl)]; rfl
  · rintro x y ⟨i, h1, h2⟩
    have hi := (List.getElem?_eq_some_iff.1 h2).1
    refine ⟨pre.length + i, ?_, ?_⟩
    · rw [hp, List.append_assoc, List.getElem?_append_right (by omega),
        List.getElem?_append_left (by omega)]
      simpa using h1
    · rw [hp, List.append_assoc, List.getElem?_append_right (by omega),
        List.getElem?_append_left (by omega)]
      have : pre.length + i + 1 - pre.length = i + 1 := by omega
      rw [this]; exact h2

/-- A path that leaves the plane: G, A, M with A out of plane. -/
def bentPoints : KDict :=
  [(chars% "G", ![0, 0, 0]), (chars% "A", ![0, 0, 1/2]), (chars% "M", ![1/2, 0, 0])]

/-- C69 fails: the returned path goes straight from G to M, although the input path has no such step. -/
theorem C69_new_step :
    (kpathSampler 2 bentPoints [[chars% "G", chars% "A", chars% "M"]]).map Prod.snd =
      .ok [[chars% "G", chars% "M"]] ∧
    Step [chars% "G", chars% "M"] (chars% "G") (chars% "M") ∧
    ¬ Step [chars% "G", chars% "A", chars% "M"] (chars% "G") (chars% "M") := by
  refine ⟨by decide +kernel, ⟨0, rfl, rfl⟩, ?_⟩
  rintro ⟨i, h1, h2⟩
  have hi : i < 3 := (List.getElem?_eq_some_iff.1 h1).1
  interval_cases i <;> revert h1 h2 <;> decide +kernel

/-- C69: exactly which steps the returned paths contain. The labels `x` and `y` are consecutive in a returned
path if and only if both are returned k-points and some input path (with `G` for `\\Gamma`) has `x` and,
later, `y`, with nothing but out-of-plane labels between the two. -/
theorem C69_exact (d : KDict) (paths : List (List Str)) (kpts : KDict) (ps : List (List Str))
    (h : kpathSampler 2 d paths = .ok (kpts, ps)) (x y : Str) :
    (∃ p ∈ ps, Step p x y) ↔
      x ∈ kpts.map Prod.fst ∧ y ∈ kpts.map Prod.fst ∧ ∃ q ∈ paths, ∃ i j : ℕ, i < j ∧
        (q.map (fun k => if k = gammaName then gName else k))[i]? = some x ∧
        (q.map (fun k => if k = gammaName then gName else k))[j]? = some y ∧
        ∀ m : ℕ, i < m → m < j → ∀ k, (q.map (fun k => if k = gammaName then gName else k))[m]? = some k →
          k ∉ kpts.map Prod.fst := by
  unfold kpathSampler at h
  obtain ⟨kp, -, h⟩ := bind_eq_ok.1 h
  obtain ⟨ps', hps, h⟩ := bind_eq_ok.1 h
  have he := Except.ok.inj h
  rw [Prod.mk.injEq] at he
  obtain ⟨rfl, rfl⟩ := he
  unfold getKpaths at hps
  simp only [if_true] at hps
  split at hps
  · cases hps
  have he := Except.ok.inj hps
  subst he
  constructor
  · rintro ⟨p, hp, hs⟩
    obtain ⟨hp, -⟩ := List.mem_filter.1 hp
    obtain ⟨r, hr, rfl⟩ := List.mem_map.1 hp
    obtain ⟨q, hq, rfl⟩ := List.mem_map.1 hr
    obtain ⟨hx, hy, i, j, hij, h1, h2, h3⟩ := (step_filter _ _ _ _).1 hs
    exact ⟨by simpa using hx, by simpa using hy, q, hq, i, j, hij, h1, h2, fun m hm hm' k hk => by
      simpa using h3 m hm hm' k hk⟩
  · rintro ⟨hx, hy, q, hq, i, j, hij, h1, h2, h3⟩
    have hs : Step ((renamePath q).filter (fun k => decide (k ∈ kp.map Prod.fst))) x y :=
      (step_filter _ _ _ _).2 ⟨by simpa using hx, by simpa using hy, i, j, hij, h1, h2, fun m hm hm' k hk => by
        simpa using h3 m hm hm' k hk⟩
    exact ⟨_, List.mem_filter.2 ⟨List.mem_map.2 ⟨_, List.mem_map.2 ⟨q, hq, rfl⟩, rfl⟩,
      by simpa using step_length hs⟩, hs⟩

/-- C69: exactly when it holds. All steps of the returned paths are steps of input paths if and only if every
excursion of an input path out of the plane, from `x` to `y`, is also a direct step from `x` to `y` of some
input path. -/
theorem C69_holds_iff (d : KDict) (paths : List (List Str)) (kpts : KDict) (ps : List (List Str))
    (h : kpathSampler 2 d paths = .ok (kpts, ps)) :
    (∀ p ∈ ps, ∀ x y, Step p x y →
      ∃ q ∈ paths, Step (q.map (fun k => if k = gammaName then gName else k)) x y) ↔
    ∀ x ∈ kpts.map Prod.fst, ∀ y ∈ kpts.map Prod.fst, ∀ q ∈ paths, ∀ i j : ℕ, i + 1 < j →
      (q.map (fun k => if k = gammaName then gName else k))[i]? = some x →
      (q.map (fun k => if k = gammaName then gName else k))[j]? = some y →
      (∀ m : ℕ, i < m → m < j → ∀ k, (q.map (fun k => if k = gammaName then gName else k))[m]? = some k →
        k ∉ kpts.map Prod.fst) →
      ∃ q' ∈ paths, Step (q'.map (fun k => if k = gammaName then gName else k)) x y := by
  constructor
  · intro hall x hx y hy q hq i j hij h1 h2 h3
    obtain ⟨p, hp, hs⟩ := (C69_exact d paths kpts ps h x y).2 ⟨hx, hy, q, hq, i, j, by omega, h1, h2, h3⟩
    exact hall p hp x y hs
  · intro hall p hp x y hs
    obtain ⟨hx, hy, q, hq, i, j, hij, h1, h2, h3⟩ := (C69_exact d paths kpts ps h x y).1 ⟨p, hp, hs⟩
    by_cases hj : j = i + 1
    · exact ⟨q, hq, i, h1, hj ▸ h2⟩
    · exact hall x hx y hy q hq i j (by omega) h1 h2 h3

-- A run of `C69_exact`: the step from G to M of the returned path comes from the excursion G, A, M.
example : ∃ ps, kpathSampler 2 bentPoints [[gammaName, chars% "A", chars% "M"]] =
    .ok ([(chars% "G", ![0, 0, 0]), (chars% "M", ![1/2, 0, 0])], ps) ∧ ps = [[chars% "G", chars% "M"]] :=
  ⟨_, by decide +kernel, rfl⟩

-- A path to which `C69_steps_partial` applies: the last point is out of plane.
example : renamePath [gammaName, chars% "M", chars% "A"] = [] ++ [chars% "G", chars% "M"] ++ [chars% "A"] := by
  decide +kernel

-- A run of `C50_two_dim`.
example : (kpathSampler 2 [(gammaName, ![0, 0, 0]), (chars% "A", ![0, 0, 1/2]), (chars% "M", ![1/2, 0, 0])]
    [[gammaName, chars% "M", chars% "A"], [chars% "A", chars% "M"]]).map Prod.snd =
    .ok [[chars% "G", chars% "M"]] := by decide +kernel

/-! ## C51 -/

/-- C51: the segments written for the paths. Without a missing label, each path gives one segment per pair
of neighbouring points, in order, with their coordinates; a label without k-point is a `KeyError`. -/
theorem C51_segments (kpts : KDict) (paths : List (List Str)) (lat b : Matrix (Fin 3) (Fin 3) ℝ)
    (density : ℝ) (hb : IsReciprocalCryst lat b) :
    ((∃ p ∈ paths, ∃ k ∈ p, k ∉ kpts.map Prod.fst) → genKpt kpts paths lat density = .error .keyError) ∧
    ((∀ p ∈ paths, ∀ k ∈ p, k ∈ kpts.map Prod.fst) → ∃ segs, genKpt kpts paths lat density = .ok segs.flatten ∧
      List.Forall₂ (fun p ss => ss.length = p.length - 1 ∧
        ∀ i x y, p[i]? = some x → p[i + 1]? = some y → ∃ u v, pyDictGet kpts x = .ok u ∧
          pyDictGet kpts y = .ok v ∧
          ss[i]? = some ⟨numBandpoint b density u v, (x, u), (y, v)⟩) paths segs) := by
  obtain ⟨hdet, hB⟩ := recip_unique hb
  have hget : ∀ k, k ∈ kpts.map Prod.fst → ∃ c, pyDictGet kpts k = .ok c := by
    intro k hk
    cases hg : pyDictGet kpts k with
    | ok c => exact ⟨c, rfl⟩
    | error e =>
      have := pyDictGet_error_kind _ _ _ hg
      subst this
      have := (pyDictGet_err kpts k).1 hg
      obtain ⟨⟨k', c⟩, hc, rfl⟩ := List.mem_map.1 hk
      exact absurd hc (this c)
  unfold genKpt
  rw [recip_cryst_ok hdet, hB, ok_bind]
  constructor
  · rintro ⟨p, hp, k, hk, hno⟩
    obtain ⟨e, he⟩ := mapM_isError (f := genPath kpts b density none) (l := paths)
      ⟨p, hp, genPath_error kpts b density none p ⟨k, hk, hno⟩⟩
    rw [he]
    obtain ⟨p', -, he'⟩ := mapM_eq_error he
    rw [genPath_error_kind he']
    rfl
  · intro hall
    have hseg : ∀ p ∈ paths, ∃ ss, genPath kpts b density none p = .ok ss ∧ ss.length = p.length - 1 ∧
        ∀ i x y, p[i]? = some x → p[i + 1]? = some y → ∃ u v, pyDictGet kpts x = .ok u ∧
          pyDictGet kpts y = .ok v ∧
          ss[i]? = some ⟨numBandpoint b density u v, (x, u), (y, v)⟩ :=
      fun p hp => genPath_spec kpts b density p (fun k hk => hget k (hall p hp k hk))
    choose! f hf1 hf2 using hseg
    refine ⟨paths.map f, ?_, ?_⟩
    · rw [mapM_map_ok hf1, ok_bind]; rfl
    · rw [List.forall₂_map_right_iff, List.forall₂_same]
      exact hf2

/-- The reciprocal-space vector from one k-point to another. -/
noncomputable def recipStep (b : Matrix (Fin 3) (Fin 3) ℝ) (p q : Vec ℚ) : Vec ℝ :=
  Matrix.vecMul (fun j => (q j : ℝ) - (p j : ℝ)) b

/-- C51: for which cells the length used by the code is the reciprocal-space length of every segment: the
reciprocal vectors must be orthogonal, and each must be as long as the column of the same number. -/
theorem C51_length (b : Matrix (Fin 3) (Fin 3) ℝ) :
    (∀ p q, pathLength b p q = norm3 (recipStep b p q)) ↔
      ∀ i k, (b * b.transpose) i k = if i = k then (b.transpose * b) i i else 0 := by
  have hsq : ∀ p q, pathLength b p q ^ 2 =
      ∑ j, ((q j : ℝ) - (p j : ℝ)) ^ 2 * (b.transpose * b) j j := by
    intro p q
    unfold pathLength
    rw [Real.sq_sqrt (by positivity)]
    simp only [Matrix.mul_apply, Matrix.transpose_apply, Fin.sum_univ_three]
    ring
  have hsq' : ∀ p q, norm3 (recipStep b p q) ^ 2 =
      ∑ i, ∑ k, ((q i : ℝ) - (p i : ℝ)) * ((q k : ℝ) - (p k : ℝ)) * (b * b.transpose) i k := by
    intro p q
    unfold norm3
    rw [Real.sq_sqrt (by positivity)]
    simp only [recipStep, Matrix.vecMul, dotProduct, Matrix.mul_apply, Matrix.transpose_apply,
      Fin.sum_univ_three]
    ring
  have hnn : ∀ p q, 0 ≤ pathLength b p q := fun p q => Real.sqrt_nonneg _
  have hnn' : ∀ p q, 0 ≤ norm3 (recipStep b p q) := fun p q => Real.sqrt_nonneg _
  constructor
  · intro h
    have key : ∀ q : Vec ℚ, ∑ j, (q j : ℝ) ^ 2 * (b.transpose * b) j j =
        ∑ i, ∑ k, (q i : ℝ) * (q k : ℝ) * (b * b.transpose) i k := by
      intro q
      have h1 := hsq 0 q
      have h2 := hsq' 0 q
      rw [h 0 q, h2] at h1
      simpa using h1.symm
    have hsym : ∀ i k, (b * b.transpose) i k = (b * b.transpose) k i := by
      intro i k
      simp only [Matrix.mul_apply, Matrix.transpose_apply, Fin.sum_univ_three]
      ring
    have k0 := key ![1, 0, 0]
    have k1 := key ![0, 1, 0]
    have k2 := key ![0, 0, 1]
    have k01 := key ![1, 1, 0]
    have k02 := key ![1, 0, 1]
    have k12 := key ![0, 1, 1]
    have s01 := hsym 0 1
    have s02 := hsym 0 2
    have s12 := hsym 1 2
    generalize b * b.transpose = G at *
    generalize b.transpose * b = H at *
    simp [Fin.sum_univ_three] at k0 k1 k2 k01 k02 k12
    intro i k
    fin_cases i <;> fin_cases k <;> simp <;> linarith
  · intro h p q
    have : pathLength b p q ^ 2 = norm3 (recipStep b p q) ^ 2 := by
      rw [hsq, hsq']
      simp only [h]
      simp [Fin.sum_univ_three]
      ring
    exact (pow_left_inj₀ (hnn p q) (hnn' p q) (by norm_num)).1 this

/-- C51 (partial): for a rectangular cell along the axes, the number of points of a segment is the ceiling
of its reciprocal-space length over the density. Missing: all other cells, see `C51_length` and
`C51_oblique`. -/
theorem C51_diagonal_partial (a : Fin 3 → ℝ) (b : Matrix (Fin 3) (Fin 3) ℝ) (density : ℝ)
    (p q : Vec ℚ) (hb : IsReciprocalCryst (Matrix.diagonal a) b) (hd : density ≠ 0) :
    numBandpoint b density p q = some ⌈norm3 (recipStep b p q) / density⌉ := by
  unfold numBandpoint
  rw [if_neg hd]
  have hB := (recip_unique hb).2
  have hdet := (recip_unique hb).1
  have hbd : b = Matrix.diagonal (fun i => (a i)⁻¹) := by
    rw [← hB, Matrix.inv_eq_right_inv (B := Matrix.diagonal (fun i => (a i)⁻¹)),
      Matrix.diagonal_transpose]
    rw [Matrix.diagonal_mul_diagonal, ← Matrix.diagonal_one]
    congr 1
    funext i
    have : a i ≠ 0 := by
      rw [Matrix.det_diagonal] at hdet
      exact Finset.prod_ne_zero_iff.1 hdet i (Finset.mem_univ i)
    exact mul_inv_cancel₀ this
  rw [(C51_length b).2]
  intro i k
  rw [hbd, Matrix.diagonal_transpose, Matrix.diagonal_mul_diagonal]
  simp only [Matrix.diagonal_apply]
  split <;> simp

/-- An oblique cell and its reciprocal vectors. -/
def oblique : Matrix (Fin 3) (Fin 3) ℝ := !![1, -1, 0; 0, 1, 0; 0, 0, 1]

/-- Reciprocal vectors of `oblique`. -/
def obliqueRecip : Matrix (Fin 3) (Fin 3) ℝ := !![1, 0, 0; 1, 1, 0; 0, 0, 1]

/-- C51 fails: in this cell the step to (0, 1, 0) has length √2, so density 1 asks for two points; one is
written. -/
theorem C51_oblique :
    IsReciprocalCryst oblique obliqueRecip ∧ numBandpoint obliqueRecip 1 0 ![0, 1, 0] = some 1 ∧
      ⌈norm3 (recipStep obliqueRecip 0 ![0, 1, 0]) / 1⌉ = 2 := by
  refine ⟨?_, ?_, ?_⟩
  · unfold IsReciprocalCryst oblique obliqueRecip
    ext i j
    fin_cases i <;> fin_cases j <;> simp [Matrix.mul_apply, Fin.sum_univ_three]
  · unfold numBandpoint pathLength obliqueRecip
    rw [if_neg one_ne_zero]
    simp [Fin.sum_univ_three]
  · have e : norm3 (recipStep obliqueRecip 0 ![0, 1, 0]) = Real.sqrt 2 := by
      unfold norm3 recipStep obliqueRecip
      congr 1
      simp [Matrix.vecMul, dotProduct, Fin.sum_univ_three]
      norm_num
    rw [e, div_one, Int.ceil_eq_iff]
    have h0 : (1 : ℝ) < Real.sqrt 2 := by
      rw [Real.lt_sqrt (by norm_num)]; norm_num
    have h1 : Real.sqrt 2 ≤ 2 := by
      rw [Real.sqrt_le_left (by norm_num)]; norm_num
    constructor
    · push_cast; linarith
    · push_cast; exact h1

-- A run of `C51_segments` and of `C51_diagonal_partial`.
example : IsReciprocalCryst (Matrix.diagonal ![2, 4, 5]) (Matrix.diagonal ![1/2, 1/4, 1/5]) := by
  unfold IsReciprocalCryst
  rw [Matrix.diagonal_transpose, Matrix.diagonal_mul_diagonal, ← Matrix.diagonal_one]
  congr 1
  funext i
  fin_cases i <;> simp

example : ∀ p ∈ [[chars% "G", chars% "M"]], ∀ k ∈ p, k ∈ bentPoints.map Prod.fst := by decide +kernel

end MaterSDK
