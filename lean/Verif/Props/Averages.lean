import Verif.Lemmas.AveragesMsd
import Mathlib.Tactic.NormNum

/-!
# C54-C57, C71-C78: bond lengths, angles, displacements, adjacency
-/

set_option linter.unusedSectionVars false

namespace MaterSDK

open Classical Matrix

/-! ## C54 -/

/-- C54: for every structure (with a non-singular cell and no two atoms on the same site) and every odd
supercell, the result is the mean of the lengths of all bonds of the element pair within the cutoff; it
is not a number exactly when there is no such bond. -/
theorem C54_mean (A : ArgSort) (s S : Struct ℝ) (hL : s.lattice.det ≠ 0) (hsep : Separated s)
    (hne : s.sites ≠ []) (r : ℝ) (hr : 0 ≤ r) (sc : Fin 3 → ℤ) (m : Fin 3 → ℕ)
    (h : ∀ i, sc i = 2 * (m i : ℤ) + 1) (hS : s.makeSupercell sc true = .ok S) (z1 z2 : ℕ)
    (hz : 0 < z2) :
    ∃ table, neighborTable A s r sc = .ok table ∧
      (bondLengths s S r z1 z2 = [] → avgBondLength table z1 z2 = .ok none) ∧
      (bondLengths s S r z1 z2 ≠ [] → avgBondLength table z1 z2
        = .ok (some ((bondLengths s S r z1 z2).sum / (bondLengths s S r z1 z2).length))) := by
  obtain ⟨table, h1, h2, h3⟩ := avgBond_sum A s S hL hsep hne r hr sc m h hS z1 z2 hz
  have hpos : ∀ b ∈ bondLengths s S r z1 z2, b ≠ 0 := by
    intro b hb
    obtain ⟨c, _, hb⟩ := List.mem_flatMap.1 hb
    obtain ⟨t, ht, rfl⟩ := List.mem_map.1 hb
    exact (dist3_pos.2 (nbrsOf_ne ht)).ne'
  have hsum : (table.flatMap (effectiveRow z1 z2)).sum = (bondLengths s S r z1 z2).sum := by
    simpa using h3 id rfl
  have hcount : (table.flatMap (effectiveRow z1 z2)).countP (fun d => d ≠ 0)
      = (bondLengths s S r z1 z2).length := by
    have e := h3 (fun d => if decide (d ≠ 0) = true then 1 else 0) (by simp)
    rw [← countP_eq_sum, ← countP_eq_sum] at e
    rw [Nat.cast_inj.1 e, List.countP_eq_length]
    intro b hb
    simpa using hpos b hb
  refine ⟨table, h1, fun h0 => ?_, fun h0 => ?_⟩
  · rw [avgBondLength, if_neg h2]
    simp only [hcount, h0, List.length_nil, if_true]
  · rw [avgBondLength, if_neg h2]
    simp only [hcount, hsum]
    rw [if_neg (fun h' => h0 (List.length_eq_zero_iff.1 h'))]

/-- C54: the average is between the shortest and the longest bond. -/
theorem C54_between (A : ArgSort) (s S : Struct ℝ) (hL : s.lattice.det ≠ 0) (hsep : Separated s)
    (hne : s.sites ≠ []) (r : ℝ) (hr : 0 ≤ r) (sc : Fin 3 → ℤ) (m : Fin 3 → ℕ)
    (h : ∀ i, sc i = 2 * (m i : ℤ) + 1) (hS : s.makeSupercell sc true = .ok S) (z1 z2 : ℕ)
    (hz : 0 < z2) (table : List (List NbrEntry)) (ht : neighborTable A s r sc = .ok table) :
    (∀ v, avgBondLength table z1 z2 = .ok (some v) →
      (∃ lo ∈ bondLengths s S r z1 z2, lo ≤ v) ∧ (∃ hi ∈ bondLengths s S r z1 z2, v ≤ hi) ∧
      (∀ lo, (∀ b ∈ bondLengths s S r z1 z2, lo ≤ b) → lo ≤ v) ∧
      (∀ hi, (∀ b ∈ bondLengths s S r z1 z2, b ≤ hi) → v ≤ hi)) ∧
    (avgBondLength table z1 z2 = .ok none ↔ bondLengths s S r z1 z2 = []) := by
  obtain ⟨table', h1, h2, h3⟩ := C54_mean A s S hL hsep hne r hr sc m h hS z1 z2 hz
  obtain rfl : table = table' := Except.ok.inj (ht.symm.trans h1)
  set l := bondLengths s S r z1 z2 with hl
  have hlo : l ≠ [] → ∀ lo, (∀ b ∈ l, lo ≤ b) → lo ≤ l.sum / l.length := by
    intro h0 lo hlo
    have hp : (0 : ℝ) < l.length := by exact_mod_cast List.length_pos_iff.2 h0
    rw [le_div_iff₀ hp]
    have := List.card_nsmul_le_sum l lo hlo
    rw [nsmul_eq_mul] at this
    linarith
  have hhi : l ≠ [] → ∀ hi, (∀ b ∈ l, b ≤ hi) → l.sum / l.length ≤ hi := by
    intro h0 hi hhi
    have hp : (0 : ℝ) < l.length := by exact_mod_cast List.length_pos_iff.2 h0
    rw [div_le_iff₀ hp]
    have := List.sum_le_card_nsmul l hi hhi
    rw [nsmul_eq_mul] at this
    linarith
  constructor
  · intro v hv
    by_cases h0 : l = []
    · rw [h2 h0] at hv; cases hv
    · rw [h3 h0] at hv
      obtain rfl := Option.some.inj (Except.ok.inj hv)
      refine ⟨?_, ?_, hlo h0, hhi h0⟩
      · by_contra hc
        push Not at hc
        obtain ⟨lo, hlo1, hlo2⟩ := l.toFinset.exists_min_image id (by simpa using h0)
        exact absurd (hlo h0 lo (fun b hb => hlo2 b (List.mem_toFinset.2 hb)))
          (not_le.2 (hc lo (List.mem_toFinset.1 hlo1)))
      · by_contra hc
        push Not at hc
        obtain ⟨hi, hhi1, hhi2⟩ := l.toFinset.exists_max_image id (by simpa using h0)
        exact absurd (hhi h0 hi (fun b hb => hhi2 b (List.mem_toFinset.2 hb)))
          (not_le.2 (hc hi (List.mem_toFinset.1 hhi1)))
  · constructor
    · intro hn
      by_contra h0
      rw [h3 h0] at hn
      cases hn
    · exact h2

/-- A table without columns is refused. -/
theorem C54_no_columns (table : List (List NbrEntry)) (h : table = [] ∨ [] ∈ table) (z1 z2 : ℕ) :
    avgBondLength table z1 z2 = .error .indexError := by
  rw [avgBondLength, if_pos]
  rcases h with rfl | h
  · exact .inl rfl
  · exact .inr (List.any_eq_true.2 ⟨[], h, rfl⟩)

/-- The supercell of `originCell` with factors 1. -/
noncomputable def originSuper : Struct ℝ :=
  ⟨Matrix.diagonal (fun i => ((![1, 1, 1] : Fin 3 → ℤ) i : ℝ)) * originCell.lattice,
    [⟨3, 0, none⟩, ⟨3, ![2, 0, 0], none⟩, ⟨14, ![2, 1, 0], none⟩]⟩

/-- In `originCell` with cutoff 1 there is one Li-Si bond, of length 1, and the average is 1. -/
example (A : ArgSort) : ∃ table, neighborTable A originCell 1 ![1, 1, 1] = .ok table ∧
    bondLengths originCell originSuper 1 3 14 = [1] ∧
    avgBondLength table 3 14 = .ok (some 1) := by
  have hb : bondLengths originCell originSuper 1 3 14 = [1] := by
    simp [bondLengths, originCell, originSuper, nbrsOf, dist3, Fin.sum_univ_three]
  obtain ⟨table, h1, _, h3⟩ := C54_mean A originCell originSuper
    (by simp [originCell, Matrix.det_diagonal]) originCell_separated (by simp [originCell]) 1
    (by norm_num) ![1, 1, 1] ![0, 0, 0] (by decide) originCell_supercell 3 14 (by norm_num)
  refine ⟨table, h1, hb, ?_⟩
  rw [h3 (by rw [hb]; simp), hb]
  norm_num

/-! ## C55 -/

/-- C55, different neighbour elements: the angles run over all pairs of a neighbour of element `z2` and
a neighbour of element `z3` (which are different atoms); the order parameter is one minus 3/8 of the sum
of `(1/3 + cos)^2` and the first value is the mean angle. Missing: equal neighbour elements, where the
claim is false, see `C55_self_pairs`. -/
theorem C55_distinct_partial (A : ArgSort) (s S : Struct ℝ) (hL : s.lattice.det ≠ 0)
    (hsep : Separated s) (hne : s.sites ≠ []) (r : ℝ) (hr : 0 ≤ r) (sc : Fin 3 → ℤ) (m : Fin 3 → ℕ)
    (h : ∀ i, sc i = 2 * (m i : ℤ) + 1) (hS : s.makeSupercell sc true = .ok S) (z1 z2 z3 : ℕ)
    (hz2 : 0 < z2) (hz3 : 0 < z3) (hne' : z2 ≠ z3) :
    ∃ (table : List (List NbrEntry)) (mean : Option ℝ) (q : ℝ), neighborTable A s r sc = .ok table ∧
      avgAngle table z1 z2 z3 = .ok (mean, q) ∧
      q = 1 - 3 / 8 * ((s.sites.filter (fun c => c.z = z1)).map (fun c =>
        ((nbrsOf S c.pos r z2).map (fun t => ((nbrsOf S c.pos r z3).map (fun u =>
          tetraTerm c.pos t.pos u.pos)).sum)).sum)).sum ∧
      ∃ n : ℕ, n = ((s.sites.filter (fun c => c.z = z1)).map (fun c =>
          (nbrsOf S c.pos r z2).length * (nbrsOf S c.pos r z3).length)).sum ∧
        (n = 0 → mean = none) ∧
        (n ≠ 0 → mean = some (((s.sites.filter (fun c => c.z = z1)).map (fun c =>
          ((nbrsOf S c.pos r z2).map (fun t => ((nbrsOf S c.pos r z3).map (fun u =>
            angleAt c.pos t.pos u.pos)).sum)).sum)).sum / n)) := by
  obtain ⟨table, angles, h1, h2, h3⟩ :=
    bondAngles_other A s S hL hsep hne r hr sc m h hS z1 z2 z3 hz2 hz3 hne'
  refine ⟨table, npMean angles, orderParameter angles, h1, ?_, ?_, ?_⟩
  · rw [avgAngle, h2, ok_bind]; rfl
  · rw [orderParameter, h3]
    congr 2
    refine congrArg List.sum (List.map_congr_left (fun c _ => ?_))
    refine congrArg List.sum (List.map_congr_left (fun t ht => ?_))
    refine congrArg List.sum (List.map_congr_left (fun u hu => ?_))
    rw [cos_angleAt (nbrsOf_ne ht) (nbrsOf_ne hu)]
    rfl
  · have hl := h3 (fun _ => 1)
    have hs := h3 id
    simp only [List.map_const', List.sum_replicate, nsmul_eq_mul, mul_one] at hl
    simp only [List.map_id, id_eq] at hs
    have e : angles.length = ((s.sites.filter (fun c => c.z = z1)).map (fun c =>
          (nbrsOf S c.pos r z2).length * (nbrsOf S c.pos r z3).length)).sum := by
      have hcast : ∀ (cs : List (Site ℝ)) (f : Site ℝ → ℕ),
          (((cs.map f).sum : ℕ) : ℝ) = (cs.map (fun c => (f c : ℝ))).sum := by
        intro cs f
        induction cs with
        | nil => simp
        | cons c cs ih => simp only [List.map_cons, List.sum_cons, Nat.cast_add, ih]
      rw [← Nat.cast_inj (R := ℝ), hl, hcast]
      refine congrArg List.sum (List.map_congr_left (fun c _ => ?_))
      push_cast
      rfl
    refine ⟨angles.length, e, fun h0 => ?_, fun h0 => ?_⟩
    · rw [List.length_eq_zero_iff.1 h0]
      simp [npMean]
    · rw [npMean, if_neg (fun h' => h0 (by rw [h']; rfl)), hs]

/-- C55, equal neighbour elements, what the code computes: every neighbour is also paired with itself,
which adds `(1/3 + 1)^2 = 16/9` to the sum of the order parameter and an angle 0 to the mean. -/
theorem C55_same_element (A : ArgSort) (s S : Struct ℝ) (hL : s.lattice.det ≠ 0)
    (hsep : Separated s) (hne : s.sites ≠ []) (r : ℝ) (hr : 0 ≤ r) (sc : Fin 3 → ℤ) (m : Fin 3 → ℕ)
    (h : ∀ i, sc i = 2 * (m i : ℤ) + 1) (hS : s.makeSupercell sc true = .ok S) (z1 z2 : ℕ)
    (hz2 : 0 < z2) :
    ∃ (table : List (List NbrEntry)) (mean : Option ℝ) (q : ℝ), neighborTable A s r sc = .ok table ∧
      avgAngle table z1 z2 z2 = .ok (mean, q) ∧
      q = 1 - 3 / 8 * ((s.sites.filter (fun c => c.z = z1)).map (fun c =>
        ((distinctPairs (nbrsOf S c.pos r z2)).map (fun x =>
          tetraTerm c.pos x.1.pos x.2.pos)).sum + (nbrsOf S c.pos r z2).length * (16 / 9))).sum ∧
      ∃ n : ℕ, n = ((s.sites.filter (fun c => c.z = z1)).map (fun c =>
          (distinctPairs (nbrsOf S c.pos r z2)).length + (nbrsOf S c.pos r z2).length)).sum ∧
        (n = 0 → mean = none) ∧
        (n ≠ 0 → mean = some (((s.sites.filter (fun c => c.z = z1)).map (fun c =>
          ((distinctPairs (nbrsOf S c.pos r z2)).map (fun x =>
            angleAt c.pos x.1.pos x.2.pos)).sum)).sum / n)) := by
  obtain ⟨table, angles, h1, h2, h3⟩ :=
    bondAngles_same A s S hL hsep hne r hr sc m h hS z1 z2 hz2
  refine ⟨table, npMean angles, orderParameter angles, h1, ?_, ?_, ?_⟩
  · rw [avgAngle, h2, ok_bind]; rfl
  · rw [orderParameter, h3]
    congr 2
    refine congrArg List.sum (List.map_congr_left (fun c _ => ?_))
    congr 1
    · refine congrArg List.sum (List.map_congr_left (fun x hx => ?_))
      obtain ⟨ht, hu⟩ := distinctPairs_mem hx
      rw [cos_angleAt (nbrsOf_ne ht) (nbrsOf_ne hu)]
      rfl
    · congr 1
      simp only [deg2rad, zero_mul, Real.cos_zero]
      norm_num
  · have hl := h3 (fun _ => 1)
    have hs := h3 id
    simp only [List.map_const', List.sum_replicate, nsmul_eq_mul, mul_one] at hl
    simp only [List.map_id, id_eq, mul_zero, add_zero] at hs
    have e : angles.length = ((s.sites.filter (fun c => c.z = z1)).map (fun c =>
          (distinctPairs (nbrsOf S c.pos r z2)).length + (nbrsOf S c.pos r z2).length)).sum := by
      have hcast : ∀ (cs : List (Site ℝ)) (f : Site ℝ → ℕ),
          (((cs.map f).sum : ℕ) : ℝ) = (cs.map (fun c => (f c : ℝ))).sum := by
        intro cs f
        induction cs with
        | nil => simp
        | cons c cs ih => simp only [List.map_cons, List.sum_cons, Nat.cast_add, ih]
      rw [← Nat.cast_inj (R := ℝ), hl, hcast]
      refine congrArg List.sum (List.map_congr_left (fun c _ => ?_))
      push_cast
      rfl
    refine ⟨angles.length, e, fun h0 => ?_, fun h0 => ?_⟩
    · rw [List.length_eq_zero_iff.1 h0]
      simp [npMean]
    · rw [npMean, if_neg (fun h' => h0 (by rw [h']; rfl)), hs]

/-- C55 is violated for equal neighbour elements: as soon as one atom of element `z1` has one neighbour
of element `z2`, the order parameter differs from the sum over distinct pairs (by 2/3 per neighbour). -/
theorem C55_self_pairs (A : ArgSort) (s S : Struct ℝ) (hL : s.lattice.det ≠ 0)
    (hsep : Separated s) (hne : s.sites ≠ []) (r : ℝ) (hr : 0 ≤ r) (sc : Fin 3 → ℤ) (m : Fin 3 → ℕ)
    (h : ∀ i, sc i = 2 * (m i : ℤ) + 1) (hS : s.makeSupercell sc true = .ok S) (z1 z2 : ℕ)
    (hz2 : 0 < z2) (hb : bondLengths s S r z1 z2 ≠ []) :
    ∃ (table : List (List NbrEntry)) (mean : Option ℝ) (q : ℝ), neighborTable A s r sc = .ok table ∧
      avgAngle table z1 z2 z2 = .ok (mean, q) ∧
      q = 1 - 3 / 8 * ((s.sites.filter (fun c => c.z = z1)).map (fun c =>
        ((distinctPairs (nbrsOf S c.pos r z2)).map (fun x =>
          tetraTerm c.pos x.1.pos x.2.pos)).sum)).sum - 2 / 3 * (bondLengths s S r z1 z2).length ∧
      q ≠ 1 - 3 / 8 * ((s.sites.filter (fun c => c.z = z1)).map (fun c =>
        ((distinctPairs (nbrsOf S c.pos r z2)).map (fun x =>
          tetraTerm c.pos x.1.pos x.2.pos)).sum)).sum := by
  obtain ⟨table, mean, q, h1, h2, h3, _⟩ :=
    C55_same_element A s S hL hsep hne r hr sc m h hS z1 z2 hz2
  have hsplit : ∀ (cs : List (Site ℝ)) (f g : Site ℝ → ℝ),
      (cs.map (fun c => f c + g c)).sum = (cs.map f).sum + (cs.map g).sum := by
    intro cs f g
    induction cs with
    | nil => simp
    | cons c cs ih => simp only [List.map_cons, List.sum_cons, ih]; ring
  have hlen : ((s.sites.filter (fun c => c.z = z1)).map (fun c =>
      ((nbrsOf S c.pos r z2).length : ℝ) * (16 / 9))).sum
      = (bondLengths s S r z1 z2).length * (16 / 9) := by
    unfold bondLengths
    generalize s.sites.filter (fun c => c.z = z1) = cs
    induction cs with
    | nil => simp
    | cons c cs ih =>
      rw [List.map_cons, List.sum_cons, ih, List.flatMap_cons, List.length_append, List.length_map]
      push_cast
      ring
  have hq : q = 1 - 3 / 8 * ((s.sites.filter (fun c => c.z = z1)).map (fun c =>
        ((distinctPairs (nbrsOf S c.pos r z2)).map (fun x =>
          tetraTerm c.pos x.1.pos x.2.pos)).sum)).sum
          - 2 / 3 * (bondLengths s S r z1 z2).length := by
    rw [h3, hsplit, hlen]
    ring
  refine ⟨table, mean, q, h1, h2, hq, ?_⟩
  have hp : (0 : ℝ) < (bondLengths s S r z1 z2).length := by exact_mod_cast List.length_pos_iff.2 hb
  intro hq'
  rw [hq] at hq'
  linarith

/-- `originCell` with cutoff 1 has one Li-Si bond and hence no pair of distinct Si neighbours; the order
parameter should be 1 but is 1/3. -/
example (A : ArgSort) : ∃ table mean, neighborTable A originCell 1 ![1, 1, 1] = .ok table ∧
    avgAngle table 3 14 14 = .ok (mean, 1 / 3) := by
  have hb : bondLengths originCell originSuper 1 3 14 = [1] := by
    simp [bondLengths, originCell, originSuper, nbrsOf, dist3, Fin.sum_univ_three]
  obtain ⟨table, mean, q, h1, h2, h3, _⟩ := C55_self_pairs A originCell originSuper
    (by simp [originCell, Matrix.det_diagonal]) originCell_separated (by simp [originCell]) 1
    (by norm_num) ![1, 1, 1] ![0, 0, 0] (by decide) originCell_supercell 3 14 (by norm_num)
    (by rw [hb]; simp)
  refine ⟨table, mean, h1, ?_⟩
  rw [h2, h3, hb]
  have : ((originCell.sites.filter (fun c => c.z = 3)).map (fun c =>
        ((distinctPairs (nbrsOf originSuper c.pos 1 14)).map (fun x =>
          tetraTerm c.pos x.1.pos x.2.pos)).sum)).sum = 0 := by
    simp [originCell, originSuper, nbrsOf, dist3, Fin.sum_univ_three, distinctPairs]
  rw [this]
  norm_num

/-! ## C78: bond lengths selected by angle -/

/-- C78: every row belongs to an atom of element `z1` and neighbours of elements `z2` and `z3` whose
angle is closer to the requested one than the tolerance, and holds that angle, the shorter and the
longer of the two bond lengths; all such pairs occur; and the two neighbours are different atoms when the
elements differ or the tolerance does not reach down to angle 0. Missing: equal elements with
`|std| < eps`, see `C78_self_pairs`. -/
theorem C78_rows_partial (A : ArgSort) (s S : Struct ℝ) (hL : s.lattice.det ≠ 0) (hsep : Separated s)
    (hne : s.sites ≠ []) (r : ℝ) (hr : 0 ≤ r) (sc : Fin 3 → ℤ) (m : Fin 3 → ℕ)
    (h : ∀ i, sc i = 2 * (m i : ℤ) + 1) (hS : s.makeSupercell sc true = .ok S) (z1 z2 z3 : ℕ)
    (hz2 : 0 < z2) (hz3 : 0 < z3) (std eps : ℝ) (hself : z2 ≠ z3 ∨ eps ≤ |std|) :
    ∃ table rows, neighborTable A s r sc = .ok table ∧ angleBonds table z1 z2 z3 std eps = .ok rows ∧
      (∀ x ∈ rows, |x.1 - std| < eps ∧ 0 < x.2.1 ∧ x.2.1 ≤ x.2.2 ∧ x.2.2 ≤ r) ∧
      ∀ x, x ∈ rows ↔ ∃ c ∈ s.sites, c.z = z1 ∧ ∃ t ∈ nbrsOf S c.pos r z2, ∃ u ∈ nbrsOf S c.pos r z3,
        t ≠ u ∧ |angleAt c.pos t.pos u.pos - std| < eps ∧
        x = (angleAt c.pos t.pos u.pos, min (dist3 t.pos c.pos) (dist3 u.pos c.pos),
          max (dist3 t.pos c.pos) (dist3 u.pos c.pos)) := by
  obtain ⟨table, rows, h1, h2, h3⟩ :=
    angleBonds_spec A s S hL hsep hne r hr sc m h hS z1 z2 z3 hz2 hz3 std eps
  refine ⟨table, rows, h1, h2, ?_, ?_⟩
  · intro x hx
    obtain ⟨c, _, _, t, ht, u, hu, ha, rfl⟩ := (h3 x).1 hx
    have mt := (List.mem_filter.1 ht).2
    have mu := (List.mem_filter.1 hu).2
    simp only [decide_eq_true_eq] at mt mu
    exact ⟨ha, lt_min mt.2.1 mu.2.1, min_le_max, max_le mt.2.2 mu.2.2⟩
  · intro x
    rw [h3]
    constructor
    · rintro ⟨c, hc, hz, t, ht, u, hu, ha, hx⟩
      refine ⟨c, hc, hz, t, ht, u, hu, ?_, ha, hx⟩
      rintro rfl
      rcases hself with hself | hself
      · have mt := (List.mem_filter.1 ht).2
        have mu := (List.mem_filter.1 hu).2
        simp only [decide_eq_true_eq] at mt mu
        exact hself (mt.1.symm.trans mu.1)
      · rw [angleAt_self (nbrsOf_ne ht), zero_sub, abs_neg] at ha
        linarith
    · rintro ⟨c, hc, hz, t, ht, u, hu, _, ha, hx⟩
      exact ⟨c, hc, hz, t, ht, u, hu, ha, hx⟩

/-- C78, how often a row occurs, under the same condition: for different elements once for every pair of
a neighbour of element `z2` and a neighbour of element `z3`; for equal elements once for every pair of
neighbours, in one of the two orders. -/
theorem C78_once_partial (A : ArgSort) (s S : Struct ℝ) (hL : s.lattice.det ≠ 0) (hsep : Separated s)
    (hne : s.sites ≠ []) (r : ℝ) (hr : 0 ≤ r) (sc : Fin 3 → ℤ) (m : Fin 3 → ℕ)
    (h : ∀ i, sc i = 2 * (m i : ℤ) + 1) (hS : s.makeSupercell sc true = .ok S) (z1 z2 z3 : ℕ)
    (hz2 : 0 < z2) (hz3 : 0 < z3) (std eps : ℝ) (hself : z2 ≠ z3 ∨ eps ≤ |std|) :
    ∃ table rows, neighborTable A s r sc = .ok table ∧ angleBonds table z1 z2 z3 std eps = .ok rows ∧
      (z2 ≠ z3 → rows.Perm ((s.sites.filter (fun c => c.z = z1)).flatMap (fun c =>
        (nbrsOf S c.pos r z2).flatMap (fun t => (nbrsOf S c.pos r z3).flatMap (fun u =>
          angleRow std eps c.pos t.pos u.pos))))) ∧
      (z2 = z3 → rows.Perm ((s.sites.filter (fun c => c.z = z1)).flatMap (fun c =>
        (distinctPairs (nbrsOf S c.pos r z2)).flatMap (fun x =>
          angleRow std eps c.pos x.1.pos x.2.pos)))) := by
  obtain ⟨table, rows, h1, h2, h3, h4⟩ :=
    angleBonds_perm A s S hL hsep hne r hr sc m h hS z1 z2 z3 hz2 hz3 std eps
  refine ⟨table, rows, h1, h2, h3, fun hz => (h4 hz).trans (List.Perm.of_eq ?_)⟩
  refine List.flatMap_congr (fun c _ => ?_)
  refine List.append_right_eq_self.2 (List.flatMap_eq_nil_iff.2 ?_)
  intro t ht
  rcases hself with hself | hself
  · exact absurd hz hself
  · unfold angleRow
    rw [if_neg]
    rw [angleAt_self (nbrsOf_ne ht), zero_sub, abs_neg]
    exact not_lt.2 hself

/-- C78 is violated for equal elements when the tolerance reaches angle 0: every single bond appears,
paired with itself. -/
theorem C78_self_pairs (A : ArgSort) (s S : Struct ℝ) (hL : s.lattice.det ≠ 0) (hsep : Separated s)
    (hne : s.sites ≠ []) (r : ℝ) (hr : 0 ≤ r) (sc : Fin 3 → ℤ) (m : Fin 3 → ℕ)
    (h : ∀ i, sc i = 2 * (m i : ℤ) + 1) (hS : s.makeSupercell sc true = .ok S) (z1 z2 : ℕ)
    (hz2 : 0 < z2) (std eps : ℝ) (he : |std| < eps) :
    ∃ table rows, neighborTable A s r sc = .ok table ∧ angleBonds table z1 z2 z2 std eps = .ok rows ∧
      ∀ d ∈ bondLengths s S r z1 z2, (0, d, d) ∈ rows := by
  obtain ⟨table, rows, h1, h2, h3⟩ :=
    angleBonds_spec A s S hL hsep hne r hr sc m h hS z1 z2 z2 hz2 hz2 std eps
  refine ⟨table, rows, h1, h2, ?_⟩
  intro d hd
  obtain ⟨c, hc, hd⟩ := List.mem_flatMap.1 hd
  obtain ⟨t, ht, rfl⟩ := List.mem_map.1 hd
  rw [List.mem_filter, decide_eq_true_eq] at hc
  rw [h3]
  refine ⟨c, hc.1, hc.2, t, ht, t, ht, ?_, ?_⟩
  · rw [angleAt_self (nbrsOf_ne ht), zero_sub, abs_neg]
    exact he
  · rw [angleAt_self (nbrsOf_ne ht), min_self, max_self]

/-- The bond of `originCell` within cutoff 1 is listed with angle 0. -/
example (A : ArgSort) : ∃ table rows, neighborTable A originCell 1 ![1, 1, 1] = .ok table ∧
    angleBonds table 3 14 14 0 1 = .ok rows ∧ (0, 1, 1) ∈ rows := by
  have hb : bondLengths originCell originSuper 1 3 14 = [1] := by
    simp [bondLengths, originCell, originSuper, nbrsOf, dist3, Fin.sum_univ_three]
  obtain ⟨table, rows, h1, h2, h3⟩ := C78_self_pairs A originCell originSuper
    (by simp [originCell, Matrix.det_diagonal]) originCell_separated (by simp [originCell]) 1
    (by norm_num) ![1, 1, 1] ![0, 0, 0] (by decide) originCell_supercell 3 14 (by norm_num) 0 1
    (by norm_num)
  exact ⟨table, rows, h1, h2, h3 1 (by rw [hb]; simp)⟩

end MaterSDK
