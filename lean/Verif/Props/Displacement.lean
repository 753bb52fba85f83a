import Verif.Lemmas.AveragesMsd
import Mathlib.Tactic.NormNum
import Mathlib.Analysis.SpecialFunctions.Exp

/-!
# C56, C57, C71-C77: displacements, diffraction intensity, adjacency, pair distances
-/

set_option linter.unusedSectionVars false

namespace MaterSDK

open Classical Matrix

/-! ## C56 -/

/-- C56: what the two functions return for a trajectory of frames with the same positive number of
atoms: one value per pair of consecutive frames, the mean of the squared distances of corresponding
atoms (taken relative to the centroids in the second function). -/
theorem C56_values (cpus : ℕ) (hc : 3 ≤ cpus) (frames : List (Struct ℝ)) (n : ℕ) (hn : 0 < n)
    (h : ∀ f ∈ frames, f.sites.length = n) :
    (∃ vals, calcMsd cpus frames = .ok vals ∧ vals.length = frames.length - 1 ∧
      ∀ (k : ℕ) (f g : Struct ℝ), frames[k]? = some f → frames[k + 1]? = some g →
        vals[k]? = some (some ((List.zipWith (fun t u : Site ℝ => dist3 u.pos t.pos ^ 2)
          f.sites g.sites).sum / n))) ∧
    (∃ vals, calcMsdSubCentroid cpus frames = .ok vals ∧ vals.length = frames.length - 1 ∧
      ∀ (k : ℕ) (f g : Struct ℝ), frames[k]? = some f → frames[k + 1]? = some g →
        vals[k]? = some (some ((List.zipWith (fun t u : Site ℝ =>
          dist3 (u.pos - g.getCentroid) (t.pos - f.getCentroid) ^ 2) f.sites g.sites).sum / n))) := by
  have hmem : ∀ p ∈ consecutiveFrames frames, p.1.sites.length = p.2.sites.length ∧
      p.2.sites ≠ [] ∧ p.2.sites.length = n := by
    intro p hp
    have h1 := h p.1 (List.of_mem_zip hp).1
    have h2 := h p.2 (List.mem_of_mem_tail (List.of_mem_zip hp).2)
    refine ⟨h1.trans h2.symm, ?_, h2⟩
    intro h0
    rw [h0] at h2
    simp at h2
    omega
  constructor
  · refine ⟨(consecutiveFrames frames).map (fun p => some ((List.zipWith (fun t u : Site ℝ =>
      dist3 u.pos t.pos ^ 2) p.1.sites p.2.sites).sum / p.2.sites.length)), ?_, ?_, ?_⟩
    · rw [calcMsd, poolMap_large hc]
      exact mapM_map_ok (fun p hp => calcMsdS_same (hmem p hp).1 (hmem p hp).2.1)
    · rw [List.length_map, consecutiveFrames_length]
    · intro k f g hf hg
      have hk := (consecutiveFrames_get frames k (f, g)).2 ⟨hf, hg⟩
      rw [List.getElem?_map, hk, Option.map_some, (hmem _ (List.mem_of_getElem? hk)).2.2]
  · refine ⟨(consecutiveFrames frames).map (fun p => some ((List.zipWith (fun t u : Site ℝ =>
      dist3 (u.pos - p.2.getCentroid) (t.pos - p.1.getCentroid) ^ 2)
        p.1.sites p.2.sites).sum / p.2.sites.length)), ?_, ?_, ?_⟩
    · rw [calcMsdSubCentroid, poolMap_large hc]
      exact mapM_map_ok (fun p hp => calcMsdSubCentroidS_same (hmem p hp).1 (hmem p hp).2.1)
    · rw [List.length_map, consecutiveFrames_length]
    · intro k f g hf hg
      have hk := (consecutiveFrames_get frames k (f, g)).2 ⟨hf, hg⟩
      rw [List.getElem?_map, hk, Option.map_some, (hmem _ (List.mem_of_getElem? hk)).2.2]

/-- C56, for any trajectory for which a list is returned: the number of values is the number of frames
minus one, no value is negative, and the value between two frames with the same positions is 0. -/
theorem C56_nonneg (cpus : ℕ) (frames : List (Struct ℝ)) :
    (∀ vals, calcMsd cpus frames = .ok vals → vals.length = frames.length - 1 ∧
      (∀ x, some x ∈ vals → 0 ≤ x) ∧
      ∀ (k : ℕ) (f g : Struct ℝ), frames[k]? = some f → frames[k + 1]? = some g → f.sites ≠ [] →
        f.sites.map Site.pos = g.sites.map Site.pos → vals[k]? = some (some 0)) ∧
    (∀ vals, calcMsdSubCentroid cpus frames = .ok vals → vals.length = frames.length - 1 ∧
      (∀ x, some x ∈ vals → 0 ≤ x) ∧
      ∀ (k : ℕ) (f g : Struct ℝ), frames[k]? = some f → frames[k + 1]? = some g → f.sites ≠ [] →
        f.sites.map Site.pos = g.sites.map Site.pos → vals[k]? = some (some 0)) := by
  have hzero : ∀ (d : Vec ℝ → Vec ℝ → ℝ) (hd : ∀ p, d p p = 0) (a b : List (Site ℝ)),
      a.map Site.pos = b.map Site.pos → (List.zipWith (fun t u : Site ℝ => d u.pos t.pos) a b).sum = 0 := by
    intro d hd a
    induction a with
    | nil => intro b _; simp
    | cons t a ih =>
      intro b hb
      cases b with
      | nil => simp at hb
      | cons u b =>
        rw [List.map_cons, List.map_cons, List.cons.injEq] at hb
        rw [List.zipWith_cons_cons, List.sum_cons, ih b hb.2, hb.1, hd, add_zero]
  constructor
  · intro vals hv
    have hf := poolMap_ok hv
    refine ⟨?_, ?_, ?_⟩
    · rw [← hf.length_eq, consecutiveFrames_length]
    · intro x hx
      obtain ⟨k, hk⟩ := List.getElem?_of_mem hx
      obtain ⟨p, _, hp⟩ := forall₂_getElem? hf k _ hk
      unfold calcMsdS at hp
      split at hp
      · cases hp
      · obtain ⟨rel, _, hp⟩ := bind_eq_ok.1 hp
        exact meanSquare_nonneg (Except.ok.inj hp)
    · intro k f g h1 h2 hne heq
      obtain ⟨v, hv1, hv2⟩ := forall₂_getElem?' hf k (f, g)
        ((consecutiveFrames_get frames k (f, g)).2 ⟨h1, h2⟩)
      have hlen : f.sites.length = g.sites.length := by simpa using congrArg List.length heq
      have hne2 : g.sites ≠ [] := fun h0 => hne (by
        rw [h0] at hlen; exact List.length_eq_zero_iff.1 hlen)
      rw [calcMsdS_same hlen hne2, hzero (fun p q => dist3 p q ^ 2) (fun p => by simp [dist3_self])
        _ _ heq, zero_div] at hv2
      rw [hv1, ← Except.ok.inj hv2]
  · intro vals hv
    have hf := poolMap_ok hv
    refine ⟨?_, ?_, ?_⟩
    · rw [← hf.length_eq, consecutiveFrames_length]
    · intro x hx
      obtain ⟨k, hk⟩ := List.getElem?_of_mem hx
      obtain ⟨p, _, hp⟩ := forall₂_getElem? hf k _ hk
      unfold calcMsdSubCentroidS at hp
      obtain ⟨_, _, hp⟩ := bind_eq_ok.1 hp
      obtain ⟨_, _, hp⟩ := bind_eq_ok.1 hp
      obtain ⟨rel, _, hp⟩ := bind_eq_ok.1 hp
      exact meanSquare_nonneg (Except.ok.inj hp)
    · intro k f g h1 h2 hne heq
      obtain ⟨v, hv1, hv2⟩ := forall₂_getElem?' hf k (f, g)
        ((consecutiveFrames_get frames k (f, g)).2 ⟨h1, h2⟩)
      have hlen : f.sites.length = g.sites.length := by simpa using congrArg List.length heq
      have hne2 : g.sites ≠ [] := fun h0 => hne (by
        rw [h0] at hlen; exact List.length_eq_zero_iff.1 hlen)
      have hcen : f.getCentroid = g.getCentroid := by
        funext j
        have e : f.sites.map (fun t => t.pos j) = g.sites.map (fun t => t.pos j) := by
          have := congrArg (List.map (fun p : Vec ℝ => p j)) heq
          simpa [List.map_map, Function.comp_def] using this
        rw [Struct.getCentroid, Struct.getCentroid, e, hlen]
      rw [calcMsdSubCentroidS_same hlen hne2, hcen,
        hzero (fun p q => dist3 (p - g.getCentroid) (q - g.getCentroid) ^ 2)
          (fun p => by simp [dist3_self]) _ _ heq, zero_div] at hv2
      rw [hv1, ← Except.ok.inj hv2]

/-- C56: the centroid-corrected values (or the error) are the same when every frame is translated by a
vector of its own. -/
theorem C56_translation (cpus : ℕ) (frames frames' : List (Struct ℝ))
    (h : List.Forall₂ (fun f f' => ∃ v : Vec ℝ, f' = f.moved v) frames frames') :
    calcMsdSubCentroid cpus frames' = calcMsdSubCentroid cpus frames := by
  unfold calcMsdSubCentroid poolMap
  split
  · rfl
  · refine mapM_forall₂_congr _ _ ?_ (consecutiveFrames_forall₂ h)
    rintro ⟨a, b⟩ ⟨a', b'⟩ ⟨⟨v, hv⟩, ⟨w, hw⟩⟩
    simp only at hv hw
    subst hv hw
    simp only [calcMsdSubCentroidS, subCentroid_moved]

/-- One atom that moves by 3 along x; two values for three frames; the corrected ones are 0. -/
example : calcMsd 8 [⟨1, [⟨1, 0, none⟩]⟩, ⟨1, [⟨1, ![3, 0, 0], none⟩]⟩, ⟨1, [⟨1, ![3, 0, 0], none⟩]⟩]
      = .ok [some 9, some 0] := by
  obtain ⟨⟨vals, h1, h2, h3⟩, _⟩ := C56_values 8 (by norm_num)
    [⟨1, [⟨1, 0, none⟩]⟩, ⟨1, [⟨1, ![3, 0, 0], none⟩]⟩, ⟨1, [⟨1, ![3, 0, 0], none⟩]⟩] 1 (by norm_num)
    (by simp)
  rw [h1]
  have e0 := h3 0 _ _ rfl rfl
  have e1 := h3 1 _ _ rfl rfl
  match vals, h2, e0, e1 with
  | [a, b], _, e0, e1 =>
    simp [dist3_sq] at e0 e1
    rw [e0, e1]
    norm_num

/-! ## C57 -/


/-- C57, what the code computes, for every structure with a non-singular cell and every odd supercell:
the matrix is symmetric; an off-diagonal entry is the number of images of the second atom within the
cutoff of the first; a diagonal entry is the number of such images of the atom itself, minus one. -/
theorem C57_counts (s : Struct ℝ) (hL : s.lattice.det ≠ 0) (hne : s.sites ≠ []) (rcut : ℝ)
    (sc : Fin 3 → ℤ) (m : Fin 3 → ℕ) (h : ∀ i, sc i = 2 * (m i : ℤ) + 1) :
    ∃ M, adjacentMatrix s rcut sc = .ok M ∧ M.length = s.sites.length ∧
      (∀ row ∈ M, row.length = s.sites.length) ∧
      (∀ i j, matEntry M i j = matEntry M j i) ∧
      ∀ (i j : ℕ) (t u : Site ℝ), s.sites[i]? = some t → s.sites[j]? = some u →
        matEntry M i j = some ((imageCount s.lattice m rcut t.pos u.pos : ℤ)
          - if i = j then 1 else 0) := by
  obtain ⟨M, hM⟩ := adjacentMatrix_odd s hne rcut sc m h
  obtain ⟨shifts, h1, h2, h3, h4⟩ := adjacentMatrix_entries s rcut sc M hM
  rw [broadcastShifts_odd sc m h] at h1
  obtain rfl := Except.ok.inj h1
  have hent : ∀ (i j : ℕ) (t u : Site ℝ), s.sites[i]? = some t → s.sites[j]? = some u →
        matEntry M i j = some ((imageCount s.lattice m rcut t.pos u.pos : ℤ)
          - if i = j then 1 else 0) := by
    intro i j t u ht hu
    rw [h4 i j t u ht hu, countWithin_images _ hL, countWithin_images _ hL,
      imageCount_comm _ _ _ u.pos t.pos, ite_self]
  have hnone : ∀ i j, s.sites[i]? = none ∨ s.sites[j]? = none → matEntry M i j = none := by
    intro i j hij
    unfold matEntry
    cases hi : M[i]? with
    | none => rfl
    | some row =>
      rw [Option.bind_some, List.getElem?_eq_none_iff, h3 row (List.mem_of_getElem? hi)]
      have hi' := (List.getElem?_eq_some_iff.1 hi).1
      rw [h2] at hi'
      rcases hij with hij | hij
      · rw [List.getElem?_eq_none_iff] at hij; omega
      · exact List.getElem?_eq_none_iff.1 hij
  refine ⟨M, hM, h2, h3, ?_, hent⟩
  intro i j
  cases hi : s.sites[i]? with
  | none => rw [hnone i j (.inl hi), hnone j i (.inr hi)]
  | some t =>
    cases hj : s.sites[j]? with
    | none => rw [hnone i j (.inr hj), hnone j i (.inl hj)]
    | some u =>
      rw [hent i j t u hi hj, hent j i u t hj hi, imageCount_comm]
      simp only [eq_comm]

/-- C57 for a cutoff below half the shortest lattice translation: the entries are 0 or 1, an
off-diagonal entry is 1 exactly when some image of the box is within the cutoff, and the diagonal is 0.
Missing: larger and negative cutoffs, for which this is false (`C57_not_binary`, `C57_negative`). -/
theorem C57_small_partial (s : Struct ℝ) (hL : s.lattice.det ≠ 0) (hne : s.sites ≠ []) (rcut : ℝ)
    (hr : 0 ≤ rcut) (hsmall : ∀ n : Fin 3 → ℤ, n ≠ 0 → 2 * rcut < dist3 (latticePoint s.lattice n) 0)
    (sc : Fin 3 → ℤ) (m : Fin 3 → ℕ) (h : ∀ i, sc i = 2 * (m i : ℤ) + 1) :
    ∃ M, adjacentMatrix s rcut sc = .ok M ∧ (∀ i j, matEntry M i j = matEntry M j i) ∧
      (∀ i, i < s.sites.length → matEntry M i i = some 0) ∧
      ∀ (i j : ℕ) (t u : Site ℝ), i ≠ j → s.sites[i]? = some t → s.sites[j]? = some u →
        (matEntry M i j = some 1 ∧ ∃ n : Fin 3 → ℤ, (∀ a, |n a| ≤ (m a : ℤ)) ∧
          dist3 (u.pos + latticePoint s.lattice n) t.pos ≤ rcut) ∨
        (matEntry M i j = some 0 ∧ ∀ n : Fin 3 → ℤ, (∀ a, |n a| ≤ (m a : ℤ)) →
          rcut < dist3 (u.pos + latticePoint s.lattice n) t.pos) := by
  obtain ⟨M, h1, h2, h3, h4, h5⟩ := C57_counts s hL hne rcut sc m h
  have huniq : ∀ (p q : Vec ℝ) (n n' : Fin 3 → ℤ), dist3 (q + latticePoint s.lattice n) p ≤ rcut →
      dist3 (q + latticePoint s.lattice n') p ≤ rcut → n = n' := by
    intro p q n n' hn hn'
    by_contra hnn
    have := hsmall (n - n') (sub_ne_zero.2 hnn)
    rw [latticePoint_sub] at this
    have tri : dist3 (latticePoint s.lattice n - latticePoint s.lattice n') 0
        ≤ dist3 (q + latticePoint s.lattice n) p + dist3 (q + latticePoint s.lattice n') p := by
      have t1 := dist3_triangle (q + latticePoint s.lattice n) p (q + latticePoint s.lattice n')
      rw [dist3_comm p] at t1
      have e : dist3 (latticePoint s.lattice n - latticePoint s.lattice n') 0
          = dist3 (q + latticePoint s.lattice n) (q + latticePoint s.lattice n') := by
        rw [← dist3_shift _ _ (q + latticePoint s.lattice n'), zero_add]
        congr 1
        abel
      rw [e]
      exact t1
    linarith
  have hle : ∀ p q, imageCount s.lattice m rcut p q ≤ 1 := by
    intro p q
    rw [imageCount, Finset.card_le_one]
    intro a ha b hb
    exact huniq p q a b (Finset.mem_filter.1 ha).2 (Finset.mem_filter.1 hb).2
  refine ⟨M, h1, h4, ?_, ?_⟩
  · intro i hi
    have ht : s.sites[i]? = some s.sites[i] := List.getElem?_eq_getElem hi
    rw [h5 i i _ _ ht ht, if_pos rfl]
    have : imageCount s.lattice m rcut (s.sites[i]).pos (s.sites[i]).pos = 1 := by
      refine le_antisymm (hle _ _) (Finset.card_pos.2 ⟨0, ?_⟩)
      rw [Finset.mem_filter, mem_boxShifts]
      refine ⟨fun i => by simp, ?_⟩
      rw [latticePoint_zero, add_zero, dist3_self]
      exact hr
    rw [this]
    norm_num
  · intro i j t u hij ht hu
    rw [h5 i j t u ht hu, if_neg hij, sub_zero]
    rcases Nat.le_one_iff_eq_zero_or_eq_one.1 (hle t.pos u.pos) with h0 | h0
    · right
      refine ⟨by rw [h0]; rfl, ?_⟩
      intro n hn
      by_contra hc
      have hmem : n ∈ (boxShifts m).filter
          (fun n => dist3 (u.pos + latticePoint s.lattice n) t.pos ≤ rcut) :=
        Finset.mem_filter.2 ⟨(mem_boxShifts m n).2 hn, not_lt.1 hc⟩
      rw [imageCount, Finset.card_eq_zero] at h0
      rw [h0] at hmem
      exact absurd hmem (Finset.notMem_empty n)
    · left
      refine ⟨by rw [h0]; rfl, ?_⟩
      have hpos : 0 < imageCount s.lattice m rcut t.pos u.pos := by omega
      obtain ⟨n, hn⟩ := Finset.card_pos.1 hpos
      obtain ⟨hn1, hn2⟩ := Finset.mem_filter.1 hn
      exact ⟨n, (mem_boxShifts m n).1 hn1, hn2⟩

/-- C57 is violated: in a cubic cell of edge 1 with one atom and cutoff 1 the only entry, on the
diagonal, is 6. -/
theorem C57_not_binary : adjacentMatrix liCube 1 ![3, 3, 3] = .ok [[6]] := by
  obtain ⟨M, h1, h2, h3, _, h5⟩ := C57_counts liCube (by simp [liCube]) (by simp [liCube]) 1
    ![3, 3, 3] ![1, 1, 1] (by decide)
  have hc : imageCount liCube.lattice ![1, 1, 1] 1 0 0 = 7 := by
    rw [liCube_count 1 (by norm_num), ← boxZ_countP]
    have : ∀ n : Fin 3 → ℤ, (((n 0 ^ 2 + n 1 ^ 2 + n 2 ^ 2 : ℤ) : ℝ) ≤ 1 ^ 2)
        ↔ n 0 ^ 2 + n 1 ^ 2 + n 2 ^ 2 ≤ 1 := by
      intro n
      rw [one_pow]
      exact_mod_cast Iff.rfl
    simp only [this]
    decide +kernel
  have h6 := h5 0 0 ⟨3, 0, none⟩ ⟨3, 0, none⟩ rfl rfl
  rw [h1]
  simp only [liCube, List.length_cons, List.length_nil] at h2 h3
  match M, h2, h3, h6 with
  | [[x]], _, _, h6 =>
    simp only [matEntry, List.getElem?_cons_zero, Option.bind_some, hc, if_true, Option.some.injEq] at h6
    rw [h6]
    norm_num
  | [[]], _, h3, _ => exact absurd (h3 [] (by simp)) (by simp)
  | [x :: y :: l], _, h3, _ => exact absurd (h3 (x :: y :: l) (by simp)) (by simp)

/-- C57 is violated for a negative cutoff: nothing is within it, and every diagonal entry is -1. -/
theorem C57_negative (s : Struct ℝ) (hL : s.lattice.det ≠ 0) (hne : s.sites ≠ []) (rcut : ℝ)
    (hr : rcut < 0) (sc : Fin 3 → ℤ) (m : Fin 3 → ℕ) (h : ∀ i, sc i = 2 * (m i : ℤ) + 1) :
    ∃ M, adjacentMatrix s rcut sc = .ok M ∧ ∀ i, i < s.sites.length → matEntry M i i = some (-1) := by
  obtain ⟨M, h1, _, _, _, h5⟩ := C57_counts s hL hne rcut sc m h
  refine ⟨M, h1, fun i hi => ?_⟩
  have ht : s.sites[i]? = some s.sites[i] := List.getElem?_eq_getElem hi
  rw [h5 i i _ _ ht ht, if_pos rfl]
  have : imageCount s.lattice m rcut (s.sites[i]).pos (s.sites[i]).pos = 0 := by
    rw [imageCount, Finset.card_eq_zero, Finset.filter_eq_empty_iff]
    intro n _ hn
    exact absurd (dist3_nonneg (s.sites[i].pos + latticePoint s.lattice n) s.sites[i].pos)
      (not_le.2 (lt_of_le_of_lt hn hr))
  rw [this]
  norm_num

/-- `liCube` meets the hypotheses of `C57_small_partial` with cutoff 1/4. -/
example : ∀ n : Fin 3 → ℤ, n ≠ 0 → 2 * (1 / 4 : ℝ) < dist3 (latticePoint liCube.lattice n) 0 := by
  intro n hn
  have : latticePoint liCube.lattice n = fun i => (n i : ℝ) := by
    funext j
    simp [latticePoint, liCube, Finset.sum_apply, Matrix.one_apply]
  rw [this]
  refine Real.lt_sqrt_of_sq_lt ?_
  have hpos : (1 : ℤ) ≤ n 0 ^ 2 + n 1 ^ 2 + n 2 ^ 2 := by
    by_contra hc
    apply hn
    funext i
    have h0 := sq_nonneg (n 0)
    have h1 := sq_nonneg (n 1)
    have h2 := sq_nonneg (n 2)
    have e0 : n 0 ^ 2 = 0 := by omega
    have e1 : n 1 ^ 2 = 0 := by omega
    have e2 : n 2 ^ 2 = 0 := by omega
    fin_cases i
    · simpa using e0
    · simpa using e1
    · simpa using e2
  have : (1 : ℝ) ≤ (n 0 : ℝ) ^ 2 + (n 1 : ℝ) ^ 2 + (n 2 : ℝ) ^ 2 := by exact_mod_cast hpos
  simp only [Fin.sum_univ_three, Pi.zero_apply, sub_zero]
  linarith

/-! ## C71: small machines -/

/-- C71, with three or more processors: the analyses that use a process pool return one result per task
in task order, or fail with an error of some task. -/
theorem C71_large_partial (A : ArgSort) (cpus : ℕ) (hc : 3 ≤ cpus) (frames : List (Struct ℝ)) (r : ℝ)
    (sc : Fin 3 → ℤ) (z1 z2 : ℕ) :
    (∀ vals, framesAvgBond A cpus frames r sc z1 z2 = .ok vals ↔ List.Forall₂ (fun f v =>
      ∃ table, neighborTable A f r sc = .ok table ∧ avgBondLength table z1 z2 = .ok v) frames vals) ∧
    (∀ vals, calcMsd cpus frames = .ok vals ↔ List.Forall₂ (fun (p : Struct ℝ × Struct ℝ) v =>
      calcMsdS p.1 p.2 = .ok v) (frames.zip frames.tail) vals) ∧
    (∀ vals, calcMsdSubCentroid cpus frames = .ok vals ↔ List.Forall₂ (fun (p : Struct ℝ × Struct ℝ) v =>
      calcMsdSubCentroidS p.1 p.2 = .ok v) (frames.zip frames.tail) vals) := by
  refine ⟨fun vals => ?_, fun vals => ?_, fun vals => ?_⟩
  · rw [framesAvgBond, poolMap_large hc, mapM_eq_ok]
    constructor
    · exact fun h => h.imp (fun f v hv => bind_eq_ok.1 hv)
    · exact fun h => h.imp (fun f v hv => bind_eq_ok.2 hv)
  · rw [calcMsd, poolMap_large hc, mapM_eq_ok]
    rfl
  · rw [calcMsdSubCentroid, poolMap_large hc, mapM_eq_ok]
    rfl

/-- C71 is violated on machines with one or two processors: every call fails, whatever the
trajectory. -/
theorem C71_small (A : ArgSort) (cpus : ℕ) (hc : cpus ≤ 2) (frames : List (Struct ℝ)) (r q : ℝ)
    (sc : Fin 3 → ℤ) (z1 z2 : ℕ) :
    framesAvgBond A cpus frames r sc z1 z2 = .error .valueError ∧
    calcMsd cpus frames = .error .valueError ∧
    calcMsdSubCentroid cpus frames = .error .valueError ∧
    calcDi cpus frames q = .error .valueError := by
  refine ⟨poolMap_small hc _ _, poolMap_small hc _ _, poolMap_small hc _ _, ?_⟩
  rw [calcDi, calcMsd, poolMap_small hc]
  rfl

/-! ## C72: different numbers of atoms -/

/-- C72: two consecutive frames with different numbers of atoms make the call fail, unless one of them has
exactly one atom. Missing: frames with one atom, see `C72_single_atom`. -/
theorem C72_rejects_partial (cpus : ℕ) (frames : List (Struct ℝ)) (k : ℕ) (f g : Struct ℝ)
    (hf : frames[k]? = some f) (hg : frames[k + 1]? = some g) (h : f.sites.length ≠ g.sites.length)
    (hf1 : f.sites.length ≠ 1) (hg1 : g.sites.length ≠ 1) :
    (∀ vals, calcMsd cpus frames ≠ .ok vals) ∧ (∀ vals, calcMsdSubCentroid cpus frames ≠ .ok vals) := by
  have hk := (consecutiveFrames_get frames k (f, g)).2 ⟨hf, hg⟩
  constructor
  · intro vals hv
    obtain ⟨v, _, hv⟩ := forall₂_getElem?' (poolMap_ok hv) k _ hk
    simp only [calcMsdS] at hv
    split at hv
    · cases hv
    · rw [npSubRows_error (by simpa using h.symm) (by simpa using hg1) (by simpa using hf1)] at hv
      cases hv
  · intro vals hv
    obtain ⟨v, _, hv⟩ := forall₂_getElem?' (poolMap_ok hv) k _ hk
    simp only [calcMsdSubCentroidS] at hv
    obtain ⟨a, ha, hv⟩ := bind_eq_ok.1 hv
    obtain ⟨b, hb, hv⟩ := bind_eq_ok.1 hv
    unfold subCentroid at ha hb
    split at ha
    · cases ha
    split at hb
    · cases hb
    obtain rfl := Except.ok.inj ha
    obtain rfl := Except.ok.inj hb
    rw [npSubRows_error (by simpa using h.symm) (by simpa using hg1) (by simpa using hf1)] at hv
    cases hv

/-- C72 is violated: a frame with one atom is compared with every atom of a larger frame. -/
theorem C72_single_atom (L : Matrix (Fin 3) (Fin 3) ℝ) (t : Site ℝ) (g : Struct ℝ)
    (hg : 2 ≤ g.sites.length) :
    calcMsd 8 [⟨L, [t]⟩, g] = .ok [some ((g.sites.map (fun u => dist3 u.pos t.pos ^ 2)).sum
      / g.sites.length)] := by
  have hne : g.sites ≠ [] := by
    intro h0
    rw [h0] at hg
    simp at hg
  have h1 : calcMsdS ⟨L, [t]⟩ g = .ok (some ((g.sites.map (fun u => dist3 u.pos t.pos ^ 2)).sum
      / g.sites.length)) := by
    obtain ⟨a, b, l, hl⟩ : ∃ a b l, g.sites = a :: b :: l := by
      match hgs : g.sites, hg with
      | a :: b :: l, _ => exact ⟨a, b, l, rfl⟩
    have h2 : npSubRows (g.sites.map Site.pos) [t.pos] = .ok ((g.sites.map Site.pos).map (· - t.pos)) := by
      unfold npSubRows
      rw [if_neg (by rw [List.length_map]; simp; omega), hl]
      rfl
    rw [calcMsdS, if_neg (by simp [hne])]
    simp only [List.map_cons, List.map_nil]
    rw [h2, ok_bind, meanSquare, if_neg (by simpa using hne)]
    simp only [List.map_map, List.length_map, Function.comp_def, dist3_sq]
    rfl
  rw [calcMsd, poolMap_large (by norm_num)]
  have : consecutiveFrames [(⟨L, [t]⟩ : Struct ℝ), g] = [(⟨L, [t]⟩, g)] := rfl
  rw [this]
  exact mapM_eq_ok.2 (List.Forall₂.cons h1 List.Forall₂.nil)

/-! ## C73: reference frame -/

/-- C73: the first value is the displacement from the first frame. Missing: the later values, which are
not measured from the first frame, see `C73_previous_frame`. -/
theorem C73_first_partial (cpus : ℕ) (hc : 3 ≤ cpus) (f g : Struct ℝ) (rest : List (Struct ℝ)) (n : ℕ)
    (hn : 0 < n) (h : ∀ x ∈ f :: g :: rest, x.sites.length = n) :
    ∃ vals, calcMsd cpus (f :: g :: rest) = .ok (some ((List.zipWith (fun t u : Site ℝ =>
      dist3 u.pos t.pos ^ 2) f.sites g.sites).sum / n) :: vals) := by
  obtain ⟨⟨vals, h1, _, h3⟩, _⟩ := C56_values cpus hc (f :: g :: rest) n hn h
  have e := h3 0 f g rfl rfl
  match vals, e with
  | v :: vals, e =>
    rw [List.getElem?_cons_zero, Option.some.injEq] at e
    exact ⟨vals, by rw [h1, e]⟩

/-- C73 is violated: an atom that moves by 1 and back is reported with displacement 1 at the end, not 0
(documentation: `[x_i(t) - x_origin]^2`). -/
theorem C73_previous_frame :
    calcMsd 8 [⟨1, [⟨1, 0, none⟩]⟩, ⟨1, [⟨1, ![1, 0, 0], none⟩]⟩, ⟨1, [⟨1, 0, none⟩]⟩]
      = .ok [some 1, some 1] := by
  obtain ⟨⟨vals, h1, h2, h3⟩, _⟩ := C56_values 8 (by norm_num)
    [⟨1, [⟨1, 0, none⟩]⟩, ⟨1, [⟨1, ![1, 0, 0], none⟩]⟩, ⟨1, [⟨1, 0, none⟩]⟩] 1 (by norm_num)
    (by simp)
  rw [h1]
  have e0 := h3 0 _ _ rfl rfl
  have e1 := h3 1 _ _ rfl rfl
  match vals, h2, e0, e1 with
  | [a, b], _, e0, e1 =>
    simp [dist3_sq] at e0 e1
    rw [e0, e1]

/-! ## C74: periodic images -/

/-- C74: when every atom of the second frame is stored at the image nearest to its position in the first
frame, the value is the mean of the squared shortest distances, i.e. not larger than for any other
choice of images. Missing: frames stored at other images, see `C74_wrapped`. -/
theorem C74_nearest_partial (cpus : ℕ) (hc : 3 ≤ cpus) (f g g' : Struct ℝ) (hne : f.sites ≠ [])
    (hlen : f.sites.length = g.sites.length)
    (himg : List.Forall₂ (fun u u' : Site ℝ => ∃ n : Fin 3 → ℤ, u'.pos = u.pos + latticePoint g.lattice n)
      g.sites g'.sites)
    (hnear : List.Forall₂ (fun t u : Site ℝ => ∀ n : Fin 3 → ℤ,
      dist3 u.pos t.pos ≤ dist3 (u.pos + latticePoint g.lattice n) t.pos) f.sites g.sites) :
    ∃ x x', calcMsd cpus [f, g] = .ok [some x] ∧ calcMsd cpus [f, g'] = .ok [some x'] ∧ x ≤ x' := by
  have hlen' : g.sites.length = g'.sites.length := himg.length_eq
  have hg : g.sites ≠ [] := fun h0 => hne (by rw [h0] at hlen; exact List.length_eq_zero_iff.1 hlen)
  have hg' : g'.sites ≠ [] := fun h0 => hg (by rw [h0] at hlen'; exact List.length_eq_zero_iff.1 hlen')
  have one : ∀ a b : Struct ℝ, consecutiveFrames [a, b] = [(a, b)] := fun _ _ => rfl
  have h1 : calcMsd cpus [f, g] = .ok [some ((List.zipWith (fun t u : Site ℝ => dist3 u.pos t.pos ^ 2)
      f.sites g.sites).sum / g.sites.length)] := by
    rw [calcMsd, poolMap_large hc, one]
    exact mapM_eq_ok.2 (List.Forall₂.cons (calcMsdS_same hlen hg) List.Forall₂.nil)
  have h2 : calcMsd cpus [f, g'] = .ok [some ((List.zipWith (fun t u : Site ℝ => dist3 u.pos t.pos ^ 2)
      f.sites g'.sites).sum / g'.sites.length)] := by
    rw [calcMsd, poolMap_large hc, one]
    exact mapM_eq_ok.2 (List.Forall₂.cons (calcMsdS_same (hlen.trans hlen') hg') List.Forall₂.nil)
  refine ⟨_, _, h1, h2, ?_⟩
  rw [← hlen']
  refine div_le_div_of_nonneg_right ?_ (by positivity)
  generalize g'.sites = us' at himg
  generalize g.sites = us at himg hnear
  generalize f.sites = ts at hnear
  induction hnear generalizing us' with
  | nil => cases himg; simp
  | cons h _ ih =>
    cases himg with
    | cons h' hrest =>
      rw [List.zipWith_cons_cons, List.zipWith_cons_cons, List.sum_cons, List.sum_cons]
      obtain ⟨n, hn⟩ := h'
      refine add_le_add ?_ (ih _ hrest)
      rw [hn]
      exact pow_le_pow_left₀ (dist3_nonneg _ _) (h n) 2

/-- C74 is violated: in a cubic cell of edge 1 an atom moves by 1/5 through the boundary, from 9/10 to
1/10; the reported value is (4/5)^2 instead of (1/5)^2. -/
theorem C74_wrapped :
    calcMsd 8 [⟨1, [⟨1, ![9 / 10, 0, 0], none⟩]⟩, ⟨1, [⟨1, ![1 / 10, 0, 0], none⟩]⟩]
      = .ok [some ((4 / 5) ^ 2)] ∧
    (![1 / 10, 0, 0] : Vec ℝ) + latticePoint 1 ![1, 0, 0] - ![9 / 10, 0, 0] = ![1 / 5, 0, 0] := by
  constructor
  · obtain ⟨⟨vals, h1, h2, h3⟩, _⟩ := C56_values 8 (by norm_num)
      [⟨1, [⟨1, ![9 / 10, 0, 0], none⟩]⟩, ⟨1, [⟨1, ![1 / 10, 0, 0], none⟩]⟩] 1 (by norm_num)
      (by simp)
    rw [h1]
    have e0 := h3 0 _ _ rfl rfl
    match vals, h2, e0 with
    | [a], _, e0 =>
      simp [dist3_sq] at e0
      rw [e0]
      norm_num
  · rw [latticePoint_one]
    funext i
    simp only [Pi.add_apply, Pi.sub_apply]
    fin_cases i <;> norm_num

/-! ## C75: diffraction intensity -/

/-- C75: there is one intensity per displacement; it is `exp(-q^2 msd / 3)`, positive, at most 1, and
equal to 1 exactly when `q = 0` or the displacement is 0. -/
theorem C75_range (cpus : ℕ) (frames : List (Struct ℝ)) (q : ℝ) (vals : List (Option ℝ))
    (h : calcDi cpus frames q = .ok vals) :
    ∃ msd, calcMsd cpus frames = .ok msd ∧ List.Forall₂ (fun m v =>
      (m = none → v = none) ∧ ∀ x, m = some x → ∃ y, v = some y ∧ 0 < y ∧ y ≤ 1 ∧
        Real.log y = -(q ^ 2 * x / 3) ∧ (y = 1 ↔ q = 0 ∨ x = 0)) msd vals := by
  unfold calcDi at h
  obtain ⟨msd, h1, h2⟩ := bind_eq_ok.1 h
  obtain rfl := Except.ok.inj h2
  refine ⟨msd, h1, ?_⟩
  rw [List.forall₂_map_right_iff]
  refine List.forall₂_same.2 ?_
  intro m hm
  refine ⟨fun h0 => by rw [h0]; rfl, ?_⟩
  rintro x rfl
  have hx := ((C56_nonneg cpus frames).1 msd h1).2.1 x hm
  have hq : 0 ≤ q ^ 2 * x := mul_nonneg (sq_nonneg q) hx
  refine ⟨Real.exp (-q ^ 2 * x / 3), rfl, Real.exp_pos _, ?_, ?_, ?_⟩
  · rw [Real.exp_le_one_iff]
    linarith
  · rw [Real.log_exp]
    ring
  · rw [Real.exp_eq_one_iff]
    constructor
    · intro h0
      have : q ^ 2 * x = 0 := by linarith
      rcases mul_eq_zero.1 this with h' | h'
      · exact .inl (by simpa using h')
      · exact .inr h'
    · rintro (h0 | h0) <;> rw [h0] <;> norm_num

/-- C75: a longer scattering vector never gives a larger intensity. -/
theorem C75_monotone (cpus : ℕ) (frames : List (Struct ℝ)) (q q' : ℝ) (hq : |q| ≤ |q'|)
    (vals vals' : List (Option ℝ)) (h : calcDi cpus frames q = .ok vals)
    (h' : calcDi cpus frames q' = .ok vals') :
    List.Forall₂ (fun v v' => ∀ y y', v = some y → v' = some y' → y' ≤ y) vals vals' := by
  unfold calcDi at h h'
  obtain ⟨msd, h1, h2⟩ := bind_eq_ok.1 h
  obtain ⟨msd', h1', h2'⟩ := bind_eq_ok.1 h'
  obtain rfl := Except.ok.inj (h1.symm.trans h1')
  obtain rfl := Except.ok.inj h2
  obtain rfl := Except.ok.inj h2'
  rw [List.forall₂_map_right_iff, List.forall₂_map_left_iff]
  refine List.forall₂_same.2 ?_
  intro m hm y y' hy hy'
  cases m with
  | none => cases hy
  | some x =>
    have hx := ((C56_nonneg cpus frames).1 msd h1).2.1 x hm
    obtain rfl := Option.some.inj hy
    obtain rfl := Option.some.inj hy'
    rw [Real.exp_le_exp]
    have := mul_le_mul_of_nonneg_right (sq_le_sq.2 hq) hx
    linarith

/-- For the atom of the example of C56 and `q = 1` the intensities are `exp(-3)` and 1. -/
example : calcDi 8 [⟨1, [⟨1, 0, none⟩]⟩, ⟨1, [⟨1, ![1, 0, 0], none⟩]⟩, ⟨1, [⟨1, 0, none⟩]⟩] 3
      = .ok [some (Real.exp (-3)), some (Real.exp (-3))] := by
  rw [calcDi, C73_previous_frame, ok_bind]
  have : (-3 ^ 2 * 1 / 3 : ℝ) = -3 := by norm_num
  simp only [List.map_cons, List.map_nil, Option.map_some, this]
  rfl

/-! ## C76: even supercells -/

/-- C76: supercell factors that are not positive are refused; so is every even factor, provided some
factor is at least 3. Missing: factors 1 and 2 only, see `C76_even_accepted`. -/
theorem C76_rejects_partial (s : Struct ℝ) (hne : s.sites ≠ []) (rcut : ℝ) (sc : Fin 3 → ℤ) :
    ((∃ i, sc i ≤ 0) → adjacentMatrix s rcut sc = .error .assertionError) ∧
    ((∀ i, 0 < sc i) → (∃ i, Even (sc i)) → (∃ i, 3 ≤ sc i) →
      adjacentMatrix s rcut sc = .error .valueError) := by
  constructor
  · rintro ⟨i, hi⟩
    rw [adjacentMatrix, if_pos]
    intro hall
    exact absurd (hall i).1 (not_lt.2 hi)
  · intro hpos heven hbig
    rw [adjacentMatrix, if_neg, if_neg hne]
    · have hb : broadcastShifts sc = .error .valueError := by
        have hlen := fracShifts_length sc
        have hodd : ∀ i, (2 * halfShift (sc i) + 1 : ℕ) ≤ (sc i).toNat := by
          intro i
          have := hpos i
          unfold halfShift
          omega
        have hlt : ∃ i, (2 * halfShift (sc i) + 1 : ℕ) < (sc i).toNat := by
          obtain ⟨i, k, hk⟩ := heven
          refine ⟨i, ?_⟩
          have := hpos i
          unfold halfShift
          omega
        have hprod : (sc 0 * sc 1 * sc 2).toNat = (sc 0).toNat * (sc 1).toNat * (sc 2).toNat := by
          rw [Int.toNat_mul (mul_nonneg (hpos 0).le (hpos 1).le) (hpos 2).le,
            Int.toNat_mul (hpos 0).le (hpos 1).le]
        have hp : ∀ i, 0 < (sc i).toNat := fun i => by have := hpos i; omega
        have hne1 : (fracShifts sc).length < (sc 0 * sc 1 * sc 2).toNat := by
          rw [hlen, hprod]
          obtain ⟨i, hi⟩ := hlt
          have a0 := hodd 0
          have a1 := hodd 1
          have a2 := hodd 2
          fin_cases i
          · exact Nat.mul_lt_mul_of_lt_of_le (Nat.mul_lt_mul_of_lt_of_le hi a1 (by omega)) a2 (by omega)
          · exact Nat.mul_lt_mul_of_lt_of_le (Nat.mul_lt_mul_of_le_of_lt a0 hi (hp 0)) a2 (by omega)
          · exact Nat.mul_lt_mul_of_le_of_lt (Nat.mul_le_mul a0 a1) hi (Nat.mul_pos (hp 0) (hp 1))
        have hne2 : 1 < (fracShifts sc).length := by
          rw [hlen]
          obtain ⟨i, hi⟩ := hbig
          have b : 3 ≤ 2 * halfShift (sc i) + 1 := by
            unfold halfShift
            omega
          fin_cases i <;> simp only [Fin.zero_eta, Fin.mk_one, Fin.reduceFinMk] at b <;> nlinarith [Nat.zero_le (halfShift (sc 0)),
            Nat.zero_le (halfShift (sc 1)), Nat.zero_le (halfShift (sc 2)),
            Nat.zero_le (halfShift (sc 0) * halfShift (sc 1)), Nat.zero_le (halfShift (sc 0) * halfShift (sc 2)),
            Nat.zero_le (halfShift (sc 1) * halfShift (sc 2)),
            Nat.zero_le (halfShift (sc 0) * halfShift (sc 1) * halfShift (sc 2))]
        unfold broadcastShifts
        simp only
        rw [if_neg hne1.ne]
        generalize hfs : fracShifts sc = l at hne1 hne2
        match l, hne2 with
        | a :: b :: l, _ =>
          simp only
          rw [if_neg]
          rw [List.length_cons, List.length_cons] at hne1
          omega
      rw [hb]
      rfl
    · rw [not_not]
      intro i
      refine ⟨hpos i, ?_⟩
      have : (sc i : ℚ) ≠ 0 := by exact_mod_cast (hpos i).ne'
      exact div_ne_zero this (by norm_num)

/-- C76 is violated: factor 2 in all directions is accepted although the documentation demands odd
factors, and then every atom is adjacent to itself seven times, whatever the (non-negative) cutoff. -/
theorem C76_even_accepted (s : Struct ℝ) (hne : s.sites ≠ []) (rcut : ℝ) (hr : 0 ≤ rcut) :
    ∃ M, adjacentMatrix s rcut ![2, 2, 2] = .ok M ∧
      ∀ i, i < s.sites.length → matEntry M i i = some 7 := by
  have hb : broadcastShifts ![2, 2, 2] = .ok (List.replicate 8 (realShift ![0, 0, 0])) := by
    have hf : fracShifts ![2, 2, 2] = [realShift ![0, 0, 0]] := by
      rw [fracShifts_box]
      have : (boxZ fun i => halfShift ((![2, 2, 2] : Fin 3 → ℤ) i)) = [![0, 0, 0]] := by decide +kernel
      rw [this]
      rfl
    unfold broadcastShifts
    simp only [hf]
    rfl
  have hM : ∃ M, adjacentMatrix s rcut ![2, 2, 2] = .ok M := by
    rw [adjacentMatrix, if_neg, if_neg hne, hb, ok_bind]
    · exact ⟨_, rfl⟩
    · rw [not_not]
      intro i
      fin_cases i <;> simp
  obtain ⟨M, hM⟩ := hM
  refine ⟨M, hM, fun i hi => ?_⟩
  obtain ⟨shifts, h1, _, _, h4⟩ := adjacentMatrix_entries s rcut _ M hM
  rw [hb] at h1
  obtain rfl := Except.ok.inj h1
  have ht : s.sites[i]? = some s.sites[i] := List.getElem?_eq_getElem hi
  have hz : realShift ![0, 0, 0] = 0 := by
    funext j
    fin_cases j <;> simp [realShift]
  rw [h4 i i _ _ ht ht]
  have : norm3 0 ≤ rcut := by simpa [norm3] using hr
  simp [countWithin, hz, this]

/-! ## C77: distance of an atom pair -/

/-- C77: the values are, frame by frame, the distances of the two stored positions; this is the shortest
periodic distance when no image of the second atom is nearer. Missing: the other case, see
`C77_not_periodic`. -/
theorem C77_distance_partial (frames : List (Struct ℝ)) (i j : ℕ)
    (h : ∀ f ∈ frames, i < f.sites.length ∧ j < f.sites.length) :
    ∃ vals, framesPairBond frames i j = .ok vals ∧
      List.Forall₂ (fun f d => ∃ t u : Site ℝ, f.sites[i]? = some t ∧ f.sites[j]? = some u ∧
        d = dist3 u.pos t.pos ∧
        ((∀ n : Fin 3 → ℤ, dist3 u.pos t.pos ≤ dist3 (u.pos + latticePoint f.lattice n) t.pos) →
          IsLeast {x | ∃ n : Fin 3 → ℤ, x = dist3 (u.pos + latticePoint f.lattice n) t.pos} d))
        frames vals := by
  have hall : ∀ f ∈ frames, ∃ d, (do
      let p ← pyGetI (f.sites.map Site.pos) (i : ℤ)
      let q ← pyGetI (f.sites.map Site.pos) (j : ℤ)
      return norm3 (q - p) : Except PyErr ℝ) = .ok d ∧ ∃ t u : Site ℝ, f.sites[i]? = some t ∧
        f.sites[j]? = some u ∧ d = dist3 u.pos t.pos := by
    intro f hf
    obtain ⟨hi, hj⟩ := h f hf
    have e1 : f.sites[i]? = some f.sites[i] := List.getElem?_eq_getElem hi
    have e2 : f.sites[j]? = some f.sites[j] := List.getElem?_eq_getElem hj
    refine ⟨norm3 ((f.sites[j]).pos - (f.sites[i]).pos), ?_, _, _, e1, e2, norm3_eq_dist3 _ _⟩
    have g1 : pyGetI (f.sites.map Site.pos) (i : ℤ) = .ok (f.sites[i]).pos := by
      rw [pyGetI_nat, pyGet, List.getElem?_map, e1]
      rfl
    have g2 : pyGetI (f.sites.map Site.pos) (j : ℤ) = .ok (f.sites[j]).pos := by
      rw [pyGetI_nat, pyGet, List.getElem?_map, e2]
      rfl
    rw [g1, ok_bind, g2, ok_bind]
    rfl
  unfold framesPairBond
  have key : ∀ frames : List (Struct ℝ), (∀ f ∈ frames, ∃ d, (do
      let p ← pyGetI (f.sites.map Site.pos) (i : ℤ)
      let q ← pyGetI (f.sites.map Site.pos) (j : ℤ)
      return norm3 (q - p) : Except PyErr ℝ) = .ok d ∧ ∃ t u : Site ℝ, f.sites[i]? = some t ∧
        f.sites[j]? = some u ∧ d = dist3 u.pos t.pos) →
      ∃ vals, frames.mapM (fun (s : Struct ℝ) => (do
        let p ← pyGetI (s.sites.map Site.pos) (i : ℤ)
        let q ← pyGetI (s.sites.map Site.pos) (j : ℤ)
        return norm3 (q - p) : Except PyErr ℝ)) = .ok vals ∧
        List.Forall₂ (fun f d => ∃ t u : Site ℝ, f.sites[i]? = some t ∧ f.sites[j]? = some u ∧
          d = dist3 u.pos t.pos) frames vals := by
    intro frames
    induction frames with
    | nil => exact fun _ => ⟨[], rfl, List.Forall₂.nil⟩
    | cons f frames ih =>
      intro hall
      obtain ⟨d, hd, hd'⟩ := hall f List.mem_cons_self
      obtain ⟨vals, hv, hv'⟩ := ih (fun x hx => hall x (List.mem_cons_of_mem _ hx))
      refine ⟨d :: vals, ?_, List.Forall₂.cons hd' hv'⟩
      rw [List.mapM_cons, hd, ok_bind, hv, ok_bind]
      rfl
  obtain ⟨vals, hv, hv'⟩ := key frames hall
  refine ⟨vals, hv, hv'.imp ?_⟩
  rintro f d ⟨t, u, e1, e2, rfl⟩
  refine ⟨t, u, e1, e2, rfl, fun hnear => ⟨⟨0, by rw [latticePoint_zero, add_zero]⟩, ?_⟩⟩
  rintro x ⟨n, rfl⟩
  exact hnear n

/-- C77: an index outside every frame is refused. -/
theorem C77_rejects (f : Struct ℝ) (frames : List (Struct ℝ)) (i j : ℤ)
    (h : (f.sites.length : ℤ) ≤ i ∨ i < -f.sites.length) :
    framesPairBond (f :: frames) i j = .error .indexError := by
  have : pyGetI (f.sites.map Site.pos) i = .error .indexError := by
    unfold pyGetI
    simp only [List.length_map]
    rcases h with h | h
    · have h0 : ¬ i < 0 := by omega
      rw [if_neg h0, if_neg h0, pyGet, List.getElem?_eq_none (by simp; omega)]
    · have h0 : i < 0 := by omega
      rw [if_pos h0, if_pos (by omega)]
  rw [framesPairBond, List.mapM_cons, this]
  rfl

/-- C77 is violated: two atoms 1/5 apart through the boundary of a cubic cell of edge 1 are reported
4/5 apart. -/
theorem C77_not_periodic :
    framesPairBond [⟨1, [⟨1, ![9 / 10, 0, 0], none⟩, ⟨1, ![1 / 10, 0, 0], none⟩]⟩] 0 1
      = .ok [4 / 5] ∧
    dist3 ((![1 / 10, 0, 0] : Vec ℝ) + latticePoint 1 ![1, 0, 0]) ![9 / 10, 0, 0] = 1 / 5 := by
  constructor
  · obtain ⟨vals, h1, h2⟩ := C77_distance_partial
      [⟨1, [⟨1, ![9 / 10, 0, 0], none⟩, ⟨1, ![1 / 10, 0, 0], none⟩]⟩] 0 1 (by simp)
    match vals, h2 with
    | [d], .cons h2 .nil =>
      obtain ⟨t, u, e1, e2, e3, _⟩ := h2
      simp only [List.getElem?_cons_zero, List.getElem?_cons_succ, Option.some.injEq] at e1 e2
      subst e1 e2
      have h1' : framesPairBond [⟨1, [⟨1, ![9 / 10, 0, 0], none⟩, ⟨1, ![1 / 10, 0, 0], none⟩]⟩] 0 1
          = .ok [d] := h1
      rw [h1', e3]
      have : dist3 (![1 / 10, 0, 0] : Vec ℝ) ![9 / 10, 0, 0] = Real.sqrt ((4 / 5) ^ 2) := by
        unfold dist3
        congr 1
        simp [Fin.sum_univ_three]
        norm_num
      simp only
      rw [this, Real.sqrt_sq (by norm_num)]
  · have : dist3 ((![1 / 10, 0, 0] : Vec ℝ) + latticePoint 1 ![1, 0, 0]) ![9 / 10, 0, 0]
        = Real.sqrt ((1 / 5) ^ 2) := by
      rw [latticePoint_one]
      unfold dist3
      congr 1
      simp [Fin.sum_univ_three]
      norm_num
    rw [this, Real.sqrt_sq (by norm_num)]

end MaterSDK
