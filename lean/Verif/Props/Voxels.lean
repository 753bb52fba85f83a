import Verif.Lemmas.Voxels

/-! # Voxels of particles: properties C190 to C193 -/

namespace MaterSDK

/-- A box and voxel sizes for the examples. -/
def exBox : Fin 3 → Vec ℚ := ![![2, 0, 0], ![3, 2, 0], ![0, 1, 2]]

theorem exBox_entries : exBox 0 0 = 2 ∧ exBox 1 1 = 2 ∧ exBox 2 1 = 1 ∧ exBox 2 2 = 2 := ⟨rfl, rfl, rfl, rfl⟩

/-- Another box, and a location in it. -/
def exTall : Fin 3 → Vec ℚ := ![![2, 0, 0], ![0, 10, 0], ![0, 0, 2]]

def exLoc : Vec ℚ := ![1, 49 / 10, 1 / 2]

theorem exTall_entries : exTall 0 0 = 2 ∧ exTall 1 1 = 10 ∧ exTall 2 1 = 0 ∧ exTall 2 2 = 2 ∧ exLoc 0 = 1 ∧
    exLoc 1 = 49 / 10 ∧ exLoc 2 = 1 / 2 := ⟨rfl, rfl, rfl, rfl, rfl, rfl, rfl⟩

/-! ## C190 -/

/-- C190 fails without periodicity: the numbers of voxels have no value. -/
theorem C190_violated_open (vsy vsz miny minz : ℚ) (box : Fin 3 → Vec ℚ) :
    Voxels.make vsy vsz miny minz box false = .error .undefined := by
  unfold Voxels.make
  split
  · rfl
  · rfl

/-- C190 fails for voxels more than twice as wide as the box: there are none, and inserting any particle
writes outside the table. -/
theorem C190_violated_wide : ∃ V, Voxels.make 5 1 0 0 exBox true = .ok V ∧
    ∀ p, V.insert p = .error .outOfBounds := by
  obtain ⟨e0, e1, e2, e3⟩ := exBox_entries
  have hb : Voxels.make 5 1 0 0 exBox true = .ok ⟨2 / ((2 : ℤ) : ℚ), 1, 0, 0, 0, 2, exBox, true, []⟩ := by
    have f1 : ⌊(2 : ℚ) / 5 + 1 / 2⌋ = 0 := by norm_num
    have f2 : ⌊(2 : ℚ) / 1 + 1 / 2⌋ = 2 := by norm_num
    unfold Voxels.make
    rw [e0, e1, e3]
    simp only [f1, f2]
    norm_num
  refine ⟨_, hb, fun p => ?_⟩
  unfold Voxels.insert
  simp only
  rw [cGet_oob (Or.inr _)]
  · rfl
  · simp only [Voxels.index, List.length_nil]
    omega

/-- The voxels of a box exist and are empty. -/
theorem voxels_exist {vsy vsz : ℚ} {box : Fin 3 → Vec ℚ} (h : VoxelSizes vsy vsz box) (miny minz : ℚ) :
    ∃ V, Voxels.make vsy vsz miny minz box true = .ok V ∧ 1 ≤ V.ny ∧ 1 ≤ V.nz := by
  obtain ⟨b0, b1, b2, v1, v2, w1, w2⟩ := h
  have e1 : 1 ≤ ⌊box 1 1 / vsy + 1 / 2⌋ := by
    rw [Int.le_floor]
    have : 1 / 2 ≤ box 1 1 / vsy := by rw [div_le_div_iff₀ (by norm_num) v1]; linarith
    push_cast
    linarith
  have e2 : 1 ≤ ⌊box 2 2 / vsz + 1 / 2⌋ := by
    rw [Int.le_floor]
    have : 1 / 2 ≤ box 2 2 / vsz := by rw [div_le_div_iff₀ (by norm_num) v2]; linarith
    push_cast
    linarith
  unfold Voxels.make
  rw [if_neg (by simp [b0.ne', b1.ne', b2.ne', v1.ne', v2.ne']), if_neg (by simp)]
  simp only
  rw [if_neg (by omega)]
  exact ⟨_, rfl, e1, e2⟩

/-- C190 for periodic boxes at least half as wide as the voxels: there are round(L / size) voxels along y
and z, every particle is filed into exactly one of them, which depends on its location alone, and every
voxel lists its particles in the order they came with their x coordinates.
Missing: open boxes and wider voxels, for which it fails. -/
theorem C190_filed_partial (vsy vsz miny minz : ℚ) (box : Fin 3 → Vec ℚ) (h : VoxelSizes vsy vsz box) :
    ∃ V, Voxels.make vsy vsz miny minz box true = .ok V ∧
      V.ny = ⌊box 1 1 / vsy + 1 / 2⌋ ∧ V.nz = ⌊box 2 2 / vsz + 1 / 2⌋ ∧
      ∃ vox : Vec ℚ → ℕ × ℕ, (∀ loc, ((vox loc).1 : ℤ) < V.ny ∧ ((vox loc).2 : ℤ) < V.nz) ∧
        ∀ ps : List (ℤ × Vec ℚ), ∃ V', ps.foldlM Voxels.insert V = .ok V' ∧ V'.Shape ∧
          V'.ny = V.ny ∧ V'.nz = V.nz ∧
          ∀ i j, V'.bin i j = (ps.filter (fun p => vox p.2 = (i, j))).map (fun p => (p.2 0, p.1)) := by
  obtain ⟨V, hV, hy, hz⟩ := voxels_exist h miny minz
  obtain ⟨hs, he⟩ := Voxels.make_shape hV
  obtain ⟨-, -, -, -, -, -, n1, n2, -⟩ := Voxels.make_ok hV
  refine ⟨V, hV, n1, n2, fun loc => ((V.index loc).1.toNat, (V.index loc).2.toNat), ?_, ?_⟩
  · intro loc
    have := V.index_range hy hz loc
    simp only
    omega
  · intro ps
    obtain ⟨bins, f1, f2, f3⟩ := Voxels.fill_ok hs hy hz ps
    refine ⟨_, f1, f2, rfl, rfl, ?_⟩
    intro i j
    rw [f3 i j, he, List.nil_append]
    congr 1
    apply List.filter_congr
    intro p _
    have := V.index_range hy hz p.2
    rw [Bool.eq_iff_iff, decide_eq_true_eq, decide_eq_true_eq, Prod.ext_iff, Prod.ext_iff]
    simp only
    omega

theorem exBox_sizes : VoxelSizes 1 1 exBox := by
  obtain ⟨e0, e1, e2, e3⟩ := exBox_entries
  rw [VoxelSizes, e0, e1, e3]
  norm_num

example := C190_filed_partial 1 1 0 0 exBox exBox_sizes

/-! ## C191 -/

/-- C191 fails: in a box of 10 by 2 with voxels of 5/2 by 1 the particle at y = 49/10 is filed into voxel
(3, 0) though it lies in voxel (1, 0), because the size along y is overwritten by the one along z. -/
theorem C191_violated : ∃ V V', Voxels.make (5 / 2) 1 0 0 exTall true = .ok V ∧
    V.insert (7, exLoc) = .ok V' ∧ V.ny = 4 ∧ V.nz = 2 ∧
    V'.bin 3 0 = [(1, 7)] ∧ V'.bin 1 0 = [] ∧
    InVoxel exTall 4 2 exLoc 1 0 ∧
    ¬ InVoxel exTall 4 2 exLoc 3 0 := by
  obtain ⟨V, hV, hy, hz⟩ := voxels_exist (vsy := 5 / 2) (vsz := 1) (box := exTall)
    (by obtain ⟨e0, e1, e2, e3, -⟩ := exTall_entries; rw [VoxelSizes, e0, e1, e3]; norm_num) 0 0
  obtain ⟨hs, he⟩ := Voxels.make_shape hV
  obtain ⟨-, -, -, -, -, -, n1, n2, n3, n4, n5, n6, -⟩ := Voxels.make_ok hV
  obtain ⟨e0, e1, e2, e3, e4, e5, e6⟩ := exTall_entries
  have m1 : V.ny = 4 := by rw [n1, e1]; norm_num
  have m2 : V.nz = 2 := by rw [n2, e3]; norm_num
  obtain ⟨bins, f1, f2, f3⟩ := Voxels.insert_ok hs hy hz (7, exLoc)
  have hi : V.index exLoc = (3, 0) := by
    have w : V.wrapped exLoc = (49 / 10, 1 / 2) := by
      simp only [Voxels.wrapped, n6, n5, e1, e2, e3, e5, e6]
      norm_num
    simp only [Voxels.index, w, n3, n4, m1, m2, e3]
    norm_num
  refine ⟨V, _, hV, f1, m1, m2, ?_, ?_, ⟨0, 0, ?_⟩, ?_⟩
  · rw [f3 3 0, he]; simp [hi, e4]
  · rw [f3 1 0, he]; simp [hi]
  · rw [e1, e2, e3, e5, e6]; norm_num
  · rintro ⟨s, t, h1, h2, -, -⟩
    rw [e1, e2, e5] at h1 h2
    norm_num at h1 h2
    have a : (t : ℚ) < 0 := by linarith
    have b : (-1 : ℚ) < t := by linarith
    have a' : t < 0 := by exact_mod_cast a
    have b' : -1 < t := by exact_mod_cast b
    omega

/-- C191 for voxels whose requested size along z divides the box exactly and that are squares: a particle
is in exactly the bin of the voxel that contains an image of its location.
Missing: other sizes, for which it fails. -/
theorem C191_contains_partial (vsy vsz miny minz : ℚ) (box : Fin 3 → Vec ℚ) (h : VoxelSizes vsy vsz box)
    (hz : box 2 2 = vsz * ⌊box 2 2 / vsz + 1 / 2⌋) (hy : box 1 1 = vsz * ⌊box 1 1 / vsy + 1 / 2⌋)
    (ps : List (ℤ × Vec ℚ)) :
    ∃ V V', Voxels.make vsy vsz miny minz box true = .ok V ∧ ps.foldlM Voxels.insert V = .ok V' ∧
      ∀ p ∈ ps, ∃ i j : ℕ, (i : ℤ) < V.ny ∧ (j : ℤ) < V.nz ∧ (p.2 0, p.1) ∈ V'.bin i j ∧
        InVoxel box V.ny V.nz p.2 i j := by
  obtain ⟨V, hV, hy1, hz1⟩ := voxels_exist h miny minz
  obtain ⟨hs, he⟩ := Voxels.make_shape hV
  obtain ⟨-, -, -, -, -, -, n1, n2, n3, n4, n5, n6, -⟩ := Voxels.make_ok hV
  obtain ⟨bins, f1, f2, f3⟩ := Voxels.fill_ok hs hy1 hz1 ps
  refine ⟨V, _, hV, f1, ?_⟩
  intro p hp
  obtain ⟨⟨a0, a1⟩, b0, b1⟩ := V.index_range hy1 hz1 p.2
  obtain ⟨i, hi⟩ := Int.eq_ofNat_of_zero_le a0
  obtain ⟨j, hj⟩ := Int.eq_ofNat_of_zero_le b0
  refine ⟨i, j, by omega, by omega, ?_, ?_⟩
  · rw [f3 i j]
    apply List.mem_append_right
    exact List.mem_map.2 ⟨p, List.mem_filter.2 ⟨hp, by simp [Prod.ext_iff, hi, hj]⟩, rfl⟩
  · obtain ⟨-, l1, l2, s1, s2, -⟩ := h
    rw [← n2] at hz
    rw [← n1] at hy
    have ny0 : (0 : ℚ) < V.ny := by exact_mod_cast (by omega : 0 < V.ny)
    have nz0 : (0 : ℚ) < V.nz := by exact_mod_cast (by omega : 0 < V.nz)
    have cz : box 2 2 / V.nz = vsz := by rw [div_eq_iff nz0.ne']; exact hz
    have cy : box 1 1 / V.ny = vsz := by rw [div_eq_iff ny0.ne']; exact hy
    have w : V.wrapped p.2 =
        (p.2 1 - box 2 1 * ⌊p.2 2 * (1 / box 2 2)⌋ - box 1 1 *
          ⌊(p.2 1 - box 2 1 * ⌊p.2 2 * (1 / box 2 2)⌋) * (1 / box 1 1)⌋,
         p.2 2 - box 2 2 * ⌊p.2 2 * (1 / box 2 2)⌋) := by
      simp only [Voxels.wrapped, n6, n5]
      simp
    simp only [Voxels.index, w, n3, n4] at hi hj
    set s : ℤ := ⌊p.2 2 * (1 / box 2 2)⌋ with hs'
    set t : ℤ := ⌊(p.2 1 - box 2 1 * s) * (1 / box 1 1)⌋ with ht'
    have wz := wrap_one (y := p.2 2) l2
    have wy := wrap_one (y := p.2 1 - box 2 1 * s) l1
    rw [← hs'] at wz
    rw [← ht'] at wy
    rw [cz, ← cy, clamp_floor l1 hy1 wy.1 wy.2] at hi
    rw [← cz, clamp_floor l2 hz1 wz.1 wz.2] at hj
    obtain ⟨g1, g2⟩ := floor_div_cell l1 ny0 hi
    obtain ⟨g3, g4⟩ := floor_div_cell l2 nz0 hj
    refine ⟨s, t, ?_, ?_, ?_, ?_⟩
    · have e : (((i : ℕ) : ℤ) : ℚ) = (i : ℚ) := by push_cast; rfl
      rw [← e]; linarith
    · have e : (((i : ℕ) : ℤ) : ℚ) = (i : ℚ) := by push_cast; rfl
      rw [← e]; linarith
    · have e : (((j : ℕ) : ℤ) : ℚ) = (j : ℚ) := by push_cast; rfl
      rw [← e]; linarith
    · have e : (((j : ℕ) : ℤ) : ℚ) = (j : ℚ) := by push_cast; rfl
      rw [← e]; linarith

example := C191_contains_partial 1 1 0 0 exBox exBox_sizes (by rw [exBox_entries.2.2.2]; norm_num)
  (by rw [exBox_entries.2.1]; norm_num)
  [(0, ![1, 199 / 100, 199 / 100]), (1, ![1, 4, 12])]

/-! ## C192 -/

/-- C192: in a periodic box in the reduced form, a particle and its images under all lattice translations
are filed into the same voxel. -/
theorem C192_images (vsy vsz miny minz : ℚ) (box : Fin 3 → Vec ℚ) (h : VoxelSizes vsy vsz box)
    (h01 : box 0 1 = 0) (h02 : box 0 2 = 0) (h12 : box 1 2 = 0) (loc : Vec ℚ) (t : Fin 3 → ℤ) (a b : ℤ) :
    ∃ V V', Voxels.make vsy vsz miny minz box true = .ok V ∧
      [(a, loc), (b, fun p => loc p + t 0 * box 0 p + t 1 * box 1 p + t 2 * box 2 p)].foldlM Voxels.insert V
        = .ok V' ∧
      ∃ i j, V'.bin i j = [(loc 0, a), (loc 0 + t 0 * box 0 0 + t 1 * box 1 0 + t 2 * box 2 0, b)] := by
  obtain ⟨V, hV, hy1, hz1⟩ := voxels_exist h miny minz
  obtain ⟨hs, he⟩ := Voxels.make_shape hV
  obtain ⟨-, -, -, -, -, -, n1, n2, n3, n4, n5, n6, -⟩ := Voxels.make_ok hV
  obtain ⟨bins, f1, f2, f3⟩ := Voxels.fill_ok hs hy1 hz1
    [(a, loc), (b, fun p => loc p + t 0 * box 0 p + t 1 * box 1 p + t 2 * box 2 p)]
  refine ⟨V, _, hV, f1, (V.index loc).1.toNat, (V.index loc).2.toNat, ?_⟩
  have hr := V.index_range hy1 hz1 loc
  have hw : V.index (fun p => loc p + t 0 * box 0 p + t 1 * box 1 p + t 2 * box 2 p) = V.index loc := by
    have := V.wrapped_image n6 (by rw [n5]; exact h.2.1.ne') (by rw [n5]; exact h.2.2.1.ne') (by rw [n5]; exact h01)
      (by rw [n5]; exact h02) (by rw [n5]; exact h12) loc t
    rw [n5] at this
    simp only [Voxels.index, this]
  have e : V.index loc = ((((V.index loc).1.toNat : ℕ) : ℤ), (((V.index loc).2.toNat : ℕ) : ℤ)) := by
    refine Prod.ext ?_ ?_ <;> simp only <;> omega
  rw [f3, he, List.nil_append, List.filter_cons_of_pos, List.filter_cons_of_pos]
  · rfl
  · simp only [hw, decide_eq_true_eq]; exact e
  · simp only [decide_eq_true_eq]; exact e

example := C192_images 1 1 0 0 exBox exBox_sizes (by simp [exBox]) (by simp [exBox]) (by simp [exBox])
  ![1, 4 / 5, 3 / 10] ![1, -2, 3] 0 1

/-! ## C193 -/

/-- C193: after `sortItems` every voxel holds the same particles, ordered by x and then by number; the two
searches over a whole voxel delimit exactly the particles with x between two numbers, both included. -/
theorem C193_search (vsy vsz miny minz : ℚ) (box : Fin 3 → Vec ℚ) (h : VoxelSizes vsy vsz box)
    (ps : List (ℤ × Vec ℚ)) :
    ∃ V V', Voxels.make vsy vsz miny minz box true = .ok V ∧ ps.foldlM Voxels.insert V = .ok V' ∧
      ∀ i j : ℕ, (i : ℤ) < V.ny → (j : ℤ) < V.nz →
        (V'.sortItems.bin i j).Perm (V'.bin i j) ∧
        (V'.sortItems.bin i j).Pairwise (fun a b => a.1 < b.1 ∨ (a.1 = b.1 ∧ a.2 ≤ b.2)) ∧
        ∀ a b : ℚ, ∃ lo hi : ℕ, V'.sortItems.findLower i j a 0 (V'.bin i j).length = .ok (lo : ℤ) ∧
          V'.sortItems.findUpper i j b 0 (V'.bin i j).length = .ok (hi : ℤ) ∧
          lo ≤ (V'.bin i j).length ∧ hi ≤ (V'.bin i j).length ∧
          ∀ (e : ℕ) (q : ℚ × ℤ), (V'.sortItems.bin i j)[e]? = some q →
            (a ≤ q.1 ∧ q.1 ≤ b ↔ lo ≤ e ∧ e < hi) := by
  obtain ⟨V, hV, hy1, hz1⟩ := voxels_exist h miny minz
  obtain ⟨hs, he⟩ := Voxels.make_shape hV
  obtain ⟨bins, f1, f2, f3⟩ := Voxels.fill_ok hs hy1 hz1 ps
  refine ⟨V, _, hV, f1, ?_⟩
  set V' : Voxels := { V with bins := bins } with hV'
  intro i j hi hj
  have hb := V'.sort_bin i j
  have hl : (V'.sortItems.bin i j).length = (V'.bin i j).length := by rw [hb, List.length_insertionSort]
  obtain ⟨row, r1, r2, -, -⟩ := Voxels.bin_get (Voxels.sort_shape f2) (i := i) (j := j) hi hj
  refine ⟨by rw [hb]; exact List.perm_insertionSort _ _, ?_, ?_⟩
  · rw [hb]
    exact (sorted_pairs _).imp (fun h => by simpa [pairLe] using h)
  · intro a b
    obtain ⟨lo, l1, l2, l3, l4⟩ := lowerLoop_spec (V'.sortItems.bin i j) a (by rw [hb]; exact sorted_first _)
      (((V'.bin i j).length : ℤ) - 0).toNat 0 (V'.bin i j).length le_rfl (by omega) (by rw [hl]) le_rfl
    obtain ⟨hi', u1, u2, u3, u4⟩ := upperLoop_spec (V'.sortItems.bin i j) b (by rw [hb]; exact sorted_first _)
      (((V'.bin i j).length : ℤ) - 0).toNat 0 (V'.bin i j).length le_rfl (by omega) (by rw [hl]) le_rfl
    refine ⟨lo, hi', ?_, ?_, by omega, by omega, ?_⟩
    · unfold Voxels.findLower
      rw [cGet_nat r1, ok_bind, cGet_nat r2, ok_bind, l1]
    · unfold Voxels.findUpper
      rw [cGet_nat r1, ok_bind, cGet_nat r2, ok_bind, u1]
    · intro e q hq
      have hel : e < (V'.bin i j).length := by
        rw [← hl]; exact (List.getElem?_eq_some_iff.1 hq).1
      have x1 := l4 e q (by omega) (by omega) hq
      have x2 := u4 e q (by omega) (by omega) hq
      rw [x2, ← not_lt, x1, not_lt]

example := C193_search 1 1 0 0 exBox exBox_sizes
  [(0, ![1, 4 / 5, 2 / 5]), (1, ![4 / 5, 4 / 5, 3 / 10]), (2, ![9 / 10, 4 / 5, 3 / 10])]

/-- C193: searches over part of a sorted voxel stay in it and separate the smaller from the others. -/
theorem C193_part (V : Voxels) (hs : V.Shape) (i j : ℕ) (hi : (i : ℤ) < V.ny) (hj : (j : ℤ) < V.nz)
    (x : ℚ) (lower upper : ℕ) (h1 : lower ≤ upper) (h2 : upper ≤ (V.bin i j).length) :
    ∃ lo hi : ℕ, V.sortItems.findLower i j x lower upper = .ok (lo : ℤ) ∧
      V.sortItems.findUpper i j x lower upper = .ok (hi : ℤ) ∧ lower ≤ lo ∧ lo ≤ hi ∧ hi ≤ upper ∧
      ∀ (e : ℕ) (q : ℚ × ℤ), lower ≤ e → e < upper → (V.sortItems.bin i j)[e]? = some q →
        (q.1 < x ↔ e < lo) ∧ (q.1 = x ↔ lo ≤ e ∧ e < hi) ∧ (x < q.1 ↔ hi ≤ e) := by
  have hb := V.sort_bin i j
  have hl : (V.sortItems.bin i j).length = (V.bin i j).length := by rw [hb, List.length_insertionSort]
  obtain ⟨row, r1, r2, -, -⟩ := Voxels.bin_get (Voxels.sort_shape hs) (i := i) (j := j) hi hj
  obtain ⟨lo, l1, l2, l3, l4⟩ := lowerLoop_spec (V.sortItems.bin i j) x (by rw [hb]; exact sorted_first _)
    ((upper : ℤ) - lower).toNat lower upper (by omega) (by omega) (by rw [hl]; exact_mod_cast h2) le_rfl
  obtain ⟨hi', u1, u2, u3, u4⟩ := upperLoop_spec (V.sortItems.bin i j) x (by rw [hb]; exact sorted_first _)
    ((upper : ℤ) - lower).toNat lower upper (by omega) (by omega) (by rw [hl]; exact_mod_cast h2) le_rfl
  have key : ∀ (e : ℕ) (q : ℚ × ℤ), lower ≤ e → e < upper → (V.sortItems.bin i j)[e]? = some q →
      (q.1 < x ↔ e < lo) ∧ (q.1 ≤ x ↔ e < hi') := fun e q e1 e2 hq =>
    ⟨l4 e q (by omega) (by omega) hq, u4 e q (by omega) (by omega) hq⟩
  refine ⟨lo, hi', ?_, ?_, by omega, ?_, by omega, ?_⟩
  · unfold Voxels.findLower
    rw [cGet_nat r1, ok_bind, cGet_nat r2, ok_bind, l1]
  · unfold Voxels.findUpper
    rw [cGet_nat r1, ok_bind, cGet_nat r2, ok_bind, u1]
  · by_contra hc
    have hlen : hi' < (V.sortItems.bin i j).length := by rw [hl]; omega
    obtain ⟨k1, k2⟩ := key hi' _ (by omega) (by omega) (List.getElem?_eq_getElem hlen)
    have := k1.2 (by omega)
    exact absurd (k2.1 this.le) (lt_irrefl _)
  · intro e q e1 e2 hq
    obtain ⟨k1, k2⟩ := key e q e1 e2 hq
    refine ⟨k1, ?_, ?_⟩
    · rw [le_antisymm_iff, k2, ← not_lt, k1]
      omega
    · rw [← not_le, k2]
      omega

example := C193_part ⟨1, 1, 0, 0, 1, 1, exBox, true, [[[(1, 0), (1 / 2, 1), (3, 2)]]]⟩ ⟨rfl, by simp⟩ 0 0
  (by decide) (by decide) (3 / 4) 1 3 (by decide) (by simp [Voxels.bin])

end MaterSDK
