import Verif.Props.Voxels

/-! # C190 and C191 for all boxes and voxel sizes -/

namespace MaterSDK

/-- C190 for every input: no value without periodicity or with a zero length; an exception if a number of voxels is
negative; if one of them is 0, no particle can be inserted; and in all other cases every particle is filed into
exactly one voxel, which depends on its location alone. -/
theorem C190_exact (vsy vsz miny minz : ℚ) (box : Fin 3 → Vec ℚ) (periodic : Bool) :
    (periodic = false ∨ box 0 0 = 0 ∨ box 1 1 = 0 ∨ box 2 2 = 0 ∨ vsy = 0 ∨ vsz = 0 →
      Voxels.make vsy vsz miny minz box periodic = .error .undefined) ∧
    (¬ (periodic = false ∨ box 0 0 = 0 ∨ box 1 1 = 0 ∨ box 2 2 = 0 ∨ vsy = 0 ∨ vsz = 0) →
      ((⌊box 1 1 / vsy + 1 / 2⌋ < 0 ∨ ⌊box 2 2 / vsz + 1 / 2⌋ < 0) →
        Voxels.make vsy vsz miny minz box periodic = .error .exception) ∧
      (0 ≤ ⌊box 1 1 / vsy + 1 / 2⌋ → 0 ≤ ⌊box 2 2 / vsz + 1 / 2⌋ →
        ∃ V, Voxels.make vsy vsz miny minz box periodic = .ok V ∧
          V.ny = ⌊box 1 1 / vsy + 1 / 2⌋ ∧ V.nz = ⌊box 2 2 / vsz + 1 / 2⌋ ∧
          ((V.ny = 0 ∨ V.nz = 0) → ∀ p, V.insert p = .error .outOfBounds) ∧
          (V.ny ≠ 0 → V.nz ≠ 0 →
            ∃ vox : Vec ℚ → ℕ × ℕ, (∀ loc, ((vox loc).1 : ℤ) < V.ny ∧ ((vox loc).2 : ℤ) < V.nz) ∧
              ∀ ps : List (ℤ × Vec ℚ), ∃ V', ps.foldlM Voxels.insert V = .ok V' ∧
                ∀ i j, V'.bin i j = (ps.filter (fun p => vox p.2 = (i, j))).map (fun p => (p.2 0, p.1))))) := by
  constructor
  · intro h
    unfold Voxels.make
    split
    · rfl
    · rename_i h1
      rw [if_pos (h.resolve_right h1)]
  · intro h
    have hp : ¬ periodic = false := fun h' => h (Or.inl h')
    have hr := fun h' => h (Or.inr h')
    constructor
    · intro h1
      unfold Voxels.make
      rw [if_neg hr, if_neg hp]
      simp only
      rw [if_pos h1]
    · intro h1 h2
      obtain ⟨V, hV⟩ : ∃ V, Voxels.make vsy vsz miny minz box periodic = .ok V := by
        unfold Voxels.make
        rw [if_neg hr, if_neg hp]
        simp only
        rw [if_neg (by omega)]
        exact ⟨_, rfl⟩
      obtain ⟨hs, he⟩ := Voxels.make_shape hV
      obtain ⟨-, -, -, -, -, -, n1, n2, -⟩ := Voxels.make_ok hV
      refine ⟨V, hV, n1, n2, ?_, ?_⟩
      · intro h0 p
        unfold Voxels.insert
        simp only
        by_cases hy : V.ny = 0
        · rw [cGet_oob (Or.inr _)]
          · rfl
          · have := hs.1
            simp only [Voxels.index]
            omega
        · have hz : V.nz = 0 := h0.resolve_left hy
          have hy1 : 1 ≤ V.ny := by omega
          have r1 : 0 ≤ (V.index p.2).1 ∧ (V.index p.2).1 < V.ny := by
            simp only [Voxels.index]; omega
          obtain ⟨i, hi⟩ := Int.eq_ofNat_of_zero_le r1.1
          have hlt : i < V.bins.length := by have := hs.1; omega
          rw [hi, cGet_nat (List.getElem?_eq_getElem hlt), ok_bind, cGet_oob (Or.inr _)]
          · rfl
          · have := hs.2 _ (List.getElem_mem hlt)
            simp only [Voxels.index]
            omega
      · intro hy hz
        have hy1 : 1 ≤ V.ny := by omega
        have hz1 : 1 ≤ V.nz := by omega
        refine ⟨fun loc => ((V.index loc).1.toNat, (V.index loc).2.toNat), ?_, ?_⟩
        · intro loc
          have := V.index_range hy1 hz1 loc
          simp only
          omega
        · intro ps
          obtain ⟨bins, f1, f2, f3⟩ := Voxels.fill_ok hs hy1 hz1 ps
          refine ⟨_, f1, ?_⟩
          intro i j
          rw [f3 i j, he, List.nil_append]
          congr 1
          apply List.filter_congr
          intro p _
          have := V.index_range hy1 hz1 p.2
          rw [Bool.eq_iff_iff, decide_eq_true_eq, decide_eq_true_eq, Prod.ext_iff, Prod.ext_iff]
          simp only
          omega

example := (C190_exact 1 1 0 0 exBox true).2 (by
  obtain ⟨e0, e1, e2, e3⟩ := exBox_entries
  rw [e0, e1, e3]
  norm_num)

/-! ## C191 -/

/-- Cells of a wrong size file some number wrongly, unless there is only one. -/
theorem cells_right_iff {L size : ℚ} {n : ℤ} (hL : 0 < L) (hs : 0 < size) (hn : 1 ≤ n) :
    (∀ y, 0 ≤ y → y < L → max 0 (min (n - 1) ⌊y / size⌋) = ⌊y / (L / n)⌋) ↔ n = 1 ∨ size = L / n := by
  have hn' : (0 : ℚ) < n := by exact_mod_cast (by omega : 0 < n)
  have hc : 0 < L / n := div_pos hL hn'
  constructor
  · intro h
    by_contra hcon
    rw [not_or] at hcon
    obtain ⟨h1, h2⟩ := hcon
    have h2n : (2 : ℚ) ≤ n := by exact_mod_cast (by omega : 2 ≤ n)
    have hlt : L / n < L := by rw [div_lt_iff₀ hn']; nlinarith
    rcases lt_or_gt_of_ne h2 with h3 | h3
    · have := h size hs.le (h3.trans hlt)
      rw [div_self hs.ne', Int.floor_one] at this
      have h4 : ⌊size / (L / n)⌋ = 0 := by
        rw [Int.floor_eq_iff]
        push_cast
        exact ⟨div_nonneg hs.le hc.le, by rw [div_lt_iff₀ hc]; linarith⟩
      omega
    · have := h (L / n) hc.le hlt
      rw [div_self hc.ne', Int.floor_one] at this
      have h4 : ⌊L / n / size⌋ = 0 := by
        rw [Int.floor_eq_iff]
        push_cast
        exact ⟨div_nonneg hc.le hs.le, by rw [div_lt_iff₀ hs]; linarith⟩
      omega
  · rintro (rfl | rfl) y h0 h1
    · have h4 : ⌊y / (L / ((1 : ℤ) : ℚ))⌋ = 0 := by
        rw [Int.floor_eq_iff]
        push_cast
        rw [div_one]
        exact ⟨div_nonneg h0 hL.le, by rw [div_lt_iff₀ hL]; linarith⟩
      rw [h4]
      omega
    · exact clamp_floor hL hn h0 h1

/-- In terms of a number wrapped into the box there is one voxel for a location. -/
theorem wrap_unique {L y z : ℚ} {t : ℤ} (hL : 0 < L) (h0 : 0 ≤ y - t * L) (h1 : y - t * L < L)
    (hz : z = y - L * ⌊y * (1 / L)⌋) : t = ⌊y * (1 / L)⌋ ∧ y - t * L = z := by
  have e : t = ⌊y * (1 / L)⌋ := by
    symm
    rw [Int.floor_eq_iff, mul_one_div]
    constructor
    · rw [le_div_iff₀ hL]; linarith
    · rw [div_lt_iff₀ hL]; linarith
  refine ⟨e, ?_⟩
  rw [hz, ← e]
  ring

theorem cell_floor {L y : ℚ} {n : ℤ} {i : ℕ} (hL : 0 < L) (hn : 1 ≤ n) :
    (i * (L / n) ≤ y ∧ y < (i + 1) * (L / n)) ↔ ⌊y / (L / n)⌋ = (i : ℤ) := by
  have hn' : (0 : ℚ) < n := by exact_mod_cast (by omega : 0 < n)
  have hc : 0 < L / n := div_pos hL hn'
  rw [Int.floor_eq_iff, le_div_iff₀ hc, div_lt_iff₀ hc]
  push_cast
  rfl

theorem cell_in_box {L y : ℚ} {n : ℤ} {i : ℕ} (hL : 0 < L) (hi : (i : ℤ) < n)
    (h : i * (L / n) ≤ y ∧ y < (i + 1) * (L / n)) : 0 ≤ y ∧ y < L := by
  have hn' : (0 : ℚ) < n := by exact_mod_cast (by omega : 0 < n)
  have hc : 0 < L / n := div_pos hL hn'
  refine ⟨le_trans (by positivity) h.1, lt_of_lt_of_le h.2 ?_⟩
  have : (i : ℚ) + 1 ≤ n := by exact_mod_cast (by omega : (i : ℤ) + 1 ≤ n)
  calc ((i : ℚ) + 1) * (L / n) ≤ n * (L / n) := by gcongr
    _ = L := by field_simp

theorem inVoxel_iff {V : Voxels} (hp : V.periodic = true) (hy : 1 ≤ V.ny) (hz : 1 ≤ V.nz)
    (h1 : 0 < V.box 1 1) (h2 : 0 < V.box 2 2) (loc : Vec ℚ) {i j : ℕ} (hi : (i : ℤ) < V.ny) (hj : (j : ℤ) < V.nz) :
    InVoxel V.box V.ny V.nz loc i j ↔
      ⌊(V.wrapped loc).1 / (V.box 1 1 / V.ny)⌋ = (i : ℤ) ∧ ⌊(V.wrapped loc).2 / (V.box 2 2 / V.nz)⌋ = (j : ℤ) := by
  have w : V.wrapped loc =
      (loc 1 - V.box 2 1 * ⌊loc 2 * (1 / V.box 2 2)⌋ - V.box 1 1 *
        ⌊(loc 1 - V.box 2 1 * ⌊loc 2 * (1 / V.box 2 2)⌋) * (1 / V.box 1 1)⌋,
       loc 2 - V.box 2 2 * ⌊loc 2 * (1 / V.box 2 2)⌋) := by
    simp only [Voxels.wrapped, hp]
    simp
  constructor
  · rintro ⟨s, t, g1, g2, g3, g4⟩
    obtain ⟨b1, b2⟩ := cell_in_box h2 hj ⟨g3, g4⟩
    obtain ⟨es, e2⟩ := wrap_unique h2 b1 b2 rfl
    obtain ⟨b3, b4⟩ := cell_in_box h1 hi ⟨g1, g2⟩
    obtain ⟨et, e1⟩ := wrap_unique h1 b3 b4 rfl
    rw [w, ← cell_floor h1 hy, ← cell_floor h2 hz]
    simp only
    rw [← e2]
    have e3 : loc 1 - V.box 2 1 * ⌊loc 2 * (1 / V.box 2 2)⌋ = loc 1 - s * V.box 2 1 := by rw [← es]; ring
    rw [e3, ← e1]
    exact ⟨⟨g1, g2⟩, g3, g4⟩
  · rw [w, ← cell_floor h1 hy, ← cell_floor h2 hz]
    rintro ⟨⟨g1, g2⟩, g3, g4⟩
    refine ⟨⌊loc 2 * (1 / V.box 2 2)⌋, ⌊(loc 1 - V.box 2 1 * ⌊loc 2 * (1 / V.box 2 2)⌋) * (1 / V.box 1 1)⌋, ?_⟩
    simp only at g1 g2 g3 g4
    refine ⟨?_, ?_, ?_, ?_⟩ <;> linarith

/-- C191, exactly when it holds: every particle is in the bin of the voxel that contains an image of its location if
and only if the requested size along z divides the box, and the voxels are as wide along y as along z; sizes along
a direction with one voxel do not matter. -/
theorem C191_holds_iff (vsy vsz miny minz : ℚ) (box : Fin 3 → Vec ℚ) (h : VoxelSizes vsy vsz box) :
    ∃ V, Voxels.make vsy vsz miny minz box true = .ok V ∧
      ((∀ p, ∃ V', V.insert p = .ok V' ∧ ∃ i j : ℕ, (i : ℤ) < V.ny ∧ (j : ℤ) < V.nz ∧
          (p.2 0, p.1) ∈ V'.bin i j ∧ InVoxel box V.ny V.nz p.2 i j) ↔
        (V.ny = 1 ∨ box 2 2 / V.nz = box 1 1 / V.ny) ∧ (V.nz = 1 ∨ vsz = box 2 2 / V.nz)) := by
  obtain ⟨V, hV, hy1, hz1⟩ := voxels_exist h miny minz
  obtain ⟨hs, he⟩ := Voxels.make_shape hV
  obtain ⟨-, -, -, -, -, -, n1, n2, n3, n4, n5, n6, -⟩ := Voxels.make_ok hV
  obtain ⟨-, l1, l2, -, s2, -⟩ := h
  have nz0 : (0 : ℚ) < V.nz := by exact_mod_cast (by omega : 0 < V.nz)
  refine ⟨V, hV, ?_⟩
  rw [← cells_right_iff l1 (div_pos l2 nz0) hy1, ← cells_right_iff l2 s2 hz1]
  have key : ∀ p : ℤ × Vec ℚ,
      (∃ V', V.insert p = .ok V' ∧ ∃ i j : ℕ, (i : ℤ) < V.ny ∧ (j : ℤ) < V.nz ∧
          (p.2 0, p.1) ∈ V'.bin i j ∧ InVoxel box V.ny V.nz p.2 i j) ↔
      max 0 (min (V.ny - 1) ⌊(V.wrapped p.2).1 / (box 2 2 / V.nz)⌋) = ⌊(V.wrapped p.2).1 / (box 1 1 / V.ny)⌋ ∧
        max 0 (min (V.nz - 1) ⌊(V.wrapped p.2).2 / vsz⌋) = ⌊(V.wrapped p.2).2 / (box 2 2 / V.nz)⌋ := by
    intro p
    obtain ⟨bins, f1, f2, f3⟩ := Voxels.insert_ok hs hy1 hz1 p
    have hin := V.index_range hy1 hz1 p.2
    have hidx : V.index p.2 = (max 0 (min (V.ny - 1) ⌊(V.wrapped p.2).1 / (box 2 2 / V.nz)⌋),
        max 0 (min (V.nz - 1) ⌊(V.wrapped p.2).2 / vsz⌋)) := by
      simp only [Voxels.index, n3, n4]
    constructor
    · rintro ⟨V', e1, i, j, hi, hj, hm, hv⟩
      rw [f1] at e1
      obtain rfl := Except.ok.inj e1
      rw [f3, he, List.nil_append] at hm
      split at hm
      · rename_i hq
        rw [← n5] at hv
        rw [inVoxel_iff n6 hy1 hz1 (by rw [n5]; exact l1) (by rw [n5]; exact l2) p.2 hi hj, n5] at hv
        rw [hidx, Prod.mk.injEq] at hq
        rw [hq.1, hq.2, hv.1, hv.2]
        exact ⟨rfl, rfl⟩
      · simp at hm
    · rintro ⟨q1, q2⟩
      obtain ⟨i, hi⟩ := Int.eq_ofNat_of_zero_le hin.1.1
      obtain ⟨j, hj⟩ := Int.eq_ofNat_of_zero_le hin.2.1
      have hpair : V.index p.2 = ((i : ℤ), (j : ℤ)) := Prod.ext hi hj
      refine ⟨_, f1, i, j, by omega, by omega, ?_, ?_⟩
      · rw [f3, he, List.nil_append, if_pos hpair]
        exact List.mem_singleton.2 rfl
      · rw [← n5, inVoxel_iff n6 hy1 hz1 (by rw [n5]; exact l1) (by rw [n5]; exact l2) p.2 (by omega) (by omega), n5,
          ← q1, ← q2]
        rw [hidx, Prod.mk.injEq] at hpair
        exact hpair
  have wr : ∀ p : Vec ℚ, 0 ≤ (V.wrapped p).1 ∧ (V.wrapped p).1 < box 1 1 ∧ 0 ≤ (V.wrapped p).2 ∧
      (V.wrapped p).2 < box 2 2 := by
    intro p
    simp only [Voxels.wrapped, n6, n5]
    have wz := wrap_one (y := p 2) l2
    have wy := wrap_one (y := p 1 - box 2 1 * ⌊p 2 * (1 / box 2 2)⌋) l1
    exact ⟨wy.1, wy.2, wz.1, wz.2⟩
  have w0 : ∀ y z : ℚ, 0 ≤ y → y < box 1 1 → 0 ≤ z → z < box 2 2 → V.wrapped ![0, y, z] = (y, z) := by
    intro y z y0 y1 z0 z1
    have ez : ⌊z * (1 / box 2 2)⌋ = 0 := by
      rw [Int.floor_eq_iff, mul_one_div]
      push_cast
      exact ⟨div_nonneg z0 l2.le, by rw [div_lt_iff₀ l2]; linarith⟩
    have ey : ⌊y * (1 / box 1 1)⌋ = 0 := by
      rw [Int.floor_eq_iff, mul_one_div]
      push_cast
      exact ⟨div_nonneg y0 l1.le, by rw [div_lt_iff₀ l1]; linarith⟩
    have c1 : (![0, y, z] : Vec ℚ) 1 = y := rfl
    have c2 : (![0, y, z] : Vec ℚ) 2 = z := rfl
    simp only [Voxels.wrapped, n6, n5, c1, c2, ez]
    simp only [Int.cast_zero, mul_zero, sub_zero, ey]
    simp
  constructor
  · intro hall
    constructor
    · intro y y0 y1
      have := ((key (0, ![0, y, 0])).1 (hall _)).1
      rwa [w0 y 0 y0 y1 le_rfl l2] at this
    · intro z z0 z1
      have := ((key (0, ![0, 0, z])).1 (hall _)).2
      rwa [w0 0 z le_rfl l1 z0 z1] at this
  · rintro ⟨g1, g2⟩ p
    obtain ⟨a, b, c, d⟩ := wr p.2
    exact (key p).2 ⟨g1 _ a b, g2 _ c d⟩

example := C191_holds_iff 1 1 0 0 exBox exBox_sizes

end MaterSDK
