import Verif.Lemmas.Crystal
import Verif.Props.Neigh
import Verif.Props.NeighIndex
import Verif.Props.DeepMD
import Verif.Props.DeepMDNorm
import Verif.Props.Averages
import Verif.Props.Infer
import Verif.Props.Batch
import Verif.Props.NormStats
import Verif.Props.Cross
import Verif.Props.Displacement

/-!
Examples for the theorems about a structure and its supercell that have many hypotheses. All of them are
applied to one cell, `exCross`: lithium at the origin and oxygen at `(2, 1, 1)` in the skewed box `exL`,
repeated three times in each direction. Every hypothesis is discharged, so none of these theorems holds
only because its hypotheses exclude each other.
-/

namespace MaterSDK

theorem exCross_det : exCross.lattice.det ≠ 0 := by
  show (Matrix.of exL).det ≠ 0
  simp [Matrix.det_fin_three, exL]

theorem exCross_ne : exCross.sites ≠ [] := by simp [exCross]

theorem three_odd : ∀ i, (![3, 3, 3] : Fin 3 → ℤ) i = 2 * (((![1, 1, 1] : Fin 3 → ℕ) i : ℕ) : ℤ) + 1 := by decide

theorem exSuper_ex : ∃ S, exCross.makeSupercell ![3, 3, 3] true = .ok S :=
  ⟨_, makeSupercell_odd exCross ![1, 1, 1] three_odd true⟩

/-- The `3 × 3 × 3` supercell of `exCross`. -/
noncomputable def exSuper : Struct ℝ := Classical.choose exSuper_ex

theorem exSuper_eq : exCross.makeSupercell ![3, 3, 3] true = .ok exSuper := Classical.choose_spec exSuper_ex

theorem exSuper_nodup : (exSuper.sites.map Site.pos).Nodup :=
  supercell_nodup exCross exSuper exCross_det exCross_separated ![3, 3, 3] ![1, 1, 1] three_odd exSuper_eq

theorem exTable_ex (A : ArgSort) (r : ℝ) : ∃ table, neighborTable A exCross r ![3, 3, 3] = .ok table := by
  obtain ⟨_, table, _, _, h, _⟩ := C17_table_exact A exCross r ![3, 3, 3] ![1, 1, 1] three_odd
  exact ⟨table, h⟩

theorem exSuper_width (p : Vec ℝ) (r : ℝ) (nz : ℕ) : (nbrsOf exSuper p r nz).length ≤ exSuper.sites.length :=
  List.length_filter_le _ _

theorem exCross_frac : ∀ t ∈ exCross.sites, ∃ f : Vec ℝ, (∀ i, 0 ≤ f i ∧ f i < 1) ∧
    t.pos = ∑ i, f i • exCross.lattice i := by
  intro t ht
  simp only [exCross, List.mem_cons, List.not_mem_nil, or_false] at ht
  rcases ht with rfl | rfl
  · refine ⟨![0, 0, 0], by intro i; fin_cases i <;> simp, ?_⟩
    funext p
    fin_cases p <;> simp [exCross, exL, Fin.sum_univ_three]
  · refine ⟨![9 / 20, 1 / 5, 1 / 6], by intro i; fin_cases i <;> norm_num, ?_⟩
    funext p
    fin_cases p <;> simp [exCross, exL, Fin.sum_univ_three]; norm_num

example (A : ArgSort) := C18_first_entry_is_centre A exCross (5 / 2) (by norm_num) ![3, 3, 3] ![1, 1, 1] three_odd
  exSuper _ exSuper_eq (Classical.choose_spec (exTable_ex A (5 / 2))) exSuper_nodup

/-- The lithium in the next box along the first edge is at distance `√6` of the oxygen. -/
example := C19_supercell_complete exCross exSuper exCross_det ![3, 3, 3] ![1, 1, 1] three_odd exSuper_eq (5 / 2)
  (by intro i; fin_cases i <;> exact exCross_big _) exCross_frac ⟨8, ![2, 1, 1], none⟩ ⟨3, ![0, 0, 0], none⟩
  (by simp [exCross]) (by simp [exCross]) ![1, 0, 0] (by
    simp only [dist3, Fin.sum_univ_three]
    rw [Real.sqrt_le_left (by norm_num)]
    simp [exCross, exL]
    norm_num)

example := C20_max_exact exCross exSuper (5 / 2) (by norm_num) ![3, 3, 3] ![1, 1, 1] three_odd exSuper_eq exCross_ne
  exSuper_nodup

theorem exSuper_generic : ∀ c ∈ exCross.sites, ∀ t ∈ exSuper.sites, dist3 t.pos c.pos ≠ 5 / 2 := by
  intro c hc t ht
  obtain ⟨u, hu, n, _, rfl⟩ := (superSites_mem exCross exSuper _ _ three_odd exSuper_eq t).1 ht
  exact exCross_none c hc u hu n

theorem exMax_ex : ∃ M : ℤ, maxNumNbrsReal exCross (5 / 2) ![3, 3, 3] = .ok M := by
  obtain ⟨M, hM, _⟩ := C20_max_exact exCross exSuper (5 / 2) (by norm_num) ![3, 3, 3] ![1, 1, 1] three_odd exSuper_eq
    exCross_ne exSuper_nodup
  exact ⟨M, hM⟩

example (A : ArgSort) := C20_bounds_table_partial A exCross exSuper (5 / 2) ![3, 3, 3] ![1, 1, 1] three_odd exSuper_eq
  _ (Classical.choose_spec (exTable_ex A (5 / 2))) _ (Classical.choose_spec exMax_ex) exSuper_generic

example := C21_element_maxima exCross exSuper (5 / 2) (by norm_num) [3, 8] ![3, 3, 3] ![1, 1, 1] three_odd exSuper_eq
  exCross_ne exSuper_nodup

example (A : ArgSort) := C23_structure A exCross exSuper exCross_det exCross_separated exCross_ne (5 / 2)
  (by norm_num) ![3, 3, 3] ![1, 1, 1] three_odd exSuper_eq 3 8 (by decide)

example (A : ArgSort) := C26_structure A exCross exSuper exCross_det exCross_separated exCross_ne (5 / 2) 1
  (by norm_num) (by norm_num) ![3, 3, 3] ![1, 1, 1] three_odd exSuper_eq 3 8 (by decide) _
  (fun c _ _ => exSuper_width c.pos _ _)

example (A : ArgSort) := C27_structure A exCross exSuper exCross_det exCross_separated exCross_ne (5 / 2) 1
  (by norm_num) (by norm_num) ![3, 3, 3] ![1, 1, 1] three_odd exSuper_eq 3 8 (by decide) _
  (fun c _ _ => exSuper_width c.pos _ _)

example (A : ArgSort) := C54_mean A exCross exSuper exCross_det exCross_separated exCross_ne (5 / 2)
  (by norm_num) ![3, 3, 3] ![1, 1, 1] three_odd exSuper_eq 3 8 (by decide)

example (A : ArgSort) := C54_between A exCross exSuper exCross_det exCross_separated exCross_ne (5 / 2)
  (by norm_num) ![3, 3, 3] ![1, 1, 1] three_odd exSuper_eq 3 8 (by decide) _
  (Classical.choose_spec (exTable_ex A (5 / 2)))

example (A : ArgSort) := C55_distinct_partial A exCross exSuper exCross_det exCross_separated exCross_ne (9 / 2)
  (by norm_num) ![3, 3, 3] ![1, 1, 1] three_odd exSuper_eq 3 3 8 (by decide) (by decide) (by decide)

example (A : ArgSort) := C55_same_element A exCross exSuper exCross_det exCross_separated exCross_ne (9 / 2)
  (by norm_num) ![3, 3, 3] ![1, 1, 1] three_odd exSuper_eq 3 8 (by decide)

example (A : ArgSort) := C78_rows_partial A exCross exSuper exCross_det exCross_separated exCross_ne (9 / 2)
  (by norm_num) ![3, 3, 3] ![1, 1, 1] three_odd exSuper_eq 3 8 8 (by decide) (by decide) 90 10
  (Or.inr (by norm_num))

example (A : ArgSort) := C78_once_partial A exCross exSuper exCross_det exCross_separated exCross_ne (9 / 2)
  (by norm_num) ![3, 3, 3] ![1, 1, 1] three_odd exSuper_eq 3 8 8 (by decide) (by decide) 90 10
  (Or.inr (by norm_num))

/-- The oxygen at distance `√6` of the lithium, with `√6` as the cutoff. -/
example (A : ArgSort) := C25_atom_at_cutoff A exCross exSuper exCross_det exCross_separated (Real.sqrt 6) 1
  (Real.sqrt_pos.2 (by norm_num)) (by rw [Real.lt_sqrt] <;> norm_num) ![3, 3, 3] ![1, 1, 1] three_odd exSuper_eq
  ⟨3, ![0, 0, 0], none⟩ ⟨8, ![2, 1, 1], none⟩ (by simp [exCross])
  ((superSites_mem exCross exSuper _ _ three_odd exSuper_eq _).2
    ⟨⟨8, ![2, 1, 1], none⟩, by simp [exCross], 0, by simp, by simp⟩) (by decide) (by
    simp only [dist3, Fin.sum_univ_three]
    simp
    norm_num)

/-- A quarter turn about the third axis, and a shift. -/
example (A : ArgSort) := C28_rigid_motion A exCross !![0, -1, 0; 1, 0, 0; 0, 0, 1]
  (by ext i j; fin_cases i <;> fin_cases j <;> simp [Matrix.mul_apply, Fin.sum_univ_three]) ![1, 2, 3] (5 / 2)
  ![3, 3, 3] _ (Classical.choose_spec (exTable_ex A (5 / 2)))

theorem exCross_nodup : ∀ s ∈ [exCross, exCross], ∀ S, s.makeSupercell ![3, 3, 3] true = .ok S →
    (S.sites.map Site.pos).Nodup := by
  intro s hs S hS
  have e : s = exCross := by simpa using hs
  subst e
  exact supercell_nodup exCross S exCross_det exCross_separated ![3, 3, 3] ![1, 1, 1] three_odd hS

example := C126_collection_max_partial 3 (by decide) [exCross, exCross] (by simp) (5 / 2) (by norm_num) ![3, 3, 3]
  ![1, 1, 1] three_odd (by simp [exCross_ne]) exCross_nodup

example := C127_collection_max_element_partial 3 (by decide) [exCross, exCross] (by simp) (5 / 2) [3, 8] ![3, 3, 3]
  ![1, 1, 1] three_odd (by simp [exCross_ne]) exCross_nodup

example (A : ArgSort) := C119_rows_partial A exCross exSuper exCross_det exCross_separated exCross_ne (5 / 2) 1
  (by norm_num) (by norm_num) ![3, 3, 3] ![1, 1, 1] three_odd exSuper_eq [3, 8]
  [exSuper.sites.length + 1, exSuper.sites.length + 1] [0, 0] [1, 1] (by simp [exCross]) (by decide)
  (by simp [exCross]) (by decide) rfl (by simp) rfl rfl (by
    intro k nz w _ hw c _ _
    have e : w = exSuper.sites.length + 1 := by
      rcases k with _ | _ | k <;> simp at hw <;> exact hw.symm
    rw [e]
    exact (exSuper_width c.pos _ _).trans (Nat.le_succ _))

example := C57_counts exCross exCross_det exCross_ne (5 / 2) ![3, 3, 3] ![1, 1, 1] three_odd

/-- Li centres, Li and Si neighbours, one slot for each element. -/
example := C31_covers_partial liSiNormalizer twoLiTable (fun _ => 1)
  (by
    intro k nz hk
    rcases k with _ | _ | k <;> simp [liSiNormalizer] at hk ⊢)
  rfl rfl (by simp [liSiNormalizer]) (by simp [liSiNormalizer]) (by simp [liSiNormalizer])
  (by simp [liSiNormalizer]) (by simp [liSiNormalizer]; norm_num) (by simp [twoLiTable]) (by simp [twoLiTable])
  (by
    intro c l nz hl hc hn
    simp only [liSiNormalizer, List.mem_cons, List.not_mem_nil, or_false] at hn
    rcases hn with rfl | rfl
    · exact twoLi_wide c l 0 3 1 hl hc rfl rfl
    · exact twoLi_wide c l 1 14 1 hl hc rfl rfl)

/-! ### A cell without an atom at a lattice point -/

/-- `exCross` moved by `(1, 1, 1)`. -/
noncomputable def exShift : Struct ℝ := ⟨exL, [⟨3, ![1, 1, 1], none⟩, ⟨8, ![3, 2, 2], none⟩]⟩

theorem exShift_det : exShift.lattice.det ≠ 0 := exCross_det

theorem exShift_ne : exShift.sites ≠ [] := by simp [exShift]

theorem exL_near (p q : Vec ℝ) (x : ℤ) (hx : q 1 - p 1 = x) (hx' : x % 5 ≠ 0) : ¬ NearImage exL p q := by
  rintro ⟨n, e, he, hp⟩
  have h1 := congrFun hp 1
  have he1 := abs_le.1 (he 1)
  simp [exL, Fin.sum_univ_three] at h1
  have hd : (5 : ℝ) * (n 1 + e 1) = ((-x : ℤ) : ℝ) := by push_cast; linarith
  have key : ∀ y : ℤ, (5 : ℝ) * (n 1 + e 1) = y → y % 5 ≠ 0 → False := by
    intro y hy h
    have b1 : (y : ℝ) - 5 * n 1 < (1 : ℤ) := by push_cast; linarith
    have b2 : ((-1 : ℤ) : ℝ) < (y : ℝ) - 5 * n 1 := by push_cast; linarith
    have c1 : y - 5 * n 1 < 1 := by exact_mod_cast b1
    have c2 : -1 < y - 5 * n 1 := by exact_mod_cast b2
    omega
  exact key (-x) hd (by omega)

theorem exShift_separated : Separated exShift := by
  intro i j t u hij ht hu
  simp only [exShift] at ht hu
  rcases i with _ | _ | i <;> rcases j with _ | _ | j <;> simp at ht hu hij
  · subst ht; subst hu
    exact exL_near _ _ 1 (by norm_num) (by decide)
  · subst ht; subst hu
    exact exL_near _ _ (-1) (by norm_num) (by decide)

theorem exShift_off : ∀ t ∈ exShift.sites, ¬ NearImage exShift.lattice 0 t.pos := by
  intro t ht
  simp only [exShift, List.mem_cons, List.not_mem_nil, or_false] at ht
  rcases ht with rfl | rfl
  · exact exL_near _ _ 1 (by norm_num) (by decide)
  · exact exL_near _ _ 2 (by norm_num) (by decide)

theorem exShiftSuper_ex : ∃ S, exShift.makeSupercell ![3, 3, 3] true = .ok S :=
  ⟨_, makeSupercell_odd exShift ![1, 1, 1] three_odd true⟩

/-- The `3 × 3 × 3` supercell of `exShift`. -/
noncomputable def exShiftSuper : Struct ℝ := Classical.choose exShiftSuper_ex

theorem exShiftSuper_eq : exShift.makeSupercell ![3, 3, 3] true = .ok exShiftSuper :=
  Classical.choose_spec exShiftSuper_ex

example (A : ArgSort) := C22_indices_partial A exShift exShiftSuper exShift_det exShift_separated exShift_ne
  exShift_off (5 / 2) (by norm_num) ![3, 3, 3] ![1, 1, 1] three_odd exShiftSuper_eq 3 8 (by decide)
  ⟨⟨3, ![1, 1, 1], none⟩, by simp [exShift], rfl⟩ 2

example (A : ArgSort) := C118_subset_partial A exShift exShiftSuper exShift_det exShift_separated exShift_ne
  exShift_off (5 / 2) 1 (by norm_num) (by norm_num) ![3, 3, 3] ![1, 1, 1] three_odd exShiftSuper_eq [3] [3, 8]
  [exShiftSuper.sites.length + 1, exShiftSuper.sites.length + 1] [0] [1] (by simp) (by simp) (by simp) (by simp)
  (by simp) rfl (by simp) rfl rfl (by
    intro k nz w _ hw c _ _
    have e : w = exShiftSuper.sites.length + 1 := by
      rcases k with _ | _ | k <;> simp at hw <;> exact hw.symm
    rw [e]
    exact (List.length_filter_le _ _).trans (Nat.le_succ _))

end MaterSDK
