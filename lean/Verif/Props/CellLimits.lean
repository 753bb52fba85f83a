import Verif.Lemmas.CellLimits
import Verif.Lemmas.CellListAux
import Verif.Lemmas.TildeRAux
import Mathlib.Tactic.NormNum

/-! # C205: box, widths and plane distances of a C++ structure; pairs of a given width (C136) -/

namespace MaterSDK

open Classical Matrix

/-! ## C205 -/

/-- C205, the box: along every axis `get_limit_xyz` gives the smallest and the largest coordinate of the points of
the cell, and `get_projected_lengths` their difference. -/
theorem C205_box (s : CStruct) (h : s.atoms ≠ []) :
    ∃ lim w, s.limitXyz = .ok lim ∧ s.projectedLengths = some w ∧ ∀ p,
      IsLeast {c | ∃ x, CellPoint s x ∧ c = x p} (lim p).1 ∧
      IsGreatest {c | ∃ x, CellPoint s x ∧ c = x p} (lim p).2 ∧ w p = (lim p).2 - (lim p).1 := by
  have h0 : s.atoms.length ≠ 0 := fun e => h (List.length_eq_zero_iff.1 e)
  refine ⟨_, _, if_neg h0, if_neg h0, fun p => ⟨⟨?_, ?_⟩, ⟨?_, ?_⟩, ?_⟩⟩
  · obtain ⟨-, w, hw, e⟩ := minLimit_spec s p
    exact ⟨w, vertex_point hw, e⟩
  · rintro c ⟨x, ⟨u, hu, hx⟩, rfl⟩
    show s.minLimit p ≤ x p
    rw [hx, minLimit_eq]
    have : ∑ i, min 0 (s.basis i p) ≤ ∑ i, u i * s.basis i p := by
      refine Finset.sum_le_sum (fun i _ => ?_)
      rcases le_total 0 (s.basis i p) with h | h
      · rw [min_eq_left h]; nlinarith [hu i]
      · rw [min_eq_right h]; nlinarith [hu i]
    linarith
  · obtain ⟨-, w, hw, e⟩ := maxLimit_spec s p
    exact ⟨w, vertex_point hw, e⟩
  · rintro c ⟨x, ⟨u, hu, hx⟩, rfl⟩
    show x p ≤ s.maxLimit p
    rw [hx, maxLimit_eq]
    have : ∑ i, u i * s.basis i p ≤ ∑ i, max 0 (s.basis i p) := by
      refine Finset.sum_le_sum (fun i _ => ?_)
      rcases le_total 0 (s.basis i p) with h | h
      · rw [max_eq_right h]; nlinarith [hu i]
      · rw [max_eq_left h]; nlinarith [hu i]
    linarith
  · show s.projected p = s.maxLimit p - s.minLimit p
    rw [minLimit_eq, maxLimit_eq]
    unfold CStruct.projected
    simp only [Fin.sum_univ_three]
    have key : ∀ x : ℝ, |x| = max 0 x - min 0 x := by
      intro x
      rcases le_total 0 x with h | h
      · rw [abs_of_nonneg h, max_eq_right h, min_eq_left h, sub_zero]
      · rw [abs_of_nonpos h, max_eq_left h, min_eq_right h, zero_sub]
    rw [key, key, key]
    ring

/-- C205, the planes: for a proper cell `get_interplanar_distances` gives the least distance of a point on the plane
of two lattice vectors from a point of the plane one lattice vector further. -/
theorem C205_planes (s : CStruct) (h : s.atoms ≠ []) (hdet : (Matrix.of s.basis).det ≠ 0) :
    ∃ d, s.interplanarDistances = some d ∧ ∀ i, 0 < d i ∧
      IsLeast {r | ∃ x y, OnPlane s.basis i 0 x ∧ OnPlane s.basis i 1 y ∧ r = dist3 y x} (d i) := by
  have h0 : s.atoms.length ≠ 0 := fun e => h (List.length_eq_zero_iff.1 e)
  refine ⟨_, if_neg h0, fun i => ⟨interplanar_pos s hdet i, ⟨?_, ?_⟩⟩⟩
  · obtain ⟨c, hc, hd⟩ := plane_foot (Matrix.of s.basis) hdet i
    refine ⟨0, _, ⟨0, rfl, by simp⟩, ⟨c, hc, rfl⟩, ?_⟩
    rw [interplanar_eq, ← hd]
    rfl
  · rintro r ⟨x, y, ⟨c, hc, rfl⟩, ⟨c', hc', rfl⟩, rfl⟩
    show s.interplanar i ≤ _
    rw [interplanar_eq]
    have hb := (coeff_bound (Matrix.of s.basis) hdet (c' - c) i).2
    have e1 : |(c' - c) i| = 1 := by rw [Pi.sub_apply, hc, hc', sub_zero, abs_one]
    rw [e1, one_mul] at hb
    refine hb.trans (le_of_eq ?_)
    have e2 : (∑ k, (c' - c) k • Matrix.of s.basis k) = (∑ j, c' j • s.basis j) - ∑ j, c j • s.basis j := by
      rw [← Finset.sum_sub_distrib]
      exact Finset.sum_congr rfl (fun k _ => by rw [Pi.sub_apply, sub_smul]; rfl)
    rw [e2]
    unfold dist3
    congr 1
    exact Finset.sum_congr rfl (fun k _ => by simp)

/-- C205, supercells: with positive factors the plane distances are multiplied by them. -/
theorem C205_supercell (s : CStruct) (h : s.atoms ≠ []) (sc : Fin 3 → ℤ) (hsc : ∀ i, 0 < sc i) :
    ∃ d d', s.interplanarDistances = some d ∧ (s.makeSupercell sc).interplanarDistances = some d' ∧
      ∀ i, d' i = sc i * d i := by
  have h0 : s.atoms.length ≠ 0 := fun e => h (List.length_eq_zero_iff.1 e)
  have h1 : (s.makeSupercell sc).atoms.length ≠ 0 := by
    intro e
    have e' := List.length_eq_zero_iff.1 e
    unfold CStruct.makeSupercell at e'
    simp only [List.flatMap_eq_nil_iff, List.map_eq_nil_iff] at e'
    refine h (e' 0 ?_)
    rw [mem_cRange3]
    intro q
    obtain ⟨a, b, -⟩ := super_range (hsc q)
    exact ⟨a, b⟩
  refine ⟨_, _, if_neg h0, if_neg h1, fun i => ?_⟩
  rw [interplanar_eq, interplanar_eq]
  exact planeDist_scale s.basis (fun i => (sc i : ℝ)) (fun i => by exact_mod_cast hsc i) i

/-- C205: a structure without atoms has no widths and no plane distances; asking for its box follows pointers which
were never set. -/
theorem C205_no_atoms (s : CStruct) (h : s.atoms = []) :
    s.projectedLengths = none ∧ s.interplanarDistances = none ∧ s.limitXyz = .error .undefined := by
  have h0 : s.atoms.length = 0 := by rw [h]; rfl
  exact ⟨if_pos h0, if_pos h0, if_pos h0⟩

/-- A slanted cell with a negative component. -/
example : ∃ d, (CStruct.mk ![![2, 0, 0], ![-1, 2, 0], ![0, 0, 3]] ![0, 0, 0] [(8, ![0, 0, 0])]).limitXyz = .ok d ∧
    d 0 = (-1, 2) := by
  refine ⟨_, if_neg (by simp), ?_⟩
  show (_, _) = _
  rw [minLimit_eq, maxLimit_eq]
  simp [Fin.sum_univ_three]

/-! ## C82 -/

/-- C82: `find_info4mlff` reports no ghost atoms, and a type for each atom it reports, for any list. -/
theorem C82_no_ghosts (N : NbrLists) (umax : ℕ) (info : MlffInfo) (h : N.findInfo umax = .ok info) :
    info.nghost = 0 ∧ info.types.length = info.inum + info.nghost ∧ info.ilist.length = info.inum := by
  unfold NbrLists.findInfo at h
  simp only [bind_eq_ok] at h
  obtain ⟨types, ht, fn, -, rr, -, rel, -, h⟩ := h
  cases h
  refine ⟨rfl, ?_, by simp⟩
  have := (mapM_eq_ok.1 ht).length_eq
  rw [List.length_range] at this
  simpa using this.symm

/-! ## C136 -/

/-- C136 for one pair of elements: a `PairTildeR` made for a given number of slots returns the table of rows and the
table of derivatives if there are enough slots, and otherwise writes outside its array. -/
theorem C136_pair_given_slots (A : ArgSort) (L : Fin 3 → Vec ℝ) (atoms : List (ℤ × Vec ℝ)) (rcut rs : ℝ)
    (pbc : Fin 3 → Bool) (sort : Bool) (hok : CellOk L atoms pbc) (hr : 0 < rcut) (hrs : rs < rcut)
    (hap : ApartImages L (atoms.map Prod.snd)) (cz nz : ℤ) (w : ℕ) :
    ∃ N I P, NbrLists.make A (CStruct.make L atoms true) rcut pbc sort = .ok N ∧
      ListsImages L pbc atoms rcut sort I ∧ PairTilde.makeWith N cz nz w rs = .ok P ∧
      (HasSlots [cz] [(nz, w)] (crystalCentres L atoms I) →
        P.generate = .ok (tildeTable 0 (envAt rcut rs) [cz] [(nz, w)] (crystalCentres L atoms I)) ∧
        ∃ J : Vec ℝ → Vec ℝ → Matrix (Fin 4) (Fin 3) ℝ,
          (∀ q c, q ≠ c → HasFDerivAt (fun y => envAt rcut rs q y)
            ((Matrix.mulVecLin (J q c)).toContinuousLinearMap) c) ∧
          P.deriv = .ok (tildeTable 0 J [cz] [(nz, w)] (crystalCentres L atoms I))) ∧
      (¬ HasSlots [cz] [(nz, w)] (crystalCentres L atoms I) →
        P.generate = .error .outOfBounds ∧ P.deriv = .error .outOfBounds) := by
  obtain ⟨N, h1, h2, I, h3, h4, h5, _, _⟩ := nbr_reads A L atoms rcut pbc sort hok hr hap
  have hP : PairTilde.makeWith N cz nz w rs = .ok ⟨N, cz, nz,
      (crystalCentres L atoms I).countP (fun s => decide (s.z = cz)), (w : ℤ), rs⟩ := by
    unfold PairTilde.makeWith
    rw [h5, ok_bind, crystalCentres_count L atoms I h3.1]
    rfl
  have hslots : HasSlots [cz] [(nz, w)] (crystalCentres L atoms I) ↔ ∀ s ∈ crystalCentres L atoms I, s.z = cz →
      s.nbrs.countP (fun q => decide (q.1 = nz)) ≤ w := by
    unfold HasSlots
    simp
  refine ⟨N, I, _, h1, h3, hP, ?_, ?_⟩
  · intro hroom
    rw [hslots] at hroom
    refine ⟨?_, _, fun q c hqc => hasFDerivAt_centre hrs q c hqc, ?_⟩
    · rw [PairTilde.generate_eq]
      refine (pairMember_ok N _ h4 _ 0 true cz nz w hroom).trans ?_
      simp [pairRows, tildeTable, h2, cEnvRow_envAt]
    · rw [PairTilde.deriv_eq]
      refine (pairMember_ok N _ h4 _ 0 false cz nz w hroom).trans ?_
      simp [pairRows, tildeTable, h2]
  · intro hroom
    rw [hslots] at hroom
    rw [PairTilde.generate_eq, PairTilde.deriv_eq]
    push Not at hroom
    exact ⟨pairMember_oob N _ h4 _ 0 true cz nz w hroom, pairMember_oob N _ h4 _ 0 false cz nz w hroom⟩

example (A : ArgSort) := C136_pair_given_slots A exL exAtoms 3 1 ![true, true, false] false
  (exL_ok _ (Or.inr rfl)) (by norm_num) (by norm_num) exL_apart 8 3 4

end MaterSDK
