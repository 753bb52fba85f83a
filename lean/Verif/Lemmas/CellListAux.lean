import Verif.Lemmas.CellListMore
import Mathlib.Tactic.FinCases
import Mathlib.Tactic.NormNum

/-! # Helper lemmas for `Props/CellList.lean` -/



namespace MaterSDK
open Classical Matrix

/-- A monoclinic cell with two atoms. -/
noncomputable def exL : Fin 3 → Vec ℝ := ![![4, 0, 0], ![1, 5, 0], ![0, 0, 6]]

/-- Its atoms. -/
noncomputable def exAtoms : List (ℤ × Vec ℝ) := [(3, ![0, 0, 0]), (8, ![2, 1, 1])]

theorem exL_ok (pbc : Fin 3 → Bool) (h : pbc = (fun _ => true) ∨ pbc = ![true, true, false]) :
    CellOk exL exAtoms pbc := by
  refine ⟨?_, by simp [exAtoms], ?_, ?_, ?_⟩
  · simp [Matrix.det_fin_three, exL]
  · intro a ha
    simp only [exAtoms, List.mem_cons, List.not_mem_nil, or_false] at ha
    rcases ha with rfl | rfl
    · refine ⟨![0, 0, 0], by intro i; fin_cases i <;> norm_num, ?_⟩
      funext p
      fin_cases p <;> simp [cartOf, Fin.sum_univ_three, exL]
    · refine ⟨![9 / 20, 1 / 5, 1 / 6], by intro i; fin_cases i <;> norm_num, ?_⟩
      funext p
      fin_cases p <;> simp [cartOf, Fin.sum_univ_three, exL] <;> norm_num
  · intro p
    fin_cases p
    · exact ⟨0, by simp [exL]⟩
    · exact ⟨1, by simp [exL]⟩
    · exact ⟨2, by simp [exL]⟩
  · intro p q hp hq
    rcases h with rfl | rfl
    · cases hq
    · fin_cases p <;> fin_cases q <;> simp_all [exL]

theorem sq_ge_of_int {a b c : ℝ} (z : Fin 3 → ℤ) (ha : a = z 0) (hb : b = z 1) (hc : c = z 2)
    (h : ¬ (z 0 = 0 ∧ z 1 = 0 ∧ z 2 = 0)) : 1 ≤ a ^ 2 + b ^ 2 + c ^ 2 := by
  have h1 : (1 : ℤ) ≤ z 0 ^ 2 + z 1 ^ 2 + z 2 ^ 2 := by
    have k0 := sq_nonneg (z 0)
    have k1 := sq_nonneg (z 1)
    have k2 := sq_nonneg (z 2)
    by_contra hlt
    push Not at hlt
    apply h
    refine ⟨pow_eq_zero_iff (two_ne_zero) |>.1 ?_, pow_eq_zero_iff (two_ne_zero) |>.1 ?_,
      pow_eq_zero_iff (two_ne_zero) |>.1 ?_⟩ <;> omega
  have h2 : ((1 : ℤ) : ℝ) ≤ ((z 0 ^ 2 + z 1 ^ 2 + z 2 ^ 2 : ℤ) : ℝ) := Int.cast_le.2 h1
  rw [ha, hb, hc]
  push_cast at h2
  linarith

theorem sq_gt_of_int {a b c : ℝ} (z : Fin 3 → ℤ) (ha : a = z 0) (hb : b = z 1) (hc : c = z 2)
    (h : ¬ (z 0 = 0 ∧ z 1 = 0 ∧ z 2 = 0)) : 1 / 1000 < a ^ 2 + b ^ 2 + c ^ 2 := by
  have := sq_ge_of_int z ha hb hc h
  linarith

theorem dist3_sq_comp (x y : Vec ℝ) :
    dist3 x y ^ 2 = (x 0 - y 0) ^ 2 + (x 1 - y 1) ^ 2 + (x 2 - y 2) ^ 2 := by
  unfold dist3
  rw [Real.sq_sqrt (by positivity), Fin.sum_univ_three]

/-- The images of the example are at least 1 apart. -/
theorem exL_far : ∀ (i j : ℕ) (p q : Vec ℝ) (t : Fin 3 → ℤ), (exAtoms.map Prod.snd)[i]? = some p →
    (exAtoms.map Prod.snd)[j]? = some q → (j, t) ≠ (i, 0) → 1 ≤ dist3 (imagePos exL q t) p ^ 2 := by
  have e : exAtoms.map Prod.snd = [![0, 0, 0], ![2, 1, 1]] := rfl
  rw [e]
  intro i j p q t hi hj hne
  have key : ∀ (p q : Vec ℝ) (a b : Fin 3 → ℤ), (∀ k, p k = a k) → (∀ k, q k = b k) →
      ¬ (b 0 + 4 * t 0 + t 1 - a 0 = 0 ∧ b 1 + 5 * t 1 - a 1 = 0 ∧ b 2 + 6 * t 2 - a 2 = 0) →
      1 ≤ dist3 (imagePos exL q t) p ^ 2 := by
    intro p q a b hp hq hz
    rw [dist3_sq_comp, imagePos_apply, imagePos_apply, imagePos_apply]
    apply sq_ge_of_int ![b 0 + 4 * t 0 + t 1 - a 0, b 1 + 5 * t 1 - a 1, b 2 + 6 * t 2 - a 2]
    · simp [exL, hp, hq]
    · simp [exL, hp, hq]
    · simp [exL, hp, hq]
    · simpa using hz
  have hzero : ∀ {z : Fin 3 → ℤ}, z 0 = 0 → z 1 = 0 → z 2 = 0 → z = 0 := by
    intro z h0 h1 h2
    funext k
    fin_cases k
    · exact h0
    · exact h1
    · exact h2
  match i, j, hi, hj with
  | 0, 0, hi, hj =>
    cases hi; cases hj
    refine key _ _ ![0, 0, 0] ![0, 0, 0] (by intro k; fin_cases k <;> simp)
      (by intro k; fin_cases k <;> simp) ?_
    simp
    intro h0 h1 h2
    have ht : t = 0 := hzero (by omega) (by omega) (by omega)
    exact hne (by rw [ht])
  | 0, 1, hi, hj =>
    cases hi; cases hj
    refine key _ _ ![0, 0, 0] ![2, 1, 1] (by intro k; fin_cases k <;> simp)
      (by intro k; fin_cases k <;> simp) ?_
    simp
    omega
  | 1, 0, hi, hj =>
    cases hi; cases hj
    refine key _ _ ![2, 1, 1] ![0, 0, 0] (by intro k; fin_cases k <;> simp)
      (by intro k; fin_cases k <;> simp) ?_
    simp
    omega
  | 1, 1, hi, hj =>
    cases hi; cases hj
    refine key _ _ ![2, 1, 1] ![2, 1, 1] (by intro k; fin_cases k <;> simp)
      (by intro k; fin_cases k <;> simp) ?_
    simp
    intro h0 h1 h2
    have ht : t = 0 := hzero (by omega) (by omega) (by omega)
    exact hne (by rw [ht])
  | 0, j + 2, _, hj => simp at hj
  | 1, j + 2, _, hj => simp at hj
  | i + 2, _, hi, _ => simp at hi

theorem exL_apart : ApartImages exL (exAtoms.map Prod.snd) := by
  intro i j p q t hi hj hne
  have := exL_far i j p q t hi hj hne
  linarith

/-- The images behind the indices in the lists of a neighbour list. -/
noncomputable def listedImages (s : CStruct) (rcut : ℝ) (pbc : Fin 3 → Bool) (lists : List (List ℤ)) :
    List (List (ℕ × (Fin 3 → ℤ))) :=
  lists.map (fun l => l.map (fun k => imageAt s (oddScale s rcut pbc) k.toNat))

/-- The lists and tables for a good cell, with the images given by the lists. -/
theorem nbr_exact_lists (A : ArgSort) (L : Fin 3 → Vec ℝ) (atoms : List (ℤ × Vec ℝ)) (rcut : ℝ)
    (pbc : Fin 3 → Bool) (sort : Bool) (hok : CellOk L atoms pbc) (hr : 0 < rcut) :
    ∃ N, NbrLists.make A (CStruct.make L atoms true) rcut pbc sort = .ok N ∧
      N.lists.length = atoms.length ∧
      N.bins.supercell = CSupercell.make (CStruct.make L atoms true)
        (oddScale (CStruct.make L atoms true) rcut pbc) ∧
      ∃ I : List (List (ℕ × (Fin 3 → ℤ))), I = listedImages (CStruct.make L atoms true) rcut pbc N.lists ∧
        N.lists.map List.length = I.map List.length ∧
        (∀ (i : ℕ) (c : ℤ × Vec ℝ), atoms[i]? = some c → ∃ imgs, I[i]? = some imgs ∧ imgs.Nodup ∧
          (∀ e, e ∈ imgs ↔ NearBy L pbc (atoms.map Prod.snd) rcut c.2 e ∧
            ∀ p, (atoms.map Prod.snd)[e.1]? = some p → 1 / 1000 < dist3 (imagePos L p e.2) c.2 ^ 2) ∧
          (sort = true → imgs.Pairwise (fun e e' => ∀ p p', (atoms.map Prod.snd)[e.1]? = some p →
            (atoms.map Prod.snd)[e'.1]? = some p' →
            dist3 (imagePos L p e.2) c.2 ≤ dist3 (imagePos L p' e'.2) c.2))) ∧
        (∀ cz nz, N.maxNumOf cz nz = .ok (runningMax (I.zipIdx.map (fun e =>
          if (atoms[e.2]?).map Prod.fst = some cz then
            e.1.countP (fun x => decide ((atoms[x.1]?).map Prod.fst = some nz)) else 0)))) ∧
        ∀ umax : ℕ, (∀ imgs ∈ I, imgs.length ≤ umax) → ∃ info, N.findInfo umax = .ok info ∧
          info.inum = atoms.length ∧ info.ilist = (List.range atoms.length).map (fun i : ℕ => (i : ℤ)) ∧
          info.types = atoms.map Prod.fst ∧ info.nghost = 0 ∧ info.numneigh = I.map List.length ∧
          ∀ (i : ℕ) (c : ℤ × Vec ℝ) (imgs : List (ℕ × (Fin 3 → ℤ))), atoms[i]? = some c →
            I[i]? = some imgs →
            flatRow info.firstneigh umax i =
              imgs.map (fun e => (e.1 : ℤ)) ++ List.replicate (umax - imgs.length) (-1) ∧
            flatRow info.rel (umax * 3) i =
              imgs.flatMap (relCoords L (atoms.map Prod.snd) c.2) ++
                List.replicate ((umax - imgs.length) * 3) 0 := by
  set s := CStruct.make L atoms true with hs
  have hsb : s.basis = L := rfl
  have hsa : s.atoms = atoms := rfl
  obtain ⟨N, h1, h2, h3, K, h4, h5, h6⟩ := lists_core A s rcut (fun _ => rcut / 2) pbc sort
    hok.nonsing hok.nonempty hok.inCell hok.dir hr (fun _ => by linarith)
    (default_bins s rcut pbc hok.nonsing hr hok.perp)
  have hin : ∀ ks ∈ K, ∀ k ∈ ks, k < (s.makeSupercell (oddScale s rcut pbc)).atoms.length := by
    intro ks hks k hk
    obtain ⟨i, hi⟩ := List.mem_iff_getElem?.1 hks
    have hlt : i < s.atoms.length := by
      rw [← h5]; exact (List.getElem?_eq_some_iff.1 hi).1
    obtain ⟨ks', g1, _, g3, _⟩ := h6 i _ (List.getElem?_eq_getElem hlt)
    rw [hi] at g1
    cases g1
    obtain ⟨a, ha, _⟩ := (g3 k).1 hk
    exact (List.getElem?_eq_some_iff.1 ha).1
  have hat : N.bins.supercell.struct.atoms = (s.makeSupercell (oddScale s rcut pbc)).atoms := by
    rw [h3]; rfl
  refine ⟨N, h1, by rw [h4, List.length_map, h5, hsa], h3,
    K.map (fun ks => ks.map (imageAt s (oddScale s rcut pbc))), ?_, ?_, ?_, ?_, ?_⟩
  · rw [h4]
    simp [listedImages, Function.comp_def]
  · rw [h4, List.map_map, List.map_map]
    apply List.map_congr_left
    intro ks _
    simp
  · intro i c hc
    obtain ⟨ks, g1, g2, g3, g4⟩ := h6 i c hc
    obtain ⟨k1, k2⟩ := images_spec s rcut pbc hok.nonsing hr hok.inCell c.2
      (hok.inCell c (List.mem_of_getElem? hc)) ks g2 g3
    refine ⟨_, by rw [List.getElem?_map, g1]; rfl, k1, ?_, ?_⟩
    · intro e
      rw [k2]
      unfold NearBy
      constructor
      · rintro ⟨q1, a, q2, q3, q4⟩
        have : (atoms.map Prod.snd)[e.1]? = some a.2 := by
          rw [List.getElem?_map, ← hsa, q2]; rfl
        refine ⟨⟨q1, a.2, this, q3⟩, ?_⟩
        intro p hp
        rw [this] at hp
        cases hp
        exact q4
      · rintro ⟨⟨q1, p, q2, q3⟩, q4⟩
        have q5 := q4 p q2
        rw [List.getElem?_map] at q2
        obtain ⟨a, ha, rfl⟩ := Option.map_eq_some_iff.1 q2
        exact ⟨q1, a, ha, q3, q5⟩
    · intro hsort
      have := g4 hsort
      rw [List.pairwise_map] at this
      rw [List.pairwise_map]
      refine List.Pairwise.imp_of_mem ?_ this
      intro k k' hk hk' hle p p' hp hp'
      have hmem := List.mem_of_getElem? g1
      obtain ⟨a, q1, q2, _⟩ := imageAt_get s _ (List.getElem?_eq_getElem (hin ks hmem k hk))
      obtain ⟨a', q1', q2', _⟩ := imageAt_get s _ (List.getElem?_eq_getElem (hin ks hmem k' hk'))
      unfold atomDist at hle
      rw [List.getElem?_eq_getElem (hin ks hmem k hk), List.getElem?_eq_getElem (hin ks hmem k' hk'), q2,
        q2'] at hle
      rw [List.getElem?_map, ← hsa, q1] at hp
      rw [List.getElem?_map, ← hsa, q1'] at hp'
      cases hp
      cases hp'
      exact hle
  · intro cz nz
    unfold NbrLists.maxNumOf
    rw [h4, zipIdx_map_eq, zipIdx_map_eq, List.map_map, List.mapM_map]
    rw [mapM_map_ok (g := fun e : List ℕ × ℕ => if (atoms[e.2]?).map Prod.fst = some cz then
      (e.1.map (imageAt s (oddScale s rcut pbc))).countP
        (fun x => decide ((atoms[x.1]?).map Prod.fst = some nz)) else 0)]
    · rfl
    · rintro ⟨ks, i⟩ hmem
      have hget := List.mk_mem_zipIdx_iff_getElem?.1 hmem
      have hlt : i < s.atoms.length := by
        rw [← h5]; exact (List.getElem?_eq_some_iff.1 hget).1
      have hg := List.getElem?_eq_getElem hlt
      have hz : ∃ t, (superShifts (oddScale s rcut pbc))[0]? = some t := by
        have := superShifts_zero_odd (halfWidth s rcut pbc)
        have e : (fun i => 2 * (halfWidth s rcut pbc i : ℤ) + 1) = oddScale s rcut pbc := rfl
        rw [e] at this
        have hl := (List.getElem?_eq_some_iff.1 this).1
        exact ⟨_, List.getElem?_eq_getElem (by omega)⟩
      obtain ⟨t, ht⟩ := hz
      have := superAtoms_get s _ ht hg
      rw [zero_mul, zero_add] at this
      simp only [Function.comp, hat, cGet_nat this, ok_bind]
      rw [countOf_spec N s _ hat nz ks (hin ks (List.mem_of_getElem? hget))]
      rw [← hsa, hg]
      simp only [Option.map_some, Option.some.injEq]
      split_ifs <;> rfl
  · intro umax hu
    obtain ⟨info, f1, f2, f3, f4, f5, f6, f7⟩ := findInfo_core s rcut pbc N umax h3 K h4 h5 hin (by
      intro ks hks
      have := hu _ (List.mem_map_of_mem hks)
      simpa using this)
    refine ⟨info, f1, f2, f3, f4, f5, ?_, ?_⟩
    · rw [f6, List.map_map]
      apply List.map_congr_left
      intro ks _
      simp
    · intro i c imgs hc hi
      rw [List.getElem?_map] at hi
      obtain ⟨ks, hks, rfl⟩ := Option.map_eq_some_iff.1 hi
      have := f7 i c ks hc hks
      rw [List.length_map]
      exact this

/-- The lists and tables for a good cell, with the tolerance of the code spelled out. -/
theorem nbr_exact (A : ArgSort) (L : Fin 3 → Vec ℝ) (atoms : List (ℤ × Vec ℝ)) (rcut : ℝ)
    (pbc : Fin 3 → Bool) (sort : Bool) (hok : CellOk L atoms pbc) (hr : 0 < rcut) :
    ∃ N, NbrLists.make A (CStruct.make L atoms true) rcut pbc sort = .ok N ∧
      N.lists.length = atoms.length ∧
      N.bins.supercell = CSupercell.make (CStruct.make L atoms true)
        (oddScale (CStruct.make L atoms true) rcut pbc) ∧
      ∃ I : List (List (ℕ × (Fin 3 → ℤ))), N.lists.map List.length = I.map List.length ∧
        (∀ (i : ℕ) (c : ℤ × Vec ℝ), atoms[i]? = some c → ∃ imgs, I[i]? = some imgs ∧ imgs.Nodup ∧
          (∀ e, e ∈ imgs ↔ NearBy L pbc (atoms.map Prod.snd) rcut c.2 e ∧
            ∀ p, (atoms.map Prod.snd)[e.1]? = some p → 1 / 1000 < dist3 (imagePos L p e.2) c.2 ^ 2) ∧
          (sort = true → imgs.Pairwise (fun e e' => ∀ p p', (atoms.map Prod.snd)[e.1]? = some p →
            (atoms.map Prod.snd)[e'.1]? = some p' →
            dist3 (imagePos L p e.2) c.2 ≤ dist3 (imagePos L p' e'.2) c.2))) ∧
        (∀ cz nz, N.maxNumOf cz nz = .ok (runningMax (I.zipIdx.map (fun e =>
          if (atoms[e.2]?).map Prod.fst = some cz then
            e.1.countP (fun x => decide ((atoms[x.1]?).map Prod.fst = some nz)) else 0)))) ∧
        ∀ umax : ℕ, (∀ imgs ∈ I, imgs.length ≤ umax) → ∃ info, N.findInfo umax = .ok info ∧
          info.inum = atoms.length ∧ info.ilist = (List.range atoms.length).map (fun i : ℕ => (i : ℤ)) ∧
          info.types = atoms.map Prod.fst ∧ info.nghost = 0 ∧ info.numneigh = I.map List.length ∧
          ∀ (i : ℕ) (c : ℤ × Vec ℝ) (imgs : List (ℕ × (Fin 3 → ℤ))), atoms[i]? = some c →
            I[i]? = some imgs →
            flatRow info.firstneigh umax i =
              imgs.map (fun e => (e.1 : ℤ)) ++ List.replicate (umax - imgs.length) (-1) ∧
            flatRow info.rel (umax * 3) i =
              imgs.flatMap (relCoords L (atoms.map Prod.snd) c.2) ++
                List.replicate ((umax - imgs.length) * 3) 0 := by
  obtain ⟨N, h1, h2, h3, I, _, h4⟩ := nbr_exact_lists A L atoms rcut pbc sort hok hr
  exact ⟨N, h1, h2, h3, I, h4⟩

/-- A cube of edge `d` (which may be negative). -/
noncomputable def cube (d : ℝ) : Fin 3 → Vec ℝ := ![![d, 0, 0], ![0, d, 0], ![0, 0, d]]

theorem cube_det (d : ℝ) : (Matrix.of (cube d)).det = d ^ 3 := by
  simp [Matrix.det_fin_three, cube]
  ring

theorem cube_interplanar (d : ℝ) (hd : d ≠ 0) (o : Vec ℝ) (atoms : List (ℤ × Vec ℝ)) (i : Fin 3) :
    (CStruct.mk (cube d) o atoms).interplanar i = |d| := by
  have h2 : Real.sqrt (d ^ 4) = d ^ 2 := by
    rw [show d ^ 4 = (d ^ 2) ^ 2 by ring, Real.sqrt_sq (by positivity)]
  have h3 : d ^ 2 ≠ 0 := pow_ne_zero 2 hd
  have e : ∀ x : ℝ, |x| = |d| → |d * (x / 1)| = |d| * |d| := by
    intro x hx; rw [div_one, abs_mul, hx]
  have k : (d * d) ^ 2 = d ^ 4 := by ring
  have k' : d * (d * d / d ^ 2) = d := by field_simp
  fin_cases i <;> simp [CStruct.interplanar, cDot, cNormalize, cCross, norm3, cube, h2, k, neg_div, k']

theorem cube_scaling (d r : ℝ) (o : Vec ℝ) (atoms : List (ℤ × Vec ℝ)) (hd : d ≠ 0) (p : Fin 3) :
    binScaling (CStruct.mk (cube d) o atoms) r (fun _ => true) p = ⌈r / |d|⌉ * 2 + 1 := by
  unfold binScaling
  rw [cube_interplanar d hd]
  simp

theorem cube_projected (d : ℝ) (o : Vec ℝ) (atoms : List (ℤ × Vec ℝ)) (m : ℕ) (p : Fin 3) :
    ((CStruct.mk (cube d) o atoms).makeSupercell (fun _ => 2 * (m : ℤ) + 1)).projected p
      = |d| * (2 * m + 1) := by
  have e : |(2 * (m : ℝ) + 1)| = 2 * m + 1 := abs_of_pos (by positivity)
  fin_cases p <;> simp [CStruct.projected, CStruct.makeSupercell, cube, abs_mul, e]

theorem cube_minLimit (d : ℝ) (o : Vec ℝ) (atoms : List (ℤ × Vec ℝ)) (m : ℕ) (p : Fin 3) :
    ((CStruct.mk (cube d) o atoms).makeSupercell (fun _ => 2 * (m : ℤ) + 1)).minLimit p
      = -(m * d) + min 0 (d * (2 * m + 1)) := by
  rw [minLimit_eq]
  fin_cases p <;> simp [CStruct.makeSupercell, superLo_odd, Fin.sum_univ_three, cube]

/-- When an atom of the supercell falls into no bin, building the list writes outside its array. -/
theorem make_oob (A : ArgSort) (s : CStruct) (rcut : ℝ) (pbc : Fin 3 → Bool) (sort : Bool)
    (hdet : (Matrix.of s.basis).det ≠ 0) (hr : 0 < rcut) (sc : Fin 3 → ℤ)
    (hsc : binScaling s rcut pbc = sc) (nb : Fin 3 → ℤ)
    (hnb : ∀ p, ⌈(s.makeSupercell sc).projected p / (rcut / 2)⌉ = nb p)
    (a : ℤ × Vec ℝ) (ha : a ∈ (s.makeSupercell sc).atoms)
    (hbad : linIdx nb (binIdx (s.makeSupercell sc).minLimit (fun _ => rcut / 2) a.2) < 0 ∨
      ((nb 0 * nb 1 * nb 2).toNat : ℤ) ≤
        linIdx nb (binIdx (s.makeSupercell sc).minLimit (fun _ => rcut / 2) a.2)) :
    NbrLists.make A s rcut pbc sort = .error .outOfBounds := by
  have hne : s.atoms ≠ [] := by
    intro h
    rw [superAtoms_eq, h] at ha
    simp at ha
  unfold NbrLists.make NbrLists.makeWith BinList.make
  rw [if_neg hne, if_neg (not_not.2 ⟨hr, fun _ => by linarith, interplanar_pos s hdet⟩)]
  have e2 : (CSupercell.make s (binScaling s rcut pbc)).struct = s.makeSupercell sc := by rw [hsc]; rfl
  simp only [e2, hnb]
  rw [fillBins_oob]
  · rfl
  · simp
  · refine ⟨_, List.mem_map_of_mem ha, ?_⟩
    simpa using hbad

/-- One neighbour listed several times: the unsorted list of an atom, by counting visits of bins. -/
theorem make_count (A : ArgSort) (s : CStruct) (rcut : ℝ) (size : Vec ℝ) (pbc : Fin 3 → Bool)
    (hdet : (Matrix.of s.basis).det ≠ 0) (hne : s.atoms ≠ [])
    (hfrac : ∀ a ∈ s.atoms, InCell s.basis a.2) (hdir : ∀ p, ∃ q, 0 < s.basis q p)
    (hr : 0 < rcut) (hs : ∀ p, 0 < size p) (i : ℕ) (c : ℤ × Vec ℝ) (hc : s.atoms[i]? = some c)
    (k : ℕ) (a : ℤ × Vec ℝ) (ha : (s.makeSupercell (oddScale s rcut pbc)).atoms[k]? = some a)
    (hclose : cDist2 a.2 c.2 < rcut ^ 2 ∧ cDist2 a.2 c.2 > 1 / 1000)
    (nb ext bc ba : Fin 3 → ℤ)
    (hnb : ∀ p, ⌈(s.makeSupercell (oddScale s rcut pbc)).projected p / size p⌉ = nb p)
    (hext : ∀ p, ⌈rcut / size p⌉ = ext p)
    (hbc : ∀ p, binIdx (s.makeSupercell (oddScale s rcut pbc)).minLimit size c.2 p = bc p)
    (hba : ∀ p, binIdx (s.makeSupercell (oddScale s rcut pbc)).minLimit size a.2 p = ba p) :
    ∃ N l, NbrLists.makeWith A s rcut size pbc false = .ok N ∧ N.lists[i]? = some l ∧
      l.count (k : ℤ) = (cRange3 (fun p => -ext p) ext).countP (fun o => decide (∀ p,
        wrapBin (pbc p) (nb p) (bc p + o p) = ba p)) := by
  obtain ⟨B, hmk, hB, hsup, hrc, hsz, hpb, hnum⟩ := bins_core s rcut size pbc hdet hne hfrac hdir hr hs
  have hst : B.supercell.struct = s.makeSupercell (oddScale s rcut pbc) := by rw [hsup]; rfl
  have hpn : B.supercell.primNum = s.atoms.length := by rw [hsup]; rfl
  have hcen := centre_ok s rcut pbc B hsup
  have hall : ∀ j ∈ List.range B.supercell.primNum, ∃ l, B.neighAtoms j = .ok l := by
    intro j hj
    rw [List.mem_range, hpn] at hj
    exact ⟨_, B.neighAtoms_spec hB j _ (by rw [hpn]; exact hj) (hcen j _ (List.getElem?_eq_getElem hj))⟩
  choose! F hF using hall
  have hlists := mapM_map_ok hF
  have hi : i < s.atoms.length := (List.getElem?_eq_some_iff.1 hc).1
  have hFi : F i = (B.found c.2).map (fun k : ℕ => (k : ℤ)) := by
    have h1 := hF i (by rw [List.mem_range, hpn]; exact hi)
    rw [B.neighAtoms_spec hB i _ (by rw [hpn]; exact hi) (hcen i _ hc)] at h1
    exact (Except.ok.inj h1).symm
  refine ⟨⟨B, (List.range B.supercell.primNum).map F⟩, F i, ?_, ?_, ?_⟩
  · unfold NbrLists.makeWith
    rw [hmk, ok_bind]
    unfold NbrLists.build
    rw [hlists, ok_bind]
    rfl
  · simp [hpn, hi]
  · rw [hFi, List.count_map_of_injective _ _ Nat.cast_injective, B.count_found hB c.2 k a (by rw [hst]; exact ha)]
    have hcl : B.close c.2 a.2 = true := by
      unfold BinList.close
      rw [hrc, decide_eq_true_eq]
      exact hclose
    rw [if_pos hcl]
    have e1 : B.ext = ext := by
      funext p; unfold BinList.ext; rw [hrc, hsz]; exact hext p
    have e2 : B.numBin = nb := by
      rw [hnum]; funext p; exact hnb p
    have e3 : ∀ p, binIdx B.minLimit B.binSize c.2 p = bc p := by
      intro p; rw [hB.lim, hst, hsz]; exact hbc p
    have e4 : ∀ p, binIdx B.minLimit B.binSize a.2 p = ba p := by
      intro p; rw [hB.lim, hst, hsz]; exact hba p
    rw [hpb, e1, e2]
    simp only [e3, e4]

/-- A cell whose first lattice vector points along `y`. -/
noncomputable def tiltL : Fin 3 → Vec ℝ := ![![0, 10, 0], ![1, 0, 0], ![0, 0, 1]]

theorem dist3_imagePos_neg (L : Fin 3 → Vec ℝ) (p q : Vec ℝ) (t : Fin 3 → ℤ) :
    dist3 (imagePos L p (-t)) q = dist3 (imagePos L q t) p := by
  have h0 := dist3_nonneg (imagePos L p (-t)) q
  have h1 := dist3_nonneg (imagePos L q t) p
  have h2 : dist3 (imagePos L p (-t)) q ^ 2 = dist3 (imagePos L q t) p ^ 2 := by
    rw [dist3_sq_comp, dist3_sq_comp]
    simp only [imagePos_apply, Pi.neg_apply, Int.cast_neg]
    ring
  exact (pow_left_inj₀ h0 h1 two_ne_zero).1 h2

end MaterSDK
