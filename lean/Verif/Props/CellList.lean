import Verif.Lemmas.CellListAux
import Verif.Lemmas.CellListMore
import Mathlib.Tactic.FinCases
import Mathlib.Tactic.NormNum

/-! # C++ neighbour list: properties C82 to C89 -/

namespace MaterSDK

open Classical Matrix

/-! ## C82 -/

/-- C82: `find_info4mlff` hands out, for every atom, exactly the periodic images of atoms closer than
the cutoff other than the atom itself, each once, with its index, its relative position, and padding;
for cells the code handles (`CellOk`) whose images are never closer than about 0.03, and an array width
of at least `get_max_num_neigh_atoms()`. -/
theorem C82_find_info_exact_partial (A : ArgSort) (L : Fin 3 → Vec ℝ) (atoms : List (ℤ × Vec ℝ)) (rcut : ℝ)
    (pbc : Fin 3 → Bool) (sort : Bool) (hok : CellOk L atoms pbc) (hr : 0 < rcut)
    (hap : ApartImages L (atoms.map Prod.snd)) :
    ∃ N, NbrLists.make A (CStruct.make L atoms true) rcut pbc sort = .ok N ∧
      ∀ umax : ℕ, N.maxNum ≤ umax → ∃ info, N.findInfo umax = .ok info ∧
        info.inum = atoms.length ∧ info.ilist = (List.range atoms.length).map (fun i : ℕ => (i : ℤ)) ∧
        info.types = atoms.map Prod.fst ∧
        ∀ (i : ℕ) (c : ℤ × Vec ℝ), atoms[i]? = some c → ∃ imgs : List (ℕ × (Fin 3 → ℤ)), imgs.Nodup ∧
          (∀ e, e ∈ imgs ↔ NearBy L pbc (atoms.map Prod.snd) rcut c.2 e ∧ e ≠ (i, 0)) ∧
          info.numneigh[i]? = some imgs.length ∧ imgs.length ≤ umax ∧
          flatRow info.firstneigh umax i =
            imgs.map (fun e => (e.1 : ℤ)) ++ List.replicate (umax - imgs.length) (-1) ∧
          flatRow info.rel (umax * 3) i =
            imgs.flatMap (relCoords L (atoms.map Prod.snd) c.2) ++
              List.replicate ((umax - imgs.length) * 3) 0 := by
  obtain ⟨N, h1, _, _, I, h4, h5, _, h6⟩ := nbr_exact A L atoms rcut pbc sort hok hr
  refine ⟨N, h1, ?_⟩
  intro umax hu
  have hI : ∀ imgs ∈ I, imgs.length ≤ umax := by
    intro imgs hm
    refine le_trans ?_ hu
    unfold NbrLists.maxNum
    rw [h4]
    exact le_runningMax (List.mem_map_of_mem hm)
  obtain ⟨info, f1, f2, f3, f4, _, f5, f6⟩ := h6 umax hI
  refine ⟨info, f1, f2, f3, f4, ?_⟩
  intro i c hc
  obtain ⟨imgs, g1, g2, g3, _⟩ := h5 i c hc
  obtain ⟨r1, r2⟩ := f6 i c imgs hc g1
  have hci : (atoms.map Prod.snd)[i]? = some c.2 := by rw [List.getElem?_map, hc]; rfl
  refine ⟨imgs, g2, ?_, by rw [f5, List.getElem?_map, g1]; rfl, hI imgs (List.mem_of_getElem? g1), r1, r2⟩
  intro e
  rw [g3]
  constructor
  · rintro ⟨k1, k2⟩
    refine ⟨k1, ?_⟩
    rintro rfl
    have := k2 c.2 hci
    rw [imagePos_zero, dist3_sq_comp] at this
    norm_num at this
  · rintro ⟨k1, k2⟩
    exact ⟨k1, fun p hp => hap i e.1 c.2 p e.2 hci hp k2⟩

/-- C82 for fractional coordinates: the result is that of the Cartesian positions, and coordinates in
`[0, 1)` give atoms inside the cell. -/
theorem C82_fractional_input (A : ArgSort) (L : Fin 3 → Vec ℝ) (atoms : List (ℤ × Vec ℝ)) (rcut : ℝ)
    (pbc : Fin 3 → Bool) (sort : Bool) (umax : ℕ) :
    (NbrLists.make A (CStruct.make L atoms false) rcut pbc sort >>= fun N => N.findInfo umax)
      = (NbrLists.make A (CStruct.make L (atoms.map (fun a => (a.1, cartOf L a.2))) true) rcut pbc sort
          >>= fun N => N.findInfo umax) ∧
    ((∀ a ∈ atoms, ∀ i, 0 ≤ a.2 i ∧ a.2 i < 1) →
      ∀ a ∈ atoms.map (fun a => (a.1, cartOf L a.2)), InCell L a.2) := by
  refine ⟨by rw [make_frac], ?_⟩
  intro h a ha
  obtain ⟨b, hb, rfl⟩ := List.mem_map.1 ha
  exact inCell_cartOf L b.2 (h b hb)

example (A : ArgSort) := C82_find_info_exact_partial A exL exAtoms 3 ![true, true, false] true
  (exL_ok _ (Or.inr rfl)) (by norm_num) exL_apart

/-! ### Inputs on which C82 fails -/

/-- C82 fails for a cell all of whose vectors point backwards along an axis: the cubic cell of edge
`-4` with one atom at the origin and cutoff 4 writes outside the bin array. -/
theorem C82_violated_backward_cell (A : ArgSort) (sort : Bool) :
    NbrLists.make A (CStruct.make (cube (-4)) [(1, ![0, 0, 0])] true) 4 (fun _ => true) sort
      = .error .outOfBounds := by
  have hsc : binScaling (CStruct.make (cube (-4)) [(1, ![0, 0, 0])] true) 4 (fun _ => true)
      = fun _ => 2 * ((1 : ℕ) : ℤ) + 1 := by
    funext p
    have := cube_scaling (-4) 4 0 [((1 : ℤ), ![0, 0, 0])] (by norm_num) p
    rw [CStruct.make]
    simp only [if_true]
    rw [this]
    norm_num
  refine make_oob A _ 4 _ sort ?_ (by norm_num) _ hsc (fun _ => 6) ?_ (1, fun _ => 4) ?_ ?_
  · show (Matrix.of (cube (-4))).det ≠ 0
    rw [cube_det]; norm_num
  · intro p
    have := cube_projected (-4) 0 [((1 : ℤ), ![0, 0, 0])] 1 p
    rw [CStruct.make]
    simp only [if_true]
    rw [this]
    norm_num
  · rw [superAtoms_eq, List.mem_flatMap]
    refine ⟨fun _ => -1, (mem_superShifts_odd (fun _ => 1) _).2 (fun i => by norm_num), ?_⟩
    rw [List.mem_map]
    refine ⟨(1, ![0, 0, 0]), by simp [CStruct.make], ?_⟩
    refine Prod.ext rfl ?_
    funext p
    show imagePos (cube (-4)) ![0, 0, 0] _ p = 4
    rw [imagePos_apply]
    fin_cases p <;> simp [cube]
  · right
    have hb : ∀ p, binIdx ((CStruct.make (cube (-4)) [(1, ![0, 0, 0])] true).makeSupercell
        (fun _ => 2 * ((1 : ℕ) : ℤ) + 1)).minLimit (fun _ => (4 : ℝ) / 2) (fun _ => 4) p = 6 := by
      intro p
      have := cube_minLimit (-4) 0 [((1 : ℤ), ![0, 0, 0])] 1 p
      unfold binIdx
      rw [CStruct.make]
      simp only [if_true]
      rw [this]
      norm_num
    simp only [linIdx, hb]
    norm_num

/-- C82 fails for fractional coordinates outside `[0, 1)`: one atom at `(0, 0, -1)` in the cubic cell of
edge 4 makes the list write outside the bin array. -/
theorem C82_violated_unwrapped (A : ArgSort) (sort : Bool) :
    NbrLists.make A (CStruct.make (cube 4) [(1, ![0, 0, -1])] false) 4 (fun _ => true) sort
      = .error .outOfBounds := by
  have hs : CStruct.make (cube 4) [(1, ![0, 0, -1])] false = CStruct.mk (cube 4) 0 [(1, ![0, 0, -4])] := by
    simp only [CStruct.make, Bool.false_eq_true, if_false, List.map_cons, List.map_nil, CStruct.mk.injEq,
      true_and, List.cons.injEq, and_true, Prod.mk.injEq]
    funext p
    fin_cases p <;> simp [cube]
  rw [hs]
  have hsc : binScaling (CStruct.mk (cube 4) 0 [(1, ![0, 0, -4])]) 4 (fun _ => true)
      = fun _ => 2 * ((1 : ℕ) : ℤ) + 1 := by
    funext p
    rw [cube_scaling 4 4 0 _ (by norm_num) p]
    norm_num
  refine make_oob A _ 4 _ sort ?_ (by norm_num) _ hsc (fun _ => 6) ?_ (1, ![-4, -4, -8]) ?_ ?_
  · show (Matrix.of (cube 4)).det ≠ 0
    rw [cube_det]; norm_num
  · intro p
    rw [cube_projected]
    norm_num
  · rw [superAtoms_eq, List.mem_flatMap]
    refine ⟨fun _ => -1, (mem_superShifts_odd (fun _ => 1) _).2 (fun i => by norm_num), ?_⟩
    rw [List.mem_map]
    refine ⟨(1, ![0, 0, -4]), by simp, ?_⟩
    refine Prod.ext rfl ?_
    funext p
    show imagePos (cube 4) ![0, 0, -4] _ p = _
    rw [imagePos_apply]
    fin_cases p <;> simp [cube]
    norm_num
  · left
    have hb : ∀ p, binIdx ((CStruct.mk (cube 4) 0 [(1, ![0, 0, -4])]).makeSupercell
        (fun _ => 2 * ((1 : ℕ) : ℤ) + 1)).minLimit (fun _ => (4 : ℝ) / 2) ![-4, -4, -8] p
        = (![0, 0, -2] : Fin 3 → ℤ) p := by
      intro p
      unfold binIdx
      rw [cube_minLimit]
      fin_cases p
      · norm_num
      · norm_num
      · simp; norm_num
    simp only [linIdx, hb]
    simp

/-- Two atoms 0.03 apart: nothing is listed, nothing is counted. -/
theorem close_atoms (A : ArgSort) (sort : Bool) :
    (∃ N info, NbrLists.make A (CStruct.make (cube 4) [(1, ![0, 0, 0]), (1, ![3 / 100, 0, 0])] true) 1
        (fun _ => true) sort = .ok N ∧ N.findInfo 0 = .ok info ∧ info.numneigh = [0, 0] ∧
        N.maxNumOf 1 1 = .ok 0) ∧
    NearBy (cube 4) (fun _ => true) [![0, 0, 0], ![3 / 100, 0, 0]] 1 ![0, 0, 0] (1, 0) := by
  set atoms : List (ℤ × Vec ℝ) := [(1, ![0, 0, 0]), (1, ![3 / 100, 0, 0])] with hatoms
  have hok : CellOk (cube 4) atoms (fun _ => true) := by
    refine ⟨by rw [cube_det]; norm_num, by simp [hatoms], ?_, ?_, by simp⟩
    · intro a ha
      simp only [hatoms, List.mem_cons, List.not_mem_nil, or_false] at ha
      rcases ha with rfl | rfl
      · refine ⟨0, by intro i; simp, ?_⟩
        funext p
        fin_cases p <;> simp [cartOf, cube]
      · refine ⟨![3 / 400, 0, 0], by intro i; fin_cases i <;> norm_num, ?_⟩
        funext p
        fin_cases p <;> simp [cartOf, Fin.sum_univ_three, cube]
        norm_num
    · intro p
      exact ⟨p, by fin_cases p <;> simp [cube]⟩
  have hbase : ∀ (i : ℕ) (c : ℤ × Vec ℝ), atoms[i]? = some c → (0 ≤ c.2 0 ∧ c.2 0 ≤ 3 / 100) ∧
      c.2 1 = 0 ∧ c.2 2 = 0 := by
    intro i c hc
    have := List.mem_of_getElem? hc
    simp only [hatoms, List.mem_cons, List.not_mem_nil, or_false] at this
    rcases this with rfl | rfl
    · simp
      norm_num
    · simp
      norm_num
  have hnone : ∀ (c p : Vec ℝ) (t : Fin 3 → ℤ), (0 ≤ c 0 ∧ c 0 ≤ 3 / 100) ∧ c 1 = 0 ∧ c 2 = 0 →
      (0 ≤ p 0 ∧ p 0 ≤ 3 / 100) ∧ p 1 = 0 ∧ p 2 = 0 → dist3 (imagePos (cube 4) p t) c < 1 →
      ¬ 1 / 1000 < dist3 (imagePos (cube 4) p t) c ^ 2 := by
    intro c p t hc hp hd
    have h0 : 0 ≤ dist3 (imagePos (cube 4) p t) c := dist3_nonneg _ _
    have h1 : dist3 (imagePos (cube 4) p t) c ^ 2 < 1 := by nlinarith
    rw [dist3_sq_comp, imagePos_apply, imagePos_apply, imagePos_apply] at h1 ⊢
    have e0 : p 0 + cube 4 0 0 * (t 0 : ℝ) + cube 4 1 0 * t 1 + cube 4 2 0 * t 2 - c 0
        = p 0 - c 0 + 4 * t 0 := by simp [cube]; ring
    have e1 : p 1 + cube 4 0 1 * (t 0 : ℝ) + cube 4 1 1 * t 1 + cube 4 2 1 * t 2 - c 1 = 4 * t 1 := by
      simp [cube, hc.2.1, hp.2.1]
    have e2 : p 2 + cube 4 0 2 * (t 0 : ℝ) + cube 4 1 2 * t 1 + cube 4 2 2 * t 2 - c 2 = 4 * t 2 := by
      simp [cube, hc.2.2, hp.2.2]
    rw [e0, e1, e2] at h1 ⊢
    have ht : ∀ (z : ℤ) (x : ℝ), |x| ≤ 3 / 100 → (x + 4 * z) ^ 2 < 1 → z = 0 := by
      intro z x hx hz
      have h2 := (sq_lt_one_iff_abs_lt_one _).1 hz
      rw [abs_lt] at h2
      rw [abs_le] at hx
      have h3 : (z : ℝ) < 1 := by linarith
      have h4 : (-1 : ℝ) < z := by linarith
      have h5 : z < 1 := by exact_mod_cast h3
      have h6 : -1 < z := by exact_mod_cast h4
      omega
    have hx : |p 0 - c 0| ≤ 3 / 100 := by
      rw [abs_le]; constructor <;> linarith [hc.1.1, hc.1.2, hp.1.1, hp.1.2]
    have t0 : t 0 = 0 := ht _ _ hx (by nlinarith [sq_nonneg (4 * (t 1 : ℝ)), sq_nonneg (4 * (t 2 : ℝ))])
    have t1 : t 1 = 0 := ht _ 0 (by norm_num) (by
      rw [zero_add]
      nlinarith [sq_nonneg (p 0 - c 0 + 4 * (t 0 : ℝ)), sq_nonneg (4 * (t 2 : ℝ))])
    have t2 : t 2 = 0 := ht _ 0 (by norm_num) (by
      rw [zero_add]
      nlinarith [sq_nonneg (p 0 - c 0 + 4 * (t 0 : ℝ)), sq_nonneg (4 * (t 1 : ℝ))])
    rw [t0, t1, t2]
    simp only [Int.cast_zero, mul_zero, add_zero]
    have : (p 0 - c 0) ^ 2 ≤ (3 / 100) ^ 2 := sq_le_sq' (by rw [abs_le] at hx; linarith [hx.1])
      (by rw [abs_le] at hx; exact hx.2)
    nlinarith
  obtain ⟨N, h1, _, _, I, h4, h5, hmax, h6⟩ := nbr_exact A (cube 4) atoms 1 (fun _ => true) sort hok (by norm_num)
  have hempty : ∀ (i : ℕ) (c : ℤ × Vec ℝ), atoms[i]? = some c → I[i]? = some [] := by
    intro i c hc
    obtain ⟨imgs, g1, _, g3, _⟩ := h5 i c hc
    have : imgs = [] := by
      rw [List.eq_nil_iff_forall_not_mem]
      intro e he
      obtain ⟨⟨_, p, hp, hd⟩, hfar⟩ := (g3 e).1 he
      have hp' := hp
      rw [List.getElem?_map] at hp
      obtain ⟨a, ha, rfl⟩ := Option.map_eq_some_iff.1 hp
      exact hnone c.2 a.2 e.2 (hbase i c hc) (hbase e.1 a ha) hd (hfar _ hp')
    rw [g1, this]
  have hIlen : I.length = 2 := by
    have := congrArg List.length h4
    simp only [List.length_map] at this
    rw [← this]
    assumption
  have hI : I = [[], []] := by
    apply List.ext_getElem?
    intro i
    match i with
    | 0 => exact hempty 0 _ rfl
    | 1 => exact hempty 1 _ rfl
    | i + 2 => rw [List.getElem?_eq_none (by omega)]; rfl
  obtain ⟨info, f1, _, _, _, _, f5, _⟩ := h6 0 (by rw [hI]; simp)
  refine ⟨⟨N, info, h1, f1, by rw [f5, hI]; rfl, ?_⟩, by simp, ![3 / 100, 0, 0], rfl, ?_⟩
  · rw [hmax 1 1, hI]
    rfl
  rw [imagePos_zero]
  have h0 : dist3 (![3 / 100, 0, 0] : Vec ℝ) ![0, 0, 0] ^ 2 < 1 := by
    rw [dist3_sq_comp]; simp; norm_num
  nlinarith [dist3_nonneg (![3 / 100, 0, 0] : Vec ℝ) ![0, 0, 0]]

/-- C82 fails for very close atoms: two atoms 0.03 apart are not listed as neighbours. -/
theorem C82_violated_close_atoms (A : ArgSort) (sort : Bool) :
    (∃ N info, NbrLists.make A (CStruct.make (cube 4) [(1, ![0, 0, 0]), (1, ![3 / 100, 0, 0])] true) 1
        (fun _ => true) sort = .ok N ∧ N.findInfo 0 = .ok info ∧ info.numneigh = [0, 0]) ∧
    NearBy (cube 4) (fun _ => true) [![0, 0, 0], ![3 / 100, 0, 0]] 1 ![0, 0, 0] (1, 0) := by
  obtain ⟨⟨N, info, h1, h2, h3, _⟩, h⟩ := close_atoms A sort
  exact ⟨⟨N, info, h1, h2, h3⟩, h⟩

/-- C82 fails when periodicity is given per lattice vector and the vector is not along the Cartesian axis
of the same number: with the first vector along `y`, only that vector periodic, and two atoms 1 apart,
cutoff 5, the first atom lists its neighbour five times. -/
theorem C82_violated_mixed_pbc (A : ArgSort) :
    ∃ N l k, NbrLists.make A (CStruct.make tiltL [(1, ![0, 0, 0]), (1, ![0, 1, 0])] true) 5
      ![true, false, false] false = .ok N ∧ N.lists[0]? = some l ∧ l.count k = 5 := by
  set s := CStruct.make tiltL [(1, ![0, 0, 0]), (1, ![0, 1, 0])] true with hs
  have hi0 : s.interplanar 0 = 10 := by
    simp [CStruct.interplanar, cDot, cNormalize, cCross, norm3, hs, CStruct.make, tiltL]
  have hw : oddScale s 5 ![true, false, false] = ![3, 1, 1] := by
    funext p
    unfold oddScale halfWidth
    fin_cases p
    · simp only [Fin.zero_eta, Matrix.cons_val_zero, hi0]
      norm_num
    · simp
    · simp
  have hproj : ∀ p, (s.makeSupercell ![3, 1, 1]).projected p = (![1, 30, 1] : Vec ℝ) p := by
    intro p
    fin_cases p <;> simp [CStruct.projected, CStruct.makeSupercell, hs, CStruct.make, tiltL] <;> norm_num
  have hl3 : superLo 3 = -1 := by decide
  have hl1 : superLo 1 = 0 := by decide
  have hmin : ∀ p, (s.makeSupercell ![3, 1, 1]).minLimit p = (![0, -10, 0] : Vec ℝ) p := by
    intro p
    rw [minLimit_eq]
    fin_cases p <;> simp [CStruct.makeSupercell, hs, CStruct.make, tiltL, Fin.sum_univ_three, hl3, hl1]
  have hcell : ∀ a ∈ s.atoms, InCell s.basis a.2 := by
    intro a ha
    have ha : a ∈ [((1 : ℤ), (![0, 0, 0] : Vec ℝ)), (1, ![0, 1, 0])] := ha
    simp only [List.mem_cons, List.not_mem_nil, or_false] at ha
    rcases ha with rfl | rfl
    · refine ⟨0, by intro i; simp, ?_⟩
      funext p
      fin_cases p <;> simp [cartOf]
    · refine ⟨![1 / 10, 0, 0], by intro i; fin_cases i <;> norm_num, ?_⟩
      funext p
      fin_cases p <;> simp [cartOf, Fin.sum_univ_three, hs, CStruct.make, tiltL]
  obtain ⟨k, hk, _⟩ := exists_stored s ![3, 1, 1] (j := 1) (t := 0) (a := (1, ![0, 1, 0])) rfl (by
    unfold superShifts
    rw [mem_cRange3]
    intro i
    fin_cases i <;> decide)
  rw [imagePos_zero] at hk
  obtain ⟨N, l, h1, h2, h3⟩ := make_count A s 5 (fun _ => 5 / 2) ![true, false, false]
    (by simp [Matrix.det_fin_three, hs, CStruct.make, tiltL]) (by simp [hs, CStruct.make]) hcell
    (by
      intro p
      fin_cases p
      · exact ⟨1, by simp [hs, CStruct.make, tiltL]⟩
      · exact ⟨0, by simp [hs, CStruct.make, tiltL]⟩
      · exact ⟨2, by simp [hs, CStruct.make, tiltL]⟩)
    (by norm_num) (by intro p; norm_num) 0 (1, ![0, 0, 0]) rfl k (1, ![0, 1, 0]) (by rw [hw]; exact hk)
    (by simp [cDist2]; norm_num) ![1, 12, 1] (fun _ => 2) ![0, 4, 0] ![0, 4, 0]
    (by
      intro p
      rw [hw, hproj]
      fin_cases p
      · simp only [Fin.zero_eta, Matrix.cons_val_zero]
        rw [Int.ceil_eq_iff]; norm_num
      · simp
        norm_num
      · simp
        rw [Int.ceil_eq_iff]; norm_num)
    (by intro p; norm_num)
    (by
      intro p
      unfold binIdx
      rw [hw, hmin]
      fin_cases p
      · simp
      · simp
        rw [Int.floor_eq_iff]; norm_num
      · simp)
    (by
      intro p
      unfold binIdx
      rw [hw, hmin]
      fin_cases p
      · simp
      · simp
        rw [Int.floor_eq_iff]; norm_num
      · simp)
  refine ⟨N, l, (k : ℤ), h1, h2, ?_⟩
  rw [h3]
  decide +kernel

/-! ## C83 -/

/-- C83: the neighbours found do not depend on the bin sizes, for bin sizes that divide the cutoff. -/
theorem C83_bin_size_irrelevant_partial (A : ArgSort) (L : Fin 3 → Vec ℝ) (atoms : List (ℤ × Vec ℝ))
    (rcut : ℝ) (pbc : Fin 3 → Bool) (sort : Bool) (hok : CellOk L atoms pbc) (hr : 0 < rcut)
    (m m' : Fin 3 → ℕ) (hm : ∀ p, 0 < m p) (hm' : ∀ p, 0 < m' p) :
    ∃ N N', NbrLists.makeWith A (CStruct.make L atoms true) rcut (fun p => rcut / m p) pbc sort = .ok N ∧
      NbrLists.makeWith A (CStruct.make L atoms true) rcut (fun p => rcut / m' p) pbc sort = .ok N' ∧
      List.Forall₂ List.Perm N.lists N'.lists := by
  set s := CStruct.make L atoms true with hs
  have hbins : ∀ m : Fin 3 → ℕ, (∀ p, 0 < m p) → ∀ p, pbc p = true →
      2 * ⌈rcut / (rcut / m p)⌉ + 1
        ≤ ⌈(s.makeSupercell (oddScale s rcut pbc)).projected p / (rcut / m p)⌉ := by
    intro m hm p hp
    have hmp : (0 : ℝ) < m p := by exact_mod_cast hm p
    have h := projected_large s hok.nonsing rcut pbc hr p (fun q hq => hok.perp p q hp hq)
    have e : rcut / (rcut / m p) = ((m p : ℤ) : ℝ) := by
      have := hr.ne'
      have := hmp.ne'
      push_cast
      field_simp
    rw [e, Int.ceil_intCast]
    have : (2 * (m p : ℤ)) < ⌈(s.makeSupercell (oddScale s rcut pbc)).projected p / (rcut / m p)⌉ := by
      rw [Int.lt_ceil, lt_div_iff₀ (by positivity)]
      push_cast
      have e2 : 2 * (m p : ℝ) * (rcut / m p) = 2 * rcut := by
        have := hmp.ne'
        field_simp
      rw [e2]
      exact h
    omega
  have key := fun (m : Fin 3 → ℕ) (hm : ∀ p, 0 < m p) => lists_core A s rcut (fun p => rcut / m p) pbc sort
    hok.nonsing hok.nonempty hok.inCell hok.dir hr
    (fun p => div_pos hr (by exact_mod_cast hm p)) (hbins m hm)
  obtain ⟨N, h1, _, _, K, h4, h5, h6⟩ := key m hm
  obtain ⟨N', h1', _, _, K', h4', h5', h6'⟩ := key m' hm'
  refine ⟨N, N', h1, h1', ?_⟩
  rw [h4, h4', List.forall₂_map_left_iff, List.forall₂_map_right_iff, List.forall₂_iff_get]
  refine ⟨by rw [h5, h5'], ?_⟩
  intro i hi hi'
  have hlt : i < s.atoms.length := by rw [← h5]; exact hi
  obtain ⟨ks, g1, g2, g3, _⟩ := h6 i _ (List.getElem?_eq_getElem hlt)
  obtain ⟨ks', g1', g2', g3', _⟩ := h6' i _ (List.getElem?_eq_getElem hlt)
  rw [List.get_eq_getElem, List.get_eq_getElem]
  have e : K[i] = ks := Option.some.inj ((List.getElem?_eq_getElem hi).symm.trans g1)
  have e' : K'[i] = ks' := Option.some.inj ((List.getElem?_eq_getElem hi').symm.trans g1')
  rw [e, e']
  apply List.Perm.map
  rw [List.perm_ext_iff_of_nodup g2 g2']
  intro k
  rw [g3, g3']

example (A : ArgSort) := C83_bin_size_irrelevant_partial A exL exAtoms 3 (fun _ => true) false
  (exL_ok _ (Or.inl rfl)) (by norm_num) ![2, 2, 2] ![1, 3, 4] (by decide) (by decide)

/-- C83 fails for coarse bins: with one atom in the cubic cell of edge 4, cutoff 5 and bins of edge 20,
a neighbour is listed 27 times; with the default bins no neighbour is listed twice. -/
theorem C83_violated_coarse_bins (A : ArgSort) :
    (∃ N l k, NbrLists.makeWith A (CStruct.make (cube 4) [(1, ![0, 0, 0])] true) 5 (fun _ => 20)
      (fun _ => true) false = .ok N ∧ N.lists[0]? = some l ∧ l.count k = 27) ∧
    ∃ N, NbrLists.make A (CStruct.make (cube 4) [(1, ![0, 0, 0])] true) 5
      (fun _ => true) false = .ok N ∧ ∀ l ∈ N.lists, l.Nodup := by
  have hok : CellOk (cube 4) [(1, ![0, 0, 0])] (fun _ => true) := by
    refine ⟨by rw [cube_det]; norm_num, by simp, ?_, ?_, by simp⟩
    · intro a ha
      simp only [List.mem_cons, List.not_mem_nil, or_false] at ha
      subst ha
      refine ⟨0, by intro i; simp, ?_⟩
      funext p
      fin_cases p <;> simp [cartOf, cube]
    · intro p
      exact ⟨p, by fin_cases p <;> simp [cube]⟩
  set s := CStruct.make (cube 4) [(1, ![0, 0, 0])] true with hs
  have hs' : s = CStruct.mk (cube 4) 0 [(1, ![0, 0, 0])] := rfl
  have hw : oddScale s 5 (fun _ => true) = fun _ => 2 * ((2 : ℕ) : ℤ) + 1 := by
    have e : oddScale s 5 (fun _ => true) = binScaling s 5 (fun _ => true) :=
      (binScaling_odd s 5 (fun _ => true) (by norm_num) (interplanar_pos s hok.nonsing)).symm
    rw [e]
    funext p
    rw [hs', cube_scaling 4 5 0 _ (by norm_num)]
    have : ⌈(5 : ℝ) / |4|⌉ = 2 := by rw [Int.ceil_eq_iff]; norm_num
    rw [this]; norm_num
  have hproj := cube_projected 4 0 [(1, ![0, 0, 0])] 2
  have hmin := cube_minLimit 4 0 [(1, ![0, 0, 0])] 2
  rw [← hs'] at hproj hmin
  constructor
  · obtain ⟨k, hk, _⟩ := exists_stored s (fun _ => 2 * ((2 : ℕ) : ℤ) + 1) (j := 0) (t := ![1, 0, 0])
      (a := (1, ![0, 0, 0])) rfl ((mem_superShifts_odd (fun _ => 2) _).2 (by intro i; fin_cases i <;> simp))
    have himg : imagePos s.basis ![0, 0, 0] ![1, 0, 0] = ![4, 0, 0] := by
      funext p
      rw [imagePos_apply]
      fin_cases p <;> simp [hs', cube]
    simp only [himg] at hk
    obtain ⟨N, l, h1, h2, h3⟩ := make_count A s 5 (fun _ => 20) (fun _ => true) hok.nonsing hok.nonempty
      hok.inCell hok.dir (by norm_num) (by intro p; norm_num) 0 (1, ![0, 0, 0]) rfl k (1, ![4, 0, 0])
      (by rw [hw]; exact hk) (by simp [cDist2]; norm_num) (fun _ => 1) (fun _ => 1) (fun _ => 0)
      (fun _ => 0)
      (by
        intro p
        rw [hw, hproj]
        norm_num)
      (by intro p; rw [Int.ceil_eq_iff]; norm_num)
      (by
        intro p
        unfold binIdx
        rw [hw, hmin, Int.floor_eq_iff]
        fin_cases p <;> norm_num)
      (by
        intro p
        unfold binIdx
        rw [hw, hmin, Int.floor_eq_iff]
        fin_cases p <;> norm_num)
    refine ⟨N, l, (k : ℤ), h1, h2, ?_⟩
    rw [h3]
    decide +kernel
  · obtain ⟨N, h1, _, _, K, h4, h5, h6⟩ := lists_core A s 5 (fun _ => 5 / 2) (fun _ => true) false
      hok.nonsing hok.nonempty hok.inCell hok.dir (by norm_num) (fun _ => by norm_num)
      (default_bins s 5 (fun _ => true) hok.nonsing (by norm_num) hok.perp)
    refine ⟨N, h1, ?_⟩
    intro l hl
    rw [h4] at hl
    obtain ⟨ks, hks, rfl⟩ := List.mem_map.1 hl
    obtain ⟨i, hi⟩ := List.mem_iff_getElem?.1 hks
    have hlt : i < s.atoms.length := by rw [← h5]; exact (List.getElem?_eq_some_iff.1 hi).1
    obtain ⟨ks', g1, g2, _⟩ := h6 i _ (List.getElem?_eq_getElem hlt)
    rw [hi] at g1
    cases g1
    exact g2.map Nat.cast_injective

/-! ## C84 -/

/-- C84: for odd scaling factors the owned atoms of a supercell are the atoms of the original cell. -/
theorem C84_owned_atoms_partial (s : CStruct) (m : Fin 3 → ℕ) (i : ℕ) (a : ℤ × Vec ℝ)
    (ha : s.atoms[i]? = some a) :
    ∃ k : ℕ, (CSupercell.make s (fun p => 2 * (m p : ℤ) + 1)).ownedAtomIdxs[i]? = some (k : ℤ) ∧
      (CSupercell.make s (fun p => 2 * (m p : ℤ) + 1)).struct.atoms[k]? = some a := by
  obtain ⟨hi, _⟩ := List.getElem?_eq_some_iff.1 ha
  have hz := superAtoms_get s _ (superShifts_zero_odd m) ha
  rw [imagePos_zero] at hz
  refine ⟨_, ?_, hz⟩
  unfold CSupercell.ownedAtomIdxs CSupercell.make
  rw [List.getElem?_map, List.getElem?_range hi]
  have hp : (0 : ℤ) ≤ primCellIdx (fun i => 2 * (m i : ℤ) + 1) := by
    rw [primCellIdx_odd]; positivity
  simp only [Option.map_some, Option.some.injEq]
  rw [Nat.cast_add, Nat.cast_mul, Int.toNat_of_nonneg hp]

example : ∃ k : ℕ, (CSupercell.make (CStruct.make exL exAtoms true)
    (fun p => 2 * ((![2, 0, 1] : Fin 3 → ℕ) p : ℤ) + 1)).ownedAtomIdxs[1]? = some (k : ℤ) ∧
    (CSupercell.make (CStruct.make exL exAtoms true)
    (fun p => 2 * ((![2, 0, 1] : Fin 3 → ℕ) p : ℤ) + 1)).struct.atoms[k]? = some (8, ![2, 1, 1]) :=
  C84_owned_atoms_partial _ _ 1 _ rfl

/-- C84 fails for even factors: in the `4 × 1 × 2` supercell of a one-atom cell, the owned atom is a
shifted copy, although the unshifted atom is present (at index 2). -/
theorem C84_violated_even :
    (CSupercell.make (CStruct.make (cube 4) [(1, ![0, 0, 0])] true) ![4, 1, 2]).ownedAtomIdxs = [1] ∧
    (CSupercell.make (CStruct.make (cube 4) [(1, ![0, 0, 0])] true) ![4, 1, 2]).struct.atoms[1]?
      = some ((1 : ℤ), (![-4, 0, 4] : Vec ℝ)) ∧
    (CSupercell.make (CStruct.make (cube 4) [(1, ![0, 0, 0])] true) ![4, 1, 2]).struct.atoms[2]?
      = some ((1 : ℤ), (![0, 0, 0] : Vec ℝ)) := by
  have hsh : superShifts ![4, 1, 2] = [![-1, 0, 0], ![-1, 0, 1], ![0, 0, 0], ![0, 0, 1], ![1, 0, 0],
      ![1, 0, 1], ![2, 0, 0], ![2, 0, 1]] := by decide +kernel
  have hp : primCellIdx ![4, 1, 2] = 1 := by decide +kernel
  refine ⟨?_, ?_, ?_⟩
  · simp [CSupercell.ownedAtomIdxs, CSupercell.make, CStruct.make, hp]
  · show ((CStruct.make (cube 4) [(1, ![0, 0, 0])] true).makeSupercell ![4, 1, 2]).atoms[1]? = _
    rw [superAtoms_eq, hsh]
    simp only [CStruct.make, if_true, List.map_cons, List.map_nil, List.flatMap_cons, List.flatMap_nil,
      List.cons_append, List.nil_append, List.getElem?_cons_succ, List.getElem?_cons_zero]
    refine congrArg some (Prod.ext rfl ?_)
    funext p
    show imagePos _ _ _ p = _
    rw [imagePos_apply]
    fin_cases p <;> simp [cube]
  · show ((CStruct.make (cube 4) [(1, ![0, 0, 0])] true).makeSupercell ![4, 1, 2]).atoms[2]? = _
    rw [superAtoms_eq, hsh]
    simp only [CStruct.make, if_true, List.map_cons, List.map_nil, List.flatMap_cons, List.flatMap_nil,
      List.cons_append, List.nil_append, List.getElem?_cons_succ, List.getElem?_cons_zero]
    refine congrArg some (Prod.ext rfl ?_)
    funext p
    show imagePos _ _ _ p = _
    rw [imagePos_apply]
    fin_cases p <;> simp [cube]

/-! ## C85 -/

/-- C85: `make_supercell` describes the same crystal. The lattice vectors are scaled; the atoms are the
images of the atoms of the cell under a set of displacements that contains exactly one member of every
class modulo the new lattice; there are product-of-factors many. -/
theorem C85_supercell_same_crystal (s : CStruct) (sc : Fin 3 → ℤ) (hsc : ∀ p, 0 < sc p) :
    (∀ i p, (s.makeSupercell sc).basis i p = sc i * s.basis i p) ∧
    ∃ T : List (Fin 3 → ℤ), T.Nodup ∧ (T.length : ℤ) = sc 0 * sc 1 * sc 2 ∧
      (∀ u : Fin 3 → ℤ, ∃ t ∈ T, (∀ i, sc i ∣ u i - t i) ∧ ∀ t' ∈ T, (∀ i, sc i ∣ u i - t' i) → t' = t) ∧
      (s.makeSupercell sc).atoms = T.flatMap fun t => s.atoms.map fun a =>
        (a.1, imagePos s.basis a.2 t) := by
  refine ⟨fun i p => by simp only [CStruct.makeSupercell]; ring, superShifts sc, cRange3_nodup _ _, ?_, ?_,
    superAtoms_eq s sc⟩
  · unfold superShifts
    rw [cRange3_length]
    have h := fun p => super_range (hsc p)
    have e : ∀ p, (((superHi (sc p) - superLo (sc p) + 1).toNat : ℕ) : ℤ) = sc p := by
      intro p
      have := h p
      have := hsc p
      omega
    push_cast
    rw [e, e, e]
    ring
  · intro u
    have h := fun p => super_range (hsc p)
    refine ⟨fun i => (u i - superLo (sc i)) % sc i + superLo (sc i), ?_, ?_, ?_⟩
    · unfold superShifts
      rw [mem_cRange3]
      intro i
      have h1 := Int.emod_nonneg (u i - superLo (sc i)) (hsc i).ne'
      have h2 := Int.emod_lt_of_pos (u i - superLo (sc i)) (hsc i)
      have h3 := h i
      constructor <;> omega
    · intro i
      refine ⟨(u i - superLo (sc i)) / sc i, ?_⟩
      have := Int.emod_add_mul_ediv (u i - superLo (sc i)) (sc i)
      linarith
    · intro t' ht' hd
      unfold superShifts at ht'
      rw [mem_cRange3] at ht'
      funext i
      obtain ⟨k, hk⟩ := hd i
      have h1 := ht' i
      have h3 := h i
      have e : u i - superLo (sc i) = (t' i - superLo (sc i)) + sc i * k := by linarith
      show t' i = (u i - superLo (sc i)) % sc i + superLo (sc i)
      rw [e, Int.add_mul_emod_self_left, Int.emod_eq_of_lt (by omega) (by omega)]
      ring

example := C85_supercell_same_crystal (CStruct.make exL exAtoms true) ![4, 1, 3] (by decide)

/-! ## C86 -/

/-- C86: with `sort`, every row of `find_info4mlff` runs from the nearest to the farthest neighbour, for
every structure, cutoff, bin size and periodicity for which the list can be made. -/
theorem C86_sorted_rows (A : ArgSort) (s : CStruct) (rcut : ℝ) (size : Vec ℝ) (pbc : Fin 3 → Bool)
    (N : NbrLists) (umax : ℕ) (info : MlffInfo) (hN : NbrLists.makeWith A s rcut size pbc true = .ok N)
    (hu : N.maxNum ≤ umax) (hi : N.findInfo umax = .ok info) (i : ℕ) (hin : i < s.atoms.length) :
    ∃ rel : List (Vec ℝ), info.numneigh[i]? = some rel.length ∧
      flatRow info.rel (umax * 3) i =
        rel.flatMap (fun v => [v 0, v 1, v 2]) ++ List.replicate ((umax - rel.length) * 3) 0 ∧
      (rel.map norm3).Pairwise (· ≤ ·) := by
  obtain ⟨B, hB, hb⟩ := bind_eq_ok.1 hN
  have hBs : B.supercell.primNum = s.atoms.length := by
    unfold BinList.make at hB
    split at hB
    · cases hB
    split at hB
    · cases hB
    · obtain ⟨hn, _, h⟩ := bind_eq_ok.1 hB
      rw [← Except.ok.inj h]
      rfl
  obtain ⟨lists, hl, hb⟩ := bind_eq_ok.1 hb
  simp only [if_true] at hb
  obtain ⟨sorted, hs, hb⟩ := bind_eq_ok.1 hb
  have hb := (Except.ok.inj hb).symm
  subst hb
  rw [mapM_eq_ok] at hl hs
  have hlen : sorted.length = s.atoms.length := by
    rw [← hs.length_eq, List.length_zipIdx, ← hl.length_eq, List.length_range, hBs]
  unfold NbrLists.findInfo at hi
  simp only at hi
  obtain ⟨types, _, hi⟩ := bind_eq_ok.1 hi
  obtain ⟨firstneigh, _, hi⟩ := bind_eq_ok.1 hi
  obtain ⟨relRows, hr, hi⟩ := bind_eq_ok.1 hi
  obtain ⟨rel, hw, hi⟩ := bind_eq_ok.1 hi
  have hi := (Except.ok.inj hi).symm
  subst hi
  simp only
  rw [mapM_eq_ok] at hr
  -- every row
  have hrow : ∀ (j : ℕ) (row : List ℝ), relRows[j]? = some row → ∃ (l : List ℤ) (rel : List (Vec ℝ)), sorted[j]? = some l ∧
      l.length = rel.length ∧ row = rel.flatMap (fun v : Vec ℝ => [v 0, v 1, v 2]) ∧
      (rel.map norm3).Pairwise (· ≤ ·) := by
    intro j row hj
    obtain ⟨e, he, hrow⟩ := forall₂_get' hr hj
    rw [List.getElem?_zipIdx] at he
    obtain ⟨l, hl', rfl⟩ := Option.map_eq_some_iff.1 he
    obtain ⟨c, hc, hrow⟩ := bind_eq_ok.1 hrow
    obtain ⟨xs, hxs, hrow⟩ := bind_eq_ok.1 hrow
    obtain ⟨e, he, hsort⟩ := forall₂_get' hs hl'
    rw [List.getElem?_zipIdx] at he
    obtain ⟨l0, _, rfl⟩ := Option.map_eq_some_iff.1 he
    obtain ⟨c', hc', hsort⟩ := bind_eq_ok.1 hsort
    simp only [zero_add] at hc hc'
    rw [hc] at hc'
    have hcc := Except.ok.inj hc'
    subst hcc
    obtain ⟨as, a1, a2, _⟩ := sortByDistance_sorted A _ _ _ _ hsort
    refine ⟨l, as.map (fun a => a.2 - c), hl', by rw [List.length_map, a1.length_eq], ?_, ?_⟩
    · rw [← Except.ok.inj hrow, List.flatMap_map]
      rw [mapM_eq_ok] at hxs
      clear * - a1 hxs
      induction a1 generalizing xs with
      | nil => cases hxs; rfl
      | cons h _ ih =>
        cases hxs with
        | cons h' hxs =>
          rw [h] at h'
          rw [← Except.ok.inj h', List.flatten_cons, ih _ hxs]
          rfl
    · rw [List.map_map]
      convert a2 using 2
      funext a
      exact norm3_eq_dist3 _ _
  have hrl : ∀ r ∈ relRows, r.length ≤ umax * 3 := by
    intro r hr'
    obtain ⟨j, hj⟩ := List.mem_iff_getElem?.1 hr'
    obtain ⟨l, rel, h1, h2, rfl, _⟩ := hrow j r hj
    have h3 : l.length ≤ umax := le_trans (le_runningMax (List.mem_map_of_mem (List.mem_of_getElem? h1))) hu
    simp [List.length_flatMap]
    omega
  have hrn : relRows.length = B.supercell.primNum := by
    rw [← hr.length_eq, List.length_zipIdx, hlen, hBs]
  have hw' := cWriteRows_ok (umax * 3) (0 : ℝ) relRows B.supercell.primNum hrn hrl
  rw [← mul_assoc] at hw'
  push_cast at hw'
  rw [hw] at hw'
  have hw' := Except.ok.inj hw'
  have hi' : i < relRows.length := by rw [hrn, hBs]; exact hin
  have hget : relRows[i]? = some relRows[i] := List.getElem?_eq_getElem hi'
  obtain ⟨l, rr, h1, h2, h3, h4⟩ := hrow i _ hget
  refine ⟨rr, by rw [List.getElem?_map, h1, Option.map_some, h2], ?_, h4⟩
  rw [hw', flatRow_flatMap relRows _ (umax * 3) ?_ i _ hget, h3]
  · congr 2
    have : (rr.flatMap (fun v : Vec ℝ => [v 0, v 1, v 2])).length = rr.length * 3 := by
      simp [List.length_flatMap]
    rw [this, Nat.sub_mul]
  · intro r hr'
    have := hrl r hr'
    simp; omega

/-- C86, with existence: for the cells of C82 the list can be made and handed out in any sufficient width,
and its rows are sorted. -/
theorem C86_handled_cells (A : ArgSort) (L : Fin 3 → Vec ℝ) (atoms : List (ℤ × Vec ℝ)) (rcut : ℝ)
    (pbc : Fin 3 → Bool) (hok : CellOk L atoms pbc) (hr : 0 < rcut) :
    ∃ N, NbrLists.make A (CStruct.make L atoms true) rcut pbc true = .ok N ∧
      ∀ umax : ℕ, N.maxNum ≤ umax → ∃ info, N.findInfo umax = .ok info ∧
        ∀ (i : ℕ) (c : ℤ × Vec ℝ), atoms[i]? = some c → ∃ rel : List (Vec ℝ),
          info.numneigh[i]? = some rel.length ∧
          flatRow info.rel (umax * 3) i =
            rel.flatMap (fun v => [v 0, v 1, v 2]) ++ List.replicate ((umax - rel.length) * 3) 0 ∧
          (rel.map norm3).Pairwise (· ≤ ·) := by
  obtain ⟨N, h1, _, _, I, h4, h5, _, h6⟩ := nbr_exact A L atoms rcut pbc true hok hr
  refine ⟨N, h1, ?_⟩
  intro umax hu
  have hI : ∀ imgs ∈ I, imgs.length ≤ umax := by
    intro imgs hm
    refine le_trans ?_ hu
    unfold NbrLists.maxNum
    rw [h4]
    exact le_runningMax (List.mem_map_of_mem hm)
  obtain ⟨info, f1, _, _, _, _, f5, f6⟩ := h6 umax hI
  refine ⟨info, f1, ?_⟩
  intro i c hc
  obtain ⟨imgs, g1, _, g3, g4⟩ := h5 i c hc
  obtain ⟨_, r2⟩ := f6 i c imgs hc g1
  set P : ℕ × (Fin 3 → ℤ) → Vec ℝ := fun e =>
    imagePos L (((atoms.map Prod.snd)[e.1]?).getD 0) e.2 - c.2 with hP
  have hPe : ∀ e ∈ imgs, ∃ p, (atoms.map Prod.snd)[e.1]? = some p ∧ P e = imagePos L p e.2 - c.2 := by
    intro e he
    obtain ⟨⟨_, p, hp, _⟩, _⟩ := (g3 e).1 he
    exact ⟨p, hp, by simp only [hP, hp, Option.getD_some]⟩
  refine ⟨imgs.map P, by rw [f5, List.getElem?_map, g1]; simp, ?_, ?_⟩
  · rw [r2, List.length_map]
    congr 1
    rw [List.flatMap_map]
    apply List.flatMap_congr
    intro e he
    obtain ⟨p, hp, hpe⟩ := hPe e he
    unfold relCoords
    rw [hp, hpe]
    rfl
  · rw [List.map_map, List.pairwise_map]
    refine List.Pairwise.imp_of_mem ?_ (g4 rfl)
    intro e e' he he' hle
    obtain ⟨p, hp, hpe⟩ := hPe e he
    obtain ⟨p', hp', hpe'⟩ := hPe e' he'
    simp only [Function.comp, hpe, hpe']
    rw [norm3_eq_dist3, norm3_eq_dist3]
    exact hle p p' hp hp'

example (A : ArgSort) := C86_handled_cells A exL exAtoms 3 (fun _ => true) (exL_ok _ (Or.inl rfl))
  (by norm_num)

example (A : ArgSort) : ∃ N umax info, NbrLists.makeWith A (CStruct.make exL exAtoms true) 3 (fun _ => 3 / 2)
    (fun _ => true) true = .ok N ∧ N.maxNum ≤ umax ∧ N.findInfo umax = .ok info ∧
    0 < (CStruct.make exL exAtoms true).atoms.length := by
  obtain ⟨N, h, h'⟩ := C86_handled_cells A exL exAtoms 3 (fun _ => true) (exL_ok _ (Or.inl rfl)) (by norm_num)
  obtain ⟨info, hi, _⟩ := h' N.maxNum le_rfl
  exact ⟨N, N.maxNum, info, h, le_rfl, hi, by simp [CStruct.make, exAtoms]⟩

/-! ## C87 -/

/-- C87 fails: nothing compares the array width with the number of neighbours. Whenever the last atom
has more neighbours than the width, `find_info4mlff` writes behind its array. -/
theorem C87_violated_unchecked_width (A : ArgSort) (s : CStruct) (rcut : ℝ) (pbc : Fin 3 → Bool) (sort : Bool)
    (N : NbrLists) (umax n : ℕ) (l : List ℤ) (_h : NbrLists.make A s rcut pbc sort = .ok N)
    (hn : N.bins.supercell.primNum = n + 1) (hl : N.lists[n]? = some l) (hw : umax < l.length) :
    N.findInfo umax = .error .outOfBounds := by
  apply findInfo_oob N umax n l hl
  · rw [hn, Nat.add_mul]; omega
  · intro h
    rw [h] at hw
    simp at hw

/-- The premises of `C87_violated_unchecked_width` are met: one atom in the cubic cell of edge 4, cutoff
5, has six neighbours; five columns overflow. -/
theorem C87_violated_example (A : ArgSort) (sort : Bool) :
    ∃ N, NbrLists.make A (CStruct.make (cube 4) [(1, ![0, 0, 0])] true) 5 (fun _ => true) sort = .ok N ∧
      N.findInfo 5 = .error .outOfBounds := by
  have hok : CellOk (cube 4) [(1, ![0, 0, 0])] (fun _ => true) := by
    refine ⟨by rw [cube_det]; norm_num, by simp, ?_, ?_, by simp⟩
    · intro a ha
      simp only [List.mem_cons, List.not_mem_nil, or_false] at ha
      subst ha
      refine ⟨0, by intro i; simp, ?_⟩
      funext p
      fin_cases p <;> simp [cartOf, cube]
    · intro p
      exact ⟨p, by fin_cases p <;> simp [cube]⟩
  obtain ⟨N, h1, h2, h3, I, h4, h5, _⟩ := nbr_exact A (cube 4) [(1, ![0, 0, 0])] 5 (fun _ => true) sort hok
    (by norm_num)
  refine ⟨N, h1, ?_⟩
  obtain ⟨imgs, g1, g2, g3, _⟩ := h5 0 _ rfl
  have hsub : ([(0, ![1, 0, 0]), (0, ![-1, 0, 0]), (0, ![0, 1, 0]), (0, ![0, -1, 0]), (0, ![0, 0, 1]),
      (0, ![0, 0, -1])] : List (ℕ × (Fin 3 → ℤ))) ⊆ imgs := by
    intro e he
    rw [g3]
    have key : ∀ t : Fin 3 → ℤ, t 0 ^ 2 + t 1 ^ 2 + t 2 ^ 2 = 1 →
        dist3 (imagePos (cube 4) ![0, 0, 0] t) ![0, 0, 0] ^ 2 = 16 := by
      intro t ht
      have ht' : (t 0 : ℝ) ^ 2 + (t 1 : ℝ) ^ 2 + (t 2 : ℝ) ^ 2 = 1 := by exact_mod_cast ht
      rw [dist3_sq_comp, imagePos_apply, imagePos_apply, imagePos_apply]
      simp [cube]
      nlinarith
    have hz : e.1 = 0 ∧ e.2 0 ^ 2 + e.2 1 ^ 2 + e.2 2 ^ 2 = 1 := by
      simp only [List.mem_cons, List.not_mem_nil, or_false] at he
      rcases he with rfl | rfl | rfl | rfl | rfl | rfl <;> simp
    have hd := key e.2 hz.2
    refine ⟨⟨by simp, ![0, 0, 0], by rw [hz.1]; rfl, ?_⟩, ?_⟩
    · have := dist3_nonneg (imagePos (cube 4) ![0, 0, 0] e.2) ![0, 0, 0]
      show dist3 (imagePos (cube 4) ![0, 0, 0] e.2) ![0, 0, 0] < 5
      nlinarith
    · intro p hp
      rw [hz.1] at hp
      cases hp
      show 1 / 1000 < dist3 (imagePos (cube 4) ![0, 0, 0] e.2) ![0, 0, 0] ^ 2
      rw [hd]; norm_num
  have hnd : ([(0, ![1, 0, 0]), (0, ![-1, 0, 0]), (0, ![0, 1, 0]), (0, ![0, -1, 0]), (0, ![0, 0, 1]),
      (0, ![0, 0, -1])] : List (ℕ × (Fin 3 → ℤ))).Nodup := by decide
  have hlen : 6 ≤ imgs.length := (List.subperm_of_subset hnd hsub).length_le
  have hl0 : N.lists.length = 1 := h2
  have hl1 : N.lists[0]? = some N.lists[0] := List.getElem?_eq_getElem (by omega)
  have hlen2 : N.lists[0].length = imgs.length := by
    have := congrArg (fun l => l[0]?) h4
    simp only [List.getElem?_map, g1, hl1, Option.map_some, Option.some.injEq] at this
    exact this
  exact C87_violated_unchecked_width A _ 5 _ sort N 5 0 _ h1 (by rw [h3]; rfl) hl1 (by omega)

/-- C87, the part that holds: arrays of at least `get_max_num_neigh_atoms()` columns never overflow. -/
theorem C87_wide_enough_partial (A : ArgSort) (L : Fin 3 → Vec ℝ) (atoms : List (ℤ × Vec ℝ)) (rcut : ℝ)
    (pbc : Fin 3 → Bool) (sort : Bool) (hok : CellOk L atoms pbc) (hr : 0 < rcut) :
    ∃ N, NbrLists.make A (CStruct.make L atoms true) rcut pbc sort = .ok N ∧
      ∀ umax : ℕ, N.maxNum ≤ umax → ∃ info, N.findInfo umax = .ok info := by
  obtain ⟨N, h1, _, _, I, h4, _, _, h6⟩ := nbr_exact A L atoms rcut pbc sort hok hr
  refine ⟨N, h1, fun umax hu => ?_⟩
  obtain ⟨info, f1, _⟩ := h6 umax (by
    intro imgs hm
    refine le_trans ?_ hu
    unfold NbrLists.maxNum
    rw [h4]
    exact le_runningMax (List.mem_map_of_mem hm))
  exact ⟨info, f1⟩

example (A : ArgSort) := C87_wide_enough_partial A exL exAtoms 3 (fun _ => true) true
  (exL_ok _ (Or.inl rfl)) (by norm_num)

/-! ## C88 -/

/-- C88: `get_max_num_neigh_atoms_ssss` is the largest number of neighbours of the second element that
an atom of the first element has. -/
theorem C88_max_neighbours_partial (A : ArgSort) (L : Fin 3 → Vec ℝ) (atoms : List (ℤ × Vec ℝ)) (rcut : ℝ)
    (pbc : Fin 3 → Bool) (sort : Bool) (hok : CellOk L atoms pbc) (hr : 0 < rcut)
    (hap : ApartImages L (atoms.map Prod.snd)) (cz nz : ℤ) :
    ∃ N m, NbrLists.make A (CStruct.make L atoms true) rcut pbc sort = .ok N ∧ N.maxNumOf cz nz = .ok m ∧
      ∃ cnt : ℕ → ℕ,
        (∀ (i : ℕ) (c : ℤ × Vec ℝ), atoms[i]? = some c → ∃ imgs : List (ℕ × (Fin 3 → ℤ)), imgs.Nodup ∧
          (∀ e, e ∈ imgs ↔ NearBy L pbc (atoms.map Prod.snd) rcut c.2 e ∧ e ≠ (i, 0) ∧
            (atoms[e.1]?).map Prod.fst = some nz) ∧ cnt i = imgs.length) ∧
        (∀ (i : ℕ) (c : ℤ × Vec ℝ), atoms[i]? = some c → c.1 = cz → cnt i ≤ m) ∧
        (m = 0 ∨ ∃ (i : ℕ) (c : ℤ × Vec ℝ), atoms[i]? = some c ∧ c.1 = cz ∧ cnt i = m) := by
  obtain ⟨N, h1, h2, _, I, h4, h5, h6, _⟩ := nbr_exact A L atoms rcut pbc sort hok hr
  have hIlen : I.length = atoms.length := by
    have := congrArg List.length h4
    simp only [List.length_map] at this
    rw [← this, h2]
  set f : List (ℕ × (Fin 3 → ℤ)) → ℕ := fun l =>
    l.countP (fun x => decide ((atoms[x.1]?).map Prod.fst = some nz)) with hf
  set cs := I.zipIdx.map (fun e => if (atoms[e.2]?).map Prod.fst = some cz then f e.1 else 0) with hcs
  refine ⟨N, runningMax cs, h1, h6 cz nz, fun i => f ((I[i]?).getD []), ?_, ?_, ?_⟩
  · intro i c hc
    obtain ⟨imgs, g1, g2, g3, _⟩ := h5 i c hc
    have hci : (atoms.map Prod.snd)[i]? = some c.2 := by rw [List.getElem?_map, hc]; rfl
    refine ⟨imgs.filter (fun x => decide ((atoms[x.1]?).map Prod.fst = some nz)), g2.filter _, ?_, ?_⟩
    · intro e
      rw [List.mem_filter, g3, decide_eq_true_eq]
      constructor
      · rintro ⟨⟨k1, k2⟩, k3⟩
        refine ⟨k1, ?_, k3⟩
        rintro rfl
        have := k2 c.2 hci
        rw [imagePos_zero, dist3_sq_comp] at this
        norm_num at this
      · rintro ⟨k1, k2, k3⟩
        exact ⟨⟨k1, fun p hp => hap i e.1 c.2 p e.2 hci hp k2⟩, k3⟩
    · simp only [g1, Option.getD_some, hf, List.countP_eq_length_filter]
  · intro i c hc hz
    obtain ⟨imgs, g1, _⟩ := h5 i c hc
    apply le_runningMax
    rw [hcs, List.mem_map]
    refine ⟨(imgs, i), List.mk_mem_zipIdx_iff_getElem?.2 g1, ?_⟩
    simp [hc, hz, g1]
  · by_cases hne : cs = []
    · left; rw [hne]; rfl
    · have hmem := runningMax_mem hne
      rw [hcs, List.mem_map] at hmem
      obtain ⟨⟨imgs, i⟩, hm, he⟩ := hmem
      have g1 := List.mk_mem_zipIdx_iff_getElem?.1 hm
      simp only at he
      split_ifs at he with hz
      · right
        obtain ⟨c, hc, hcz⟩ := Option.map_eq_some_iff.1 hz
        refine ⟨i, c, hc, hcz, ?_⟩
        simp only [g1, Option.getD_some]
        exact he
      · left; exact he.symm

example (A : ArgSort) := C88_max_neighbours_partial A exL exAtoms 3 (fun _ => true) true
  (exL_ok _ (Or.inl rfl)) (by norm_num) exL_apart 3 8

/-- C88 fails for very close atoms: of two atoms of one element 0.03 apart each has the other within the
cutoff 1, and the maximum returned is 0. -/
theorem C88_violated_close_atoms (A : ArgSort) (sort : Bool) :
    (∃ N, NbrLists.make A (CStruct.make (cube 4) [(1, ![0, 0, 0]), (1, ![3 / 100, 0, 0])] true) 1
        (fun _ => true) sort = .ok N ∧ N.maxNumOf 1 1 = .ok 0) ∧
    NearBy (cube 4) (fun _ => true) [![0, 0, 0], ![3 / 100, 0, 0]] 1 ![0, 0, 0] (1, 0) := by
  obtain ⟨⟨N, info, h1, _, _, h4⟩, h⟩ := close_atoms A sort
  exact ⟨⟨N, h1, h4⟩, h⟩

/-! ## C89 -/

/-- C89: the list is symmetric: atom `j` occurs among the neighbours of atom `i` as often as `i` occurs
among those of `j`. -/
theorem C89_symmetric_partial (A : ArgSort) (L : Fin 3 → Vec ℝ) (atoms : List (ℤ × Vec ℝ)) (rcut : ℝ)
    (pbc : Fin 3 → Bool) (sort : Bool) (hok : CellOk L atoms pbc) (hr : 0 < rcut) :
    ∃ N, NbrLists.make A (CStruct.make L atoms true) rcut pbc sort = .ok N ∧
      ∀ umax : ℕ, N.maxNum ≤ umax → ∃ info, N.findInfo umax = .ok info ∧
        ∀ i j : ℕ, i < atoms.length → j < atoms.length →
          (flatRow info.firstneigh umax i).count (j : ℤ) = (flatRow info.firstneigh umax j).count (i : ℤ) := by
  obtain ⟨N, h1, _, _, I, h4, h5, _, h6⟩ := nbr_exact A L atoms rcut pbc sort hok hr
  refine ⟨N, h1, ?_⟩
  intro umax hu
  have hI : ∀ imgs ∈ I, imgs.length ≤ umax := by
    intro imgs hm
    refine le_trans ?_ hu
    unfold NbrLists.maxNum
    rw [h4]
    exact le_runningMax (List.mem_map_of_mem hm)
  obtain ⟨info, f1, _, _, _, _, f5, f6⟩ := h6 umax hI
  refine ⟨info, f1, ?_⟩
  intro i j hi hj
  have hci := List.getElem?_eq_getElem hi
  have hcj := List.getElem?_eq_getElem hj
  obtain ⟨imi, gi1, gi2, gi3, _⟩ := h5 i _ hci
  obtain ⟨imj, gj1, gj2, gj3, _⟩ := h5 j _ hcj
  have ri := (f6 i _ imi hci gi1).1
  have rj := (f6 j _ imj hcj gj1).1
  have hcount : ∀ (l : List (ℕ × (Fin 3 → ℤ))) (n k : ℕ),
      (l.map (fun e : ℕ × (Fin 3 → ℤ) => (e.1 : ℤ)) ++ List.replicate n (-1)).count (k : ℤ)
        = (l.filter (fun e => decide (e.1 = k))).length := by
    intro l n k
    have hrep : (List.replicate n (-1 : ℤ)).count (k : ℤ) = 0 := by
      rw [List.count_eq_zero]
      intro h
      have := List.eq_of_mem_replicate h
      omega
    rw [List.count_append, hrep, add_zero, List.count, List.countP_map, List.countP_eq_length_filter]
    congr 1
    apply List.filter_congr
    intro e _
    by_cases h : e.1 = k
    · simp [h]
    · have h' : ¬ (e.1 : ℤ) = (k : ℤ) := by exact_mod_cast h
      simp [h, h']
  rw [ri, rj, hcount, hcount]
  have hpi : (atoms.map Prod.snd)[i]? = some atoms[i].2 := by rw [List.getElem?_map, hci]; rfl
  have hpj : (atoms.map Prod.snd)[j]? = some atoms[j].2 := by rw [List.getElem?_map, hcj]; rfl
  have hmem : ∀ t : Fin 3 → ℤ, (j, t) ∈ imi ↔ (i, -t) ∈ imj := by
    intro t
    rw [gi3, gj3]
    unfold NearBy
    simp only [hpi, hpj, Option.some.injEq, exists_eq_left', forall_eq', dist3_imagePos_neg, Pi.neg_apply,
      neg_eq_zero]
  rw [← List.length_map (f := fun e : ℕ × (Fin 3 → ℤ) => (i, -e.2))]
  apply List.Perm.length_eq
  rw [List.perm_ext_iff_of_nodup]
  · rintro ⟨a, t⟩
    rw [List.mem_map, List.mem_filter]
    constructor
    · rintro ⟨⟨b, u⟩, hm, he⟩
      rw [List.mem_filter] at hm
      obtain ⟨hm, hb⟩ := hm
      simp only [decide_eq_true_eq] at hb
      subst hb
      cases he
      exact ⟨(hmem u).1 hm, by simp⟩
    · rintro ⟨hm, ha⟩
      simp only [decide_eq_true_eq] at ha
      subst ha
      refine ⟨(j, -t), ?_, by simp⟩
      rw [List.mem_filter]
      refine ⟨(hmem (-t)).2 (by rw [neg_neg]; exact hm), by simp⟩
  · refine List.Nodup.map_on ?_ (gi2.filter _)
    rintro ⟨a, t⟩ ha ⟨b, u⟩ hb he
    rw [List.mem_filter] at ha hb
    have ha' : a = j := by simpa using ha.2
    have hb' : b = j := by simpa using hb.2
    simp only [Prod.mk.injEq, neg_inj, true_and] at he
    rw [ha', hb', he]
  · exact gj2.filter _

example (A : ArgSort) := C89_symmetric_partial A exL exAtoms 3 (fun _ => true) true
  (exL_ok _ (Or.inl rfl)) (by norm_num)

/-- The cubic cell of edge 2 with the first vector pointing backwards. -/
def backL : Fin 3 → Vec ℝ := ![![-2, 0, 0], ![0, 2, 0], ![0, 0, 2]]

/-- C89 fails for a cell whose vectors point backwards along an axis: with atoms at the origin and at
`(-1/2, 0, 0)`, both inside the cell, and cutoff 1, the first lists the second, but not the other way
round. -/
theorem C89_violated_backward_cell (A : ArgSort) :
    (Matrix.of backL).det ≠ 0 ∧ InCell backL ![0, 0, 0] ∧ InCell backL ![-1 / 2, 0, 0] ∧
    ∃ N info, NbrLists.make A (CStruct.make backL [(1, ![0, 0, 0]), (1, ![-1 / 2, 0, 0])] true) 1
        (fun _ => false) false = .ok N ∧ N.maxNum ≤ 1 ∧ N.findInfo 1 = .ok info ∧
      (flatRow info.firstneigh 1 0).count 1 = 1 ∧ (flatRow info.firstneigh 1 1).count 0 = 0 := by
  refine ⟨by simp [Matrix.det_fin_three, backL], ⟨0, by intro i; simp, by
    funext p; fin_cases p <;> simp [cartOf]⟩, ⟨![1 / 4, 0, 0], by intro i; fin_cases i <;> norm_num, by
    funext p; fin_cases p <;> simp [cartOf, Fin.sum_univ_three, backL]; norm_num⟩, ?_⟩
  set s := CStruct.make backL [(1, ![0, 0, 0]), (1, ![-1 / 2, 0, 0])] true with hs
  have hat : s.atoms = [(1, ![0, 0, 0]), (1, ![-1 / 2, 0, 0])] := rfl
  have hsc : binScaling s 1 (fun _ => false) = fun _ => 1 := by funext p; rfl
  have hl1 : superLo 1 = 0 := by decide
  have hS : (s.makeSupercell (fun _ => 1)).atoms = [(1, ![0, 0, 0]), (1, ![-1 / 2, 0, 0])] := by
    rw [superAtoms_eq]
    have : superShifts (fun _ => 1) = [0] := by decide
    rw [this, hat]
    simp only [List.flatMap_cons, List.flatMap_nil, List.append_nil, List.map_cons, List.map_nil, imagePos_zero]
  have hproj : ∀ p, (s.makeSupercell (fun _ => 1)).projected p = 2 := by
    intro p
    fin_cases p <;> simp [CStruct.projected, CStruct.makeSupercell, hs, CStruct.make, backL]
  have hmin : ∀ p, (s.makeSupercell (fun _ => 1)).minLimit p = (![-2, 0, 0] : Vec ℝ) p := by
    intro p
    rw [minLimit_eq]
    fin_cases p <;> simp [CStruct.makeSupercell, hs, CStruct.make, backL, Fin.sum_univ_three, hl1]
  have hmin' : (s.makeSupercell (fun _ => 1)).minLimit = (![-2, 0, 0] : Vec ℝ) := funext hmin
  have hnb : (fun p => ⌈(s.makeSupercell (fun _ => 1)).projected p / ((1 : ℝ) / 2)⌉) = fun _ : Fin 3 => (4 : ℤ) := by
    funext p
    rw [hproj]
    norm_num
  have hb0 : binIdx ![-2, 0, 0] (fun _ => (1 : ℝ) / 2) ![0, 0, 0] = ![4, 0, 0] := by
    funext p
    unfold binIdx
    fin_cases p <;> simp
    norm_num
  have hb1 : binIdx ![-2, 0, 0] (fun _ => (1 : ℝ) / 2) ![-1 / 2, 0, 0] = ![3, 0, 0] := by
    funext p
    unfold binIdx
    fin_cases p <;> simp
    norm_num
  have hint := interplanar_pos s (by simp [Matrix.det_fin_three, hs, CStruct.make, backL])
  obtain ⟨heads, nexts, hfill, hheads, hnexts⟩ : ∃ heads nexts,
      fillBins [4, 3] 0 (List.replicate 64 (-1)) (List.replicate 2 (-1)) = .ok (heads, nexts) ∧
      heads = ((List.replicate 64 (-1)).set 4 0).set 3 1 ∧ nexts = [-1, -1] := ⟨_, _, by decide, rfl, rfl⟩
  set B : BinList := ⟨CSupercell.make s (fun _ => 1), 1, fun _ => 1 / 2, fun _ => false, fun _ => 4,
    ![-2, 0, 0], heads, nexts⟩ with hBdef
  have hB : BinList.make s 1 (fun _ => 1 / 2) (fun _ => false) = .ok B := by
    unfold BinList.make
    rw [if_neg (by simp [hat]), if_neg (by
      push Not
      exact ⟨by norm_num, by intro p; norm_num, hint⟩)]
    simp only [hsc, CSupercell.make, hnb, hmin']
    rw [hS]
    simp only [List.map_cons, List.map_nil, hb0, hb1, List.length_cons, List.length_nil]
    have e : fillBins [linIdx (fun _ => 4) ![4, 0, 0], linIdx (fun _ => 4) ![3, 0, 0]] 0
        (List.replicate (4 * 4 * 4 : ℤ).toNat (-1)) (List.replicate (0 + 1 + 1) (-1)) = .ok (heads, nexts) := hfill
    have hnb' : ∀ p, ⌈(s.makeSupercell (fun _ => 1)).projected p / ((1 : ℝ) / 2)⌉ = 4 := congrFun hnb
    simp only [hnb']
    rw [e]
    rfl
  have hc0 : B.centre 0 = .ok ![0, 0, 0] := by
    unfold BinList.centre
    simp only [hBdef, CSupercell.make]
    rw [hS]
    rfl
  have hc1 : B.centre 1 = .ok ![-1 / 2, 0, 0] := by
    unfold BinList.centre
    simp only [hBdef, CSupercell.make]
    rw [hS]
    rfl
  have hext : B.ext = fun _ => 2 := by
    funext p
    unfold BinList.ext
    simp only [hBdef]
    norm_num
  have hn0 : B.neighBins 0 = .ok (B.neighBinsOf ![4, 0, 0]) := by
    unfold BinList.neighBins
    rw [if_neg (by simp [hBdef, CSupercell.make, hat]), hc0, ok_bind]
    simp only [hBdef, CSupercell.make, hmin', hb0]
    rfl
  have hn1 : B.neighBins 1 = .ok (B.neighBinsOf ![3, 0, 0]) := by
    unfold BinList.neighBins
    rw [if_neg (by simp [hBdef, CSupercell.make, hat]), hc1, ok_bind]
    simp only [hBdef, CSupercell.make, hmin', hb1]
    rfl
  have hBatoms : B.supercell.struct.atoms = [(1, ![0, 0, 0]), (1, ![-1 / 2, 0, 0])] := hS
  have hclose : B.close ![0, 0, 0] ![0, 0, 0] = false ∧ B.close ![0, 0, 0] ![-1 / 2, 0, 0] = true ∧
      B.close ![-1 / 2, 0, 0] ![-1 / 2, 0, 0] = false ∧ B.close ![-1 / 2, 0, 0] ![0, 0, 0] = true := by
    unfold BinList.close
    refine ⟨?_, ?_, ?_, ?_⟩ <;> simp [cDist2, hBdef] <;> norm_num
  have hother : ∀ (c : Vec ℝ) (b : ℤ), -1 ≤ b → b < 64 → b ≠ 3 → b ≠ 4 → B.fromBin c b = .ok [] := by
    intro c b h1 h2 h3 h4
    unfold BinList.fromBin
    split
    · rfl
    · rename_i hb
      have : cGet B.heads b = .ok (-1) := by
        simp only [hBdef, hheads]
        obtain ⟨n, rfl⟩ : ∃ n : ℕ, b = n := ⟨b.toNat, by omega⟩
        refine cGet_nat ?_
        rw [List.getElem?_set_ne (by omega), List.getElem?_set_ne (by omega), List.getElem?_replicate,
          if_pos (by omega)]
      rw [this, ok_bind, show walkBin B.nexts B.nexts.length (-1) = .ok [] by simp only [hBdef, hnexts]; decide]
      rfl
  have h3 : ∀ c, B.fromBin c 3 = .ok (if B.close c ![-1 / 2, 0, 0] then [1] else []) := by
    intro c
    unfold BinList.fromBin
    rw [if_neg (by decide), show cGet B.heads 3 = .ok 1 by simp only [hBdef, hheads]; decide, ok_bind,
      show walkBin B.nexts B.nexts.length 1 = .ok [1] by simp only [hBdef, hnexts]; decide, ok_bind, hBatoms]
    simp only [List.mapM_cons, List.mapM_nil]
    show Except.ok _ = Except.ok _
    simp only [List.filter_cons, List.filter_nil]
    split <;> simp_all
  have h4 : ∀ c, B.fromBin c 4 = .ok (if B.close c ![0, 0, 0] then [0] else []) := by
    intro c
    unfold BinList.fromBin
    rw [if_neg (by decide), show cGet B.heads 4 = .ok 0 by simp only [hBdef, hheads]; decide, ok_bind,
      show walkBin B.nexts B.nexts.length 0 = .ok [0] by simp only [hBdef, hnexts]; decide, ok_bind, hBatoms]
    simp only [List.mapM_cons, List.mapM_nil]
    show Except.ok _ = Except.ok _
    simp only [List.filter_cons, List.filter_nil]
    split <;> simp_all
  have hbins : ∀ b, B.neighBinsOf b = (cRange3 (fun _ => -2) (fun _ => 2)).map fun o =>
      if (0 ≤ b 0 + o 0 ∧ b 0 + o 0 < 4) ∧ (0 ≤ b 1 + o 1 ∧ b 1 + o 1 < 4) ∧ (0 ≤ b 2 + o 2 ∧ b 2 + o 2 < 4)
      then (b 0 + o 0) + (b 1 + o 1) * 4 + (b 2 + o 2) * 4 * 4 else -1 := by
    intro b
    unfold BinList.neighBinsOf
    rw [hext]
    rfl
  have hlist : ∀ (c : Vec ℝ) (b : Fin 3 → ℤ), (B.neighBinsOf b).mapM (B.fromBin c)
      = .ok ((B.neighBinsOf b).map (fun k => if k = 3 then (if B.close c ![-1 / 2, 0, 0] then [1] else [])
          else if k = 4 then (if B.close c ![0, 0, 0] then [0] else []) else [])) := by
    intro c b
    apply mapM_map_ok
    intro k hk
    split
    · rename_i e; rw [e]; exact h3 c
    split
    · rename_i e; rw [e]; exact h4 c
    · rename_i e3 e4
      refine hother c k ?_ ?_ e3 e4
      all_goals
        rw [hbins, List.mem_map] at hk
        obtain ⟨o, _, rfl⟩ := hk
        split <;> omega
  have g0 : B.neighAtoms 0 = .ok [1] := by
    unfold BinList.neighAtoms
    rw [hc0, ok_bind, hn0, ok_bind, hlist, ok_bind, hbins]
    simp only [hclose.1, hclose.2.1]
    decide +kernel
  have g1 : B.neighAtoms 1 = .ok [] := by
    unfold BinList.neighAtoms
    rw [hc1, ok_bind, hn1, ok_bind, hlist, ok_bind, hbins]
    simp only [hclose.2.2.1, hclose.2.2.2]
    decide +kernel
  have hN : NbrLists.build A B false = .ok ⟨B, [[1], []]⟩ := by
    unfold NbrLists.build
    have : List.range B.supercell.primNum = [0, 1] := rfl
    rw [this]
    simp only [List.mapM_cons, List.mapM_nil, g0, g1]
    rfl
  have hl : (⟨B, [[1], []]⟩ : NbrLists).lists = [[1], []] := rfl
  obtain ⟨info, hinfo, hfirst⟩ : ∃ info, (⟨B, [[1], []]⟩ : NbrLists).findInfo 1 = .ok info ∧
      info.firstneigh = [1, -1] := by
    unfold NbrLists.findInfo
    simp only [hBatoms]
    have : B.supercell.primNum = 2 := rfl
    rw [this]
    simp only [List.zipIdx_cons, List.zipIdx_nil, List.mapM_cons, List.mapM_nil, zero_add, hc0, hc1]
    exact ⟨_, rfl, rfl⟩
  refine ⟨_, info, ?_, by show runningMax [1, 0] ≤ 1; decide, hinfo, ?_, ?_⟩
  · unfold NbrLists.make NbrLists.makeWith
    rw [hB, ok_bind, hN]
  · rw [hfirst]; decide
  · rw [hfirst]; decide

end MaterSDK
