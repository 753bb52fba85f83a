import Verif.Props.CrystalCpp

/-! # C215: the C++ features of a supercell -/

namespace MaterSDK

open Classical

/-! ## Supercells whose atoms stay inside the cell -/

theorem superLo_small {n : ℤ} (h : n = 1 ∨ n = 2) : superLo n = 0 ∧ superHi n = n - 1 := by
  rcases h with rfl | rfl <;> decide

theorem supercell_basis (L : Fin 3 → Vec ℝ) (atoms : List (ℤ × Vec ℝ)) (sc : Fin 3 → ℤ) (i : Fin 3) :
    ((CStruct.make L atoms true).makeSupercell sc).basis i = (sc i : ℝ) • L i := by
  funext p
  simp [CStruct.makeSupercell, CStruct.make, mul_comm]

theorem supercell_det (L : Fin 3 → Vec ℝ) (atoms : List (ℤ × Vec ℝ)) (sc : Fin 3 → ℤ) (h : ∀ i, 0 < sc i)
    (hL : (Matrix.of L).det ≠ 0) : (Matrix.of ((CStruct.make L atoms true).makeSupercell sc).basis).det ≠ 0 := by
  have e : Matrix.of ((CStruct.make L atoms true).makeSupercell sc).basis
      = Matrix.diagonal (fun i => (sc i : ℝ)) * Matrix.of L := by
    ext i p
    simp [CStruct.makeSupercell, CStruct.make, Matrix.diagonal_mul, mul_comm]
  rw [e, Matrix.det_mul, Matrix.det_diagonal]
  refine mul_ne_zero (Finset.prod_ne_zero_iff.2 fun i _ => ?_) hL
  have := (h i).ne'
  exact_mod_cast this

theorem imagePos_super (L : Fin 3 → Vec ℝ) (atoms : List (ℤ × Vec ℝ)) (sc : Fin 3 → ℤ) (p : Vec ℝ)
    (t u : Fin 3 → ℤ) : imagePos ((CStruct.make L atoms true).makeSupercell sc).basis (imagePos L p t) u
      = imagePos L p (fun i => t i + u i * sc i) := by
  unfold imagePos
  rw [add_assoc, ← Finset.sum_add_distrib]
  congr 1
  refine Finset.sum_congr rfl fun i _ => ?_
  rw [supercell_basis, smul_smul, ← add_smul]
  push_cast
  rfl

/-- The supercell describes the same crystal. -/
theorem typedCrystal_super (L : Fin 3 → Vec ℝ) (atoms : List (ℤ × Vec ℝ)) (sc : Fin 3 → ℤ) (h : ∀ i, 0 < sc i) :
    typedCrystal ((CStruct.make L atoms true).makeSupercell sc).basis
      ((CStruct.make L atoms true).makeSupercell sc).atoms = typedCrystal L atoms := by
  obtain ⟨_, T, _, _, hT, hat⟩ := C85_supercell_same_crystal (CStruct.make L atoms true) sc h
  rw [hat]
  ext x
  constructor
  · rintro ⟨b, hb, n, rfl⟩
    obtain ⟨t, _, hb⟩ := List.mem_flatMap.1 hb
    obtain ⟨a, ha, rfl⟩ := List.mem_map.1 hb
    refine ⟨a, ha, fun i => t i + n i * sc i, ?_⟩
    rw [← imagePos, ← imagePos]
    exact Prod.ext rfl (imagePos_super L atoms sc a.2 t n)
  · rintro ⟨a, ha, n, rfl⟩
    obtain ⟨t, ht, hd, _⟩ := hT n
    choose u hu using hd
    refine ⟨(a.1, imagePos L a.2 t), List.mem_flatMap.2 ⟨t, ht, List.mem_map.2 ⟨a, ha, rfl⟩⟩, u, ?_⟩
    rw [← imagePos, ← imagePos, imagePos_super]
    congr 2
    funext i
    have := hu i
    linarith [mul_comm (sc i) (u i)]

theorem superShifts_small {sc : Fin 3 → ℤ} (h : ∀ i, sc i = 1 ∨ sc i = 2) {t : Fin 3 → ℤ}
    (ht : t ∈ superShifts sc) (i : Fin 3) : 0 ≤ t i ∧ t i ≤ sc i - 1 := by
  unfold superShifts at ht
  rw [mem_cRange3] at ht
  have := ht i
  simp only [(superLo_small (h i)).1, (superLo_small (h i)).2] at this
  exact this

theorem supercell_ok (L : Fin 3 → Vec ℝ) (atoms : List (ℤ × Vec ℝ)) (sc : Fin 3 → ℤ)
    (h : ∀ i, sc i = 1 ∨ sc i = 2) (hok : CellOk L atoms (fun _ => true)) :
    CellOk ((CStruct.make L atoms true).makeSupercell sc).basis ((CStruct.make L atoms true).makeSupercell sc).atoms
      (fun _ => true) := by
  have hpos : ∀ i, 0 < sc i := fun i => by rcases h i with e | e <;> rw [e] <;> norm_num
  have hposR : ∀ i, (0 : ℝ) < sc i := fun i => by exact_mod_cast hpos i
  refine ⟨supercell_det L atoms sc hpos hok.nonsing, ?_, ?_, ?_, by simp⟩
  · rw [superAtoms_eq]
    obtain ⟨a, ha⟩ := List.exists_mem_of_ne_nil _ hok.nonempty
    refine List.ne_nil_of_mem (a := (a.1, imagePos L a.2 0)) (List.mem_flatMap.2 ⟨0, ?_, List.mem_map.2 ⟨a, ha, rfl⟩⟩)
    unfold superShifts
    rw [mem_cRange3]
    intro i
    obtain ⟨h1, h2, _⟩ := super_range (hpos i)
    exact ⟨h1, h2⟩
  · intro b hb
    rw [superAtoms_eq] at hb
    obtain ⟨t, ht, hb⟩ := List.mem_flatMap.1 hb
    obtain ⟨a, ha, rfl⟩ := List.mem_map.1 hb
    obtain ⟨f, f1, f2⟩ := hok.inCell a ha
    refine ⟨fun i => (f i + t i) / sc i, ?_, ?_⟩
    · intro i
      obtain ⟨h1, h2⟩ := superShifts_small h ht i
      have h1' : (0 : ℝ) ≤ t i := by exact_mod_cast h1
      have h2' : (t i : ℝ) ≤ sc i - 1 := by exact_mod_cast h2
      exact ⟨div_nonneg (by linarith [(f1 i).1]) (hposR i).le, by
        rw [div_lt_one (hposR i)]; linarith [(f1 i).2]⟩
    · show imagePos L a.2 t = _
      unfold imagePos cartOf
      rw [f2, cartOf, ← Finset.sum_add_distrib]
      refine Finset.sum_congr rfl fun i _ => ?_
      rw [supercell_basis, smul_smul, div_mul_cancel₀ _ (hposR i).ne', add_smul]
  · intro p
    obtain ⟨q, hq⟩ := hok.dir p
    refine ⟨q, ?_⟩
    rw [supercell_basis]
    exact mul_pos (hposR q) hq

theorem supercell_apart (L : Fin 3 → Vec ℝ) (atoms : List (ℤ × Vec ℝ)) (sc : Fin 3 → ℤ) (h : ∀ i, 0 < sc i)
    (hap : ApartImages L (atoms.map Prod.snd)) :
    ApartImages ((CStruct.make L atoms true).makeSupercell sc).basis
      (((CStruct.make L atoms true).makeSupercell sc).atoms.map Prod.snd) := by
  intro i j p q u hi hj hne
  rw [List.getElem?_map, Option.map_eq_some_iff] at hi hj
  obtain ⟨b, hb, rfl⟩ := hi
  obtain ⟨b', hb', rfl⟩ := hj
  obtain ⟨t, a, t1, t2, rfl⟩ := superAtoms_get_inv _ sc hb
  obtain ⟨t', a', t1', t2', rfl⟩ := superAtoms_get_inv _ sc hb'
  have hlen : (CStruct.make L atoms true).atoms = atoms := rfl
  have hbas : (CStruct.make L atoms true).basis = L := rfl
  rw [hlen] at t1 t1' t2 t2'
  simp only [hbas]
  have e : dist3 (imagePos ((CStruct.make L atoms true).makeSupercell sc).basis (imagePos L a'.2 t') u)
      (imagePos L a.2 t) = dist3 (imagePos L a'.2 (fun i => t' i + u i * sc i - t i)) a.2 := by
    rw [imagePos_super, dist3_rel, dist3_rel (imagePos L a'.2 _) a.2]
    congr 1
    unfold imagePos
    simp only [Int.cast_sub, sub_smul, Finset.sum_sub_distrib]
    abel
  rw [e]
  refine hap (i % atoms.length) (j % atoms.length) a.2 a'.2 _ (by rw [List.getElem?_map, t2]; rfl)
    (by rw [List.getElem?_map, t2']; rfl) ?_
  intro heq
  rw [Prod.mk.injEq] at heq
  obtain ⟨h1, h2⟩ := heq
  have hm : ∀ {t : Fin 3 → ℤ} {k : ℕ}, (superShifts sc)[k]? = some t → ∀ i, superLo (sc i) ≤ t i ∧ t i ≤ superHi (sc i) := by
    intro t k hk
    have := List.mem_of_getElem? hk
    unfold superShifts at this
    exact mem_cRange3.1 this
  have hu : ∀ a, u a = 0 := by
    intro a
    have h3 := congrFun h2 a
    simp only [Pi.zero_apply] at h3
    have h4 := hm t1 a
    have h5 := hm t1' a
    obtain ⟨_, _, h6⟩ := super_range (h a)
    have h7 := h a
    rcases lt_trichotomy (u a) 0 with h8 | h8 | h8
    · nlinarith
    · exact h8
    · nlinarith
  have htt : t' = t := by
    funext a
    have h3 := congrFun h2 a
    simp only [Pi.zero_apply, hu a] at h3
    linarith
  subst htt
  have hidx : j / atoms.length = i / atoms.length := by
    have l1 := (List.getElem?_eq_some_iff.1 t1).1
    have l2 := (List.getElem?_eq_some_iff.1 t1').1
    have hnd : (superShifts sc).Nodup := cRange3_nodup _ _
    exact (hnd.getElem_inj_iff (hi := l2) (hj := l1)).1
      (by rw [(List.getElem?_eq_some_iff.1 t1).2, (List.getElem?_eq_some_iff.1 t1').2])
  apply hne
  rw [Prod.mk.injEq]
  refine ⟨?_, funext hu⟩
  rw [← Nat.div_add_mod i atoms.length, ← Nat.div_add_mod j atoms.length, hidx, h1]

theorem rotateRow_one (x : Fin 4 → ℝ) : rotateRow 1 x = x := by
  funext i
  fin_cases i <;> simp [rotateRow]

theorem rotateDeriv_one (M : Matrix (Fin 4) (Fin 3) ℝ) : rotateDeriv 1 M = M := by
  funext i k
  unfold rotateDeriv
  rw [rotateRow_one]
  simp

/-- C215: multiply a cell by 1 or 2 along every axis with `make_supercell` and hand the result to the neighbour list.
Then row `j n + i` of the environment matrix, the `j`-th copy of atom `i` of `n`, holds for every type the values and
derivatives of row `i` of the original cell, up to the order of the neighbours; with sorted lists the weights come in the
same order. Missing: larger factors, for which the neighbour list fails (`C215_violated`). -/
theorem C215_copies_partial (A A' : ArgSort) (L : Fin 3 → Vec ℝ) (atoms : List (ℤ × Vec ℝ)) (sc : Fin 3 → ℤ)
    (hsc : ∀ i, sc i = 1 ∨ sc i = 2) (rcut rs : ℝ) (hr : 0 < rcut)
    (sort sort' : Bool) (hok : CellOk L atoms (fun _ => true))
    (hap : ApartImages L (atoms.map Prod.snd))
    (umax : List ℕ) (hty : ∀ a ∈ atoms, 0 ≤ a.1 ∧ a.1 < umax.length)
    (hroom : CrystalRoom (typedCrystal L atoms) umax rcut) :
    ∃ N info out N' info' out',
      NbrLists.make A (CStruct.make L atoms true) rcut (fun _ => true) sort = .ok N ∧
      N.findInfo umax.sum = .ok info ∧
      envFind ⟨info.inum, info.numneigh.map (fun k : ℕ => (k : ℤ)), info.firstneigh, info.types,
        umax.map (fun m : ℕ => (m : ℤ))⟩ info.rel rcut rs = .ok out ∧
      NbrLists.make A' ((CStruct.make L atoms true).makeSupercell sc) rcut (fun _ => true) sort' = .ok N' ∧
      N'.findInfo umax.sum = .ok info' ∧
      envFind ⟨info'.inum, info'.numneigh.map (fun k : ℕ => (k : ℤ)), info'.firstneigh, info'.types,
        umax.map (fun m : ℕ => (m : ℤ))⟩ info'.rel rcut rs = .ok out' ∧
      (((CStruct.make L atoms true).makeSupercell sc).atoms.length : ℤ) = sc 0 * sc 1 * sc 2 * atoms.length ∧
      ∀ i j : ℕ, i < atoms.length → (j : ℤ) < sc 0 * sc 1 * sc 2 → ∀ (k m : ℕ), umax[k]? = some m →
          (typeSlots umax k (flatRow out' umax.sum (j * atoms.length + i))).Perm
            (typeSlots umax k (flatRow out umax.sum i)) ∧
          (sort = true → sort' = true →
            (typeSlots umax k (flatRow out' umax.sum (j * atoms.length + i))).map (fun x => x.1 0) =
              (typeSlots umax k (flatRow out umax.sum i)).map (fun x => x.1 0)) := by
  have hpos : ∀ i, 0 < sc i := fun i => by rcases hsc i with e | e <;> rw [e] <;> norm_num
  have hmk : (CStruct.make L atoms true).makeSupercell sc
      = CStruct.make ((CStruct.make L atoms true).makeSupercell sc).basis
        ((CStruct.make L atoms true).makeSupercell sc).atoms true := by
    have h0 := fun i => (superLo_small (hsc i)).1
    simp only [CStruct.make, CStruct.makeSupercell, h0, if_true]
    congr 1
    funext p
    simp
  have hcr := typedCrystal_super L atoms sc hpos
  obtain ⟨N, info, out, N', info', out', h1, h2, h3, h4, h5, h6, _, _, h9⟩ := C180_same_crystal_partial A A' L
    ((CStruct.make L atoms true).makeSupercell sc).basis atoms ((CStruct.make L atoms true).makeSupercell sc).atoms
    1 0 (by simp) rcut rs hr sort sort' hok (supercell_ok L atoms sc hsc hok) hap
    (supercell_apart L atoms sc hpos hap)
    (by intro t p; rw [hcr, Matrix.one_mulVec, add_zero]) umax hty hroom
  rw [← hmk] at h4
  have hlen : (CStruct.make L atoms true).atoms = atoms := rfl
  have hcount : ((superShifts sc).length : ℤ) = sc 0 * sc 1 * sc 2 := by
    unfold superShifts
    rw [cRange3_length]
    have e : ∀ p, (((superHi (sc p) - superLo (sc p) + 1).toNat : ℕ) : ℤ) = sc p := by
      intro p
      have := super_range (hpos p)
      have := hpos p
      omega
    push_cast
    rw [e, e, e]
    ring
  refine ⟨N, info, out, N', info', out', h1, h2, h3, h4, h5, h6, ?_, ?_⟩
  · rw [superAtoms_length, hlen]
    push_cast
    rw [hcount]
  · intro i j hi hj k m hk
    rw [← hcount] at hj
    have hj' : j < (superShifts sc).length := by exact_mod_cast hj
    have hat := superAtoms_get (CStruct.make L atoms true) sc (List.getElem?_eq_getElem hj')
      (List.getElem?_eq_getElem (l := (CStruct.make L atoms true).atoms) (by rw [hlen]; exact hi))
    change ((CStruct.make L atoms true).makeSupercell sc).atoms[j * atoms.length + i]? =
      some (atoms[i].1, imagePos L atoms[i].2 (superShifts sc)[j]) at hat
    obtain ⟨g1, g2⟩ := h9 i (j * atoms.length + i) _ _ (List.getElem?_eq_getElem hi) hat
      (Or.inr ⟨(superShifts sc)[j], by
        rw [Matrix.one_mulVec, add_zero]⟩) k m hk
    refine ⟨g1.trans (List.Perm.of_eq ?_), g2⟩
    refine (List.map_congr_left (g := id) ?_).trans (List.map_id _)
    rintro ⟨x, M⟩ _
    simp [rotateRow_one, rotateDeriv_one]

example (A : ArgSort) := C215_copies_partial A A exL exTyped ![2, 1, 2] (by decide) 3 1 (by norm_num) true true
  exTyped_ok exL_apart [2, 2] (by
    intro a ha
    simp only [exTyped, List.mem_cons, List.not_mem_nil, or_false] at ha
    rcases ha with rfl | rfl <;> simp) exTyped_room

/-! ## Larger supercells -/

/-- C215 fails for a factor of three or more along c, if c is parallel to z and the other lattice vectors are
perpendicular to it: `make_supercell` then puts copies below the cell, and the neighbour list of the result writes
outside its array of bins, whatever the atoms and the cutoff. -/
theorem C215_violated (A : ArgSort) (L : Fin 3 → Vec ℝ) (atoms : List (ℤ × Vec ℝ)) (pbc : Fin 3 → Bool)
    (hok : CellOk L atoms pbc) (hz : L 0 2 = 0 ∧ L 1 2 = 0 ∧ L 2 0 = 0 ∧ L 2 1 = 0) (sc : Fin 3 → ℤ)
    (h : ∀ i, 0 < sc i) (h3 : 3 ≤ sc 2) (rcut : ℝ) (hr : 0 < rcut) (sort : Bool) :
    NbrLists.make A ((CStruct.make L atoms true).makeSupercell sc) rcut pbc sort = .error .outOfBounds := by
  obtain ⟨z0, z1, z2, z3⟩ := hz
  set T := (CStruct.make L atoms true).makeSupercell sc with hT
  have hdet := supercell_det L atoms sc h hok.nonsing
  rw [← hT] at hdet
  have hposR : ∀ i, (0 : ℝ) < sc i := fun i => by exact_mod_cast h i
  have hL22 : 0 < L 2 2 := by
    obtain ⟨q, hq⟩ := hok.dir 2
    fin_cases q
    · exact absurd hq (by simp [z0])
    · exact absurd hq (by simp [z1])
    · exact hq
  set sc2 := binScaling T rcut pbc with hsc2
  have hpos2 : ∀ i, 0 < sc2 i := by
    intro i
    rw [hsc2]
    unfold binScaling
    split_ifs
    · norm_num
    · have : 0 < ⌈rcut / T.interplanar i⌉ := Int.ceil_pos.2 (div_pos hr (interplanar_pos T hdet i))
      omega
  have hposR2 : ∀ i, (0 : ℝ) < sc2 i := fun i => by exact_mod_cast hpos2 i
  have hb : ∀ i p, T.basis i p = L i p * sc i := fun i p => rfl
  have hb2 : ∀ i p, (T.makeSupercell sc2).basis i p = L i p * sc i * sc2 i := fun i p => rfl
  have ho2 : ∀ p, (T.makeSupercell sc2).origin p = superLo (sc2 0) * (L 0 p * sc 0) + superLo (sc2 1) * (L 1 p * sc 1)
      + superLo (sc2 2) * (L 2 p * sc 2) := fun p => rfl
  obtain ⟨a, ha⟩ := List.exists_mem_of_ne_nil _ hok.nonempty
  obtain ⟨f, f1, f2⟩ := hok.inCell a ha
  have hf : ∀ p, a.2 p = f 0 * L 0 p + f 1 * L 1 p + f 2 * L 2 p := by
    intro p
    rw [f2, cartOf, Fin.sum_univ_three]
    rfl
  have hlo : (superLo (sc 2) : ℝ) ≤ -1 := by
    have : superLo (sc 2) ≤ -1 := by
      rw [superLo_eq (h 2)]
      split_ifs <;> omega
    exact_mod_cast this
  have hmem : ∀ (sc : Fin 3 → ℤ), (∀ i, 0 < sc i) → (![0, 0, superLo (sc 2)] : Fin 3 → ℤ) ∈ superShifts sc := by
    intro sc h
    unfold superShifts
    rw [mem_cRange3]
    intro i
    obtain ⟨g1, g2, _⟩ := super_range (h i)
    fin_cases i
    · exact ⟨g1, g2⟩
    · exact ⟨g1, g2⟩
    · exact ⟨le_refl _, g1.trans g2⟩
  set x : Vec ℝ := imagePos T.basis (imagePos L a.2 ![0, 0, superLo (sc 2)]) ![0, 0, superLo (sc2 2)] with hx
  have hxp : ∀ p, x p = a.2 p + L 2 p * superLo (sc 2) + L 2 p * sc 2 * superLo (sc2 2) := by
    intro p
    rw [hx, imagePos_apply, imagePos_apply]
    simp [hb]
  have hbox : ∀ p : Fin 3, p = 0 ∨ p = 1 → 0 ≤ x p - (T.makeSupercell sc2).minLimit p ∧
      x p - (T.makeSupercell sc2).minLimit p < (T.makeSupercell sc2).projected p := by
    intro p hp
    have hp2 : L 2 p = 0 := by rcases hp with rfl | rfl <;> assumption
    have hg : ∀ i : Fin 3, 0 ≤ (f i - superLo (sc2 i) * sc i) / (sc i * sc2 i) ∧
        (f i - superLo (sc2 i) * sc i) / (sc i * sc2 i) < 1 := by
      intro i
      obtain ⟨g1, g2, g3⟩ := super_range (hpos2 i)
      have g1' : (superLo (sc2 i) : ℝ) ≤ 0 := by exact_mod_cast g1
      have g4 : (1 - superLo (sc2 i) : ℝ) ≤ sc2 i := by
        have : 1 - superLo (sc2 i) ≤ sc2 i := by omega
        exact_mod_cast this
      have g5 : (1 : ℝ) ≤ sc i := by exact_mod_cast h i
      constructor
      · refine div_nonneg ?_ (mul_pos (hposR i) (hposR2 i)).le
        nlinarith [(f1 i).1]
      · rw [div_lt_one (mul_pos (hposR i) (hposR2 i))]
        nlinarith [(f1 i).2]
    refine inside_box (T.makeSupercell sc2) (fun i => if i = 2 then 0 else
      (f i - superLo (sc2 i) * sc i) / (sc i * sc2 i)) ?_ x p ?_ ?_
    · intro i
      by_cases hi : i = 2
      · simp [hi]
      · simp only [hi, if_false]
        exact hg i
    · have c0 : (f 0 - superLo (sc2 0) * sc 0) / (sc 0 * sc2 0) * (L 0 p * sc 0 * sc2 0)
          = (f 0 - superLo (sc2 0) * sc 0) * L 0 p := by
        have a0 := (hposR 0).ne'
        have b0 := (hposR2 0).ne'
        field_simp
      have c1 : (f 1 - superLo (sc2 1) * sc 1) / (sc 1 * sc2 1) * (L 1 p * sc 1 * sc2 1)
          = (f 1 - superLo (sc2 1) * sc 1) * L 1 p := by
        have a0 := (hposR 1).ne'
        have b0 := (hposR2 1).ne'
        field_simp
      rw [hxp, ho2, hf, Fin.sum_univ_three]
      simp only [hb2]
      rw [if_neg (by decide), if_neg (by decide), if_pos trivial, c0, c1, hp2]
      ring
    · obtain ⟨q, hq⟩ := hok.dir p
      refine ⟨q, ?_⟩
      rw [hb2]
      exact mul_pos (mul_pos hq (hposR q)) (hposR2 q)
  have hzlow : x 2 - (T.makeSupercell sc2).minLimit 2 < 0 := by
    rw [minLimit_eq, hxp, ho2, hf, Fin.sum_univ_three]
    simp only [hb2, z0, z1]
    rw [min_eq_left (mul_pos (mul_pos hL22 (hposR 2)) (hposR2 2)).le]
    simp only [zero_mul, mul_zero, min_self, add_zero, zero_add]
    nlinarith [(f1 2).2]
  set nb : Fin 3 → ℤ := fun p => ⌈(T.makeSupercell sc2).projected p / (rcut / 2)⌉ with hnb
  refine make_oob A T rcut pbc sort hdet hr sc2 rfl nb (fun p => rfl) (a.1, x) ?_ ?_
  · rw [superAtoms_eq, List.mem_flatMap]
    refine ⟨_, hmem sc2 hpos2, List.mem_map.2 ⟨(a.1, imagePos L a.2 ![0, 0, superLo (sc 2)]), ?_, rfl⟩⟩
    rw [hT, superAtoms_eq, List.mem_flatMap]
    exact ⟨_, hmem sc h, List.mem_map.2 ⟨a, ha, rfl⟩⟩
  · left
    have hr2 : 0 < rcut / 2 := by linarith
    have hlt : ∀ p : Fin 3, p = 0 ∨ p = 1 →
        0 ≤ binIdx (T.makeSupercell sc2).minLimit (fun _ => rcut / 2) x p ∧
        binIdx (T.makeSupercell sc2).minLimit (fun _ => rcut / 2) x p < nb p := by
      intro p hp
      obtain ⟨g1, g2⟩ := hbox p hp
      refine ⟨Int.floor_nonneg.2 (div_nonneg g1 hr2.le), ?_⟩
      have : ((binIdx (T.makeSupercell sc2).minLimit (fun _ => rcut / 2) x p : ℤ) : ℝ) < (nb p : ℤ) :=
        lt_of_le_of_lt (Int.floor_le _) (lt_of_lt_of_le (div_lt_div_of_pos_right g2 hr2) (Int.le_ceil _))
      exact_mod_cast this
    have hneg : binIdx (T.makeSupercell sc2).minLimit (fun _ => rcut / 2) x 2 ≤ -1 := by
      have : binIdx (T.makeSupercell sc2).minLimit (fun _ => rcut / 2) x 2 < 0 :=
        Int.floor_lt.2 (by exact_mod_cast div_neg_of_neg_of_pos hzlow hr2)
      omega
    obtain ⟨l0, l1⟩ := hlt 0 (Or.inl rfl)
    obtain ⟨l2, l3⟩ := hlt 1 (Or.inr rfl)
    show linIdx nb (binIdx (T.makeSupercell sc2).minLimit (fun _ => rcut / 2) x) < 0
    unfold linIdx
    have p0 : 0 < nb 0 := by omega
    have p1 : 0 < nb 1 := by omega
    have p01 := mul_pos p0 p1
    nlinarith

/-- The cube of edge 4 with one atom, three times as long along z. -/
example (A : ArgSort) (sort : Bool) :
    NbrLists.make A ((CStruct.make (cube 4) [(1, ![0, 0, 0])] true).makeSupercell ![1, 1, 3]) 4 (fun _ => true) sort
      = .error .outOfBounds :=
  C215_violated A (cube 4) _ _ (cube_ok 4 (by norm_num)) (by simp [cube]) ![1, 1, 3] (by decide) (by decide) 4
    (by norm_num) sort

end MaterSDK
