import Verif.Lemmas.CellListDClose

/-! # The C++ neighbour list in doubles -/

namespace MaterSDK

open Classical Matrix

section

variable (L : Fin 3 → Vec ℝ) (atoms : List (ℤ × Vec ℝ)) (pbc : Fin 3 → Bool) (rcut : ℝ)
  (hok : CellOkD L atoms pbc rcut)

include hok

/-- The tolerance is large compared with the rounding of single numbers. -/
theorem tol_bounds : 128 * (uR * scaleOf L rcut) ≤ nbrTol L rcut ∧
    nbrTol L rcut = 128 * (uR * skewOf L * scaleOf L rcut) ∧ 0 < scaleOf L rcut ∧ rcut ≤ scaleOf L rcut := by
  have h1 := skewOf_ge_one L hok.nonsing
  have hu := uR_pos
  have hS : rcut ≤ scaleOf L rcut := by
    unfold scaleOf
    have : 0 ≤ ∑ i, sum1 (L i) * (3 * (rcut / planeDist (Matrix.of L) i) + 3) :=
      Finset.sum_nonneg fun i _ => mul_nonneg (sum1_nonneg _) (by
        have := (coeff_bound (Matrix.of L) hok.nonsing 0 i).1
        have := div_pos hok.rcut_pos this
        linarith)
    linarith
  have hS0 : 0 < scaleOf L rcut := hok.rcut_pos.trans_le hS
  have e : nbrTol L rcut = 128 * (uR * skewOf L * scaleOf L rcut) := by
    unfold nbrTol
    rw [uR_eq]
    norm_num
    ring
  refine ⟨?_, e, hS0, hS⟩
  rw [e]
  have := mul_pos hu hS0
  nlinarith

/-- The factors of the supercell. -/
noncomputable def mOf (L : Fin 3 → Vec ℝ) (atoms : List (ℤ × Vec ℝ)) (rcut : ℝ) (pbc : Fin 3 → Bool) :
    Fin 3 → ℕ := halfWidthD (CStruct.makeD flR L atoms true) rcut pbc

theorem axisLen_scale (p : Fin 3) :
    axisLen (axisOf L p) (mOf L atoms rcut pbc) ≤ scaleOf L rcut ∧
    0 < axisLen (axisOf L p) (mOf L atoms rcut pbc) := by
  have h := axisLen_le_scale (CStruct.makeD flR L atoms true) rcut pbc hok.nonsing hok.skew_le hok.rcut_pos p
  constructor
  · have := hok.rcut_pos
    have e : scaleOf (CStruct.makeD flR L atoms true).basis rcut = scaleOf L rcut := rfl
    rw [e] at h
    exact h.trans (by linarith)
  · obtain ⟨q, hq⟩ := hok.dir p
    refine lt_of_lt_of_le ?_ (axisTerm_le (axisOf L p) (mOf L atoms rcut pbc) q)
    exact mul_pos (abs_pos.2 hq.ne') (by positivity)

/-- In doubles the bins are filled without leaving the arrays. -/
theorem makeD_bins (w : ℝ) (hw : 0 < w) :
    ∃ B, BinList.makeD flR (CStruct.makeD flR L atoms true) rcut (fun _ => w) pbc = .ok B ∧ BinOkD flR B ∧
      B.supercell = CSupercell.makeD flR (CStruct.makeD flR L atoms true) (oddOf (mOf L atoms rcut pbc)) ∧
      B.rcut = rcut ∧ B.binSize = (fun _ => w) ∧ B.pbc = pbc ∧
      B.numBin = fun p => ⌈flR (((CStruct.makeD flR L atoms true).makeSupercellD flR
        (oddOf (mOf L atoms rcut pbc))).projectedD flR p / w)⌉ := by
  set s := CStruct.makeD flR L atoms true with hs
  have hodd : binScalingD flR s rcut pbc = oddOf (mOf L atoms rcut pbc) :=
    binScalingD_odd s rcut pbc hok.nonsing hok.skew_le hok.rcut_pos
  have := BinList.makeD_ok flR s rcut (fun _ => w) pbc hok.nonempty hok.rcut_pos (fun _ => hw)
    (interplanarD_pos s hok.nonsing hok.skew_le)
  rw [hodd] at this
  apply this
  intro b hb p
  rw [superAtomsD_eq] at hb
  obtain ⟨t, ht, hb⟩ := List.mem_flatMap.1 hb
  obtain ⟨a, ha, rfl⟩ := List.mem_map.1 hb
  have ht' := (mem_superShifts_odd (mOf L atoms rcut pbc) t).1 ht
  have hx : RoomyIn s.basis (nbrTol L rcut) a.2 := hok.room a ha
  obtain ⟨h1, h2⟩ := axisLen_scale L atoms pbc rcut hok p
  have h3 := (tol_bounds L atoms pbc rcut hok).1
  refine binD_in_range s (mOf L atoms rcut pbc) a.2 hx t ht' p hw ?_ h2
  have h4 : uR * axisLen (axisOf L p) (mOf L atoms rcut pbc) ≤ uR * scaleOf L rcut :=
    mul_le_mul_of_nonneg_left h1 uR_pos.le
  have h5 := mul_pos uR_pos h2
  have : 64 * (uR * axisLen (axisOf L p) (mOf L atoms rcut pbc)) ≤ nbrTol L rcut := by linarith
  exact this

theorem numBin_five (hrc : flR rcut = rcut) (p : Fin 3) (hp : pbc p = true) :
    2 * ⌈flR (rcut / flR (rcut / 2))⌉ + 1 ≤ ⌈flR (((CStruct.makeD flR L atoms true).makeSupercellD flR
        (oddOf (mOf L atoms rcut pbc))).projectedD flR p / flR (rcut / 2))⌉ ∧
    flR (rcut / 2) = rcut / 2 ∧ ⌈flR (rcut / flR (rcut / 2))⌉ = 2 := by
  have hr := hok.rcut_pos
  have hhalf : flR (rcut / 2) = rcut / 2 := by
    have := flR_scale rcut (-1)
    rw [hrc] at this
    have e : rcut * (2 : ℝ) ^ (-1 : ℤ) = rcut / 2 := by norm_num; ring
    rwa [e] at this
  have htwo : ⌈flR (rcut / flR (rcut / 2))⌉ = 2 := by
    rw [hhalf]
    have e : rcut / (rcut / 2) = ((2 : ℤ) : ℝ) := by
      have := hr.ne'
      field_simp
      norm_num
    rw [e, flR_int 2 (by norm_num), Int.ceil_intCast]
  refine ⟨?_, hhalf, htwo⟩
  rw [htwo, hhalf]
  set s := CStruct.makeD flR L atoms true with hs
  have hbig := axisLen_large s rcut pbc hok.nonsing hok.skew_le hr (fun i => by
    rw [interplanar_eq]; exact hok.thick i) p (fun q hq => hok.perp p q hp hq)
  have hP : NearR (axisLen (axisOf s.basis p) (mOf L atoms rcut pbc)) 7
    ((s.makeSupercellD flR (oddOf (mOf L atoms rcut pbc))).projectedD flR p)
    (axisLen (axisOf s.basis p) (mOf L atoms rcut pbc)) := axis_projected (axisOf s.basis p) _
  have hMsum : axisLen (axisOf s.basis p) (mOf L atoms rcut pbc) ≤ (∑ k, |s.basis k p|) * (3 * 2 ^ 20 + 3) := by
    unfold axisLen
    rw [Finset.sum_mul]
    apply Finset.sum_le_sum
    intro i _
    apply mul_le_mul_of_nonneg_left _ (abs_nonneg _)
    have h1 := (halfWidthD_bounds s rcut pbc hok.nonsing hok.skew_le hr i).2
    have h2 : rcut / s.interplanar i ≤ 2 ^ 20 := by
      rw [div_le_iff₀ (interplanar_pos s hok.nonsing i), interplanar_eq]
      exact hok.thick i
    have h3 : 2 * (mOf L atoms rcut pbc i : ℝ) + 1 ≤ 3 * (rcut / s.interplanar i) + 3 := h1
    linarith
  have hbig' : 2 * rcut + (∑ k, |s.basis k p|) / 2 ≤ axisLen (axisOf s.basis p) (mOf L atoms rcut pbc) := hbig
  have hsum0 : 0 < ∑ k, |s.basis k p| := by
    obtain ⟨q, hq⟩ := hok.dir p
    exact lt_of_lt_of_le (abs_pos.2 hq.ne')
      (Finset.single_le_sum (f := fun k => |s.basis k p|) (fun i _ => abs_nonneg _) (Finset.mem_univ q))
  set M := axisLen (axisOf s.basis p) (mOf L atoms rcut pbc)
  set P := (s.makeSupercellD flR (oddOf (mOf L atoms rcut pbc))).projectedD flR p
  set T := ∑ k, |s.basis k p|
  have hu := uR_pos
  unfold NearR at hP
  rw [abs_le] at hP
  have hM0 : 0 < M := by linarith
  have h7 : 7 * (uR * M) ≤ M := by rw [uR_eq]; linarith
  have hP0 : 0 ≤ P := by linarith [hP.1]
  have hPM : P ≤ 2 * M := by linarith [hP.2]
  have hsmall : 9 * (uR * M) ≤ T / 4 := by
    have h1 : uR * M ≤ uR * (T * (3 * 2 ^ 20 + 3)) := mul_le_mul_of_nonneg_left hMsum hu.le
    have h2 : 9 * (uR * (T * (3 * 2 ^ 20 + 3))) ≤ T / 4 := by
      rw [uR_eq]; norm_num; linarith
    linarith
  have he := (abs_le.1 (flR_err (P / (rcut / 2)))).1
  rw [abs_of_nonneg (div_nonneg hP0 (by linarith))] at he
  have h4 : (4 : ℝ) < P / (rcut / 2) * (1 - uR) := by
    rw [div_mul_eq_mul_div, lt_div_iff₀ (by linarith)]
    have : uR * P ≤ uR * (2 * M) := mul_le_mul_of_nonneg_left hPM hu.le
    nlinarith [hP.1]
  have : (4 : ℤ) < ⌈flR (P / (rcut / 2))⌉ := by
    rw [Int.lt_ceil]
    push_cast
    linarith
  omega

/-- Facts about one image. -/
theorem image_facts {a c : ℤ × Vec ℝ} (ha : a ∈ atoms) (hc : c ∈ atoms) (t : Fin 3 → ℤ)
    (ht : ∀ i, |t i| ≤ mOf L atoms rcut pbc i) :
    (∀ p, NearR (scaleOf L rcut) 9 (imagePosD flR L a.2 t p) (imagePos L a.2 t p)) ∧
    (∀ p, |imagePos L a.2 t p - c.2 p| ≤ scaleOf L rcut) := by
  set s := CStruct.makeD flR L atoms true with hs
  obtain ⟨ht1, ht2, ht3, _⟩ := tol_bounds L atoms pbc rcut hok
  have hδ : 0 ≤ nbrTol L rcut := le_trans (by have := mul_pos uR_pos ht3; linarith) ht1
  have hx : RoomyIn s.basis (nbrTol L rcut) a.2 := hok.room a ha
  have hxc : RoomyIn s.basis (nbrTol L rcut) c.2 := hok.room c hc
  constructor
  · intro p
    exact (near_imagePosD s (mOf L atoms rcut pbc) a.2 hδ hx t ht p).wider (by norm_num)
      (axisLen_scale L atoms pbc rcut hok p).1
  · intro p
    obtain ⟨_, h2, h3⟩ := near_offsetD s (mOf L atoms rcut pbc) a.2 hδ hx t ht p
    obtain ⟨_, h2', h3'⟩ := near_offsetD s (mOf L atoms rcut pbc) c.2 hδ hxc 0 (fun i => by simp) p
    rw [imagePos_zero] at h2' h3'
    have hM := (axisLen_scale L atoms pbc rcut hok p).1
    have e : s.basis = L := rfl
    rw [e] at h2 h3 h2' h3'
    rw [abs_le]
    constructor <;> linarith

/-- Images clearly inside the cutoff are at most two bins away. -/
theorem bins_near {a c : ℤ × Vec ℝ} (ha : a ∈ atoms) (hc : c ∈ atoms) (hdc : ∀ p, flR (c.2 p) = c.2 p)
    (t : Fin 3 → ℤ) (ht : ∀ i, |t i| ≤ mOf L atoms rcut pbc i)
    (hd : dist3 (imagePos L a.2 t) c.2 ≤ rcut - nbrTol L rcut) (p : Fin 3) :
    |binIdxD flR (((CStruct.makeD flR L atoms true).makeSupercellD flR (oddOf (mOf L atoms rcut pbc))).minLimitD flR)
        (fun _ => rcut / 2) (imagePosD flR L a.2 t) p -
      binIdxD flR (((CStruct.makeD flR L atoms true).makeSupercellD flR (oddOf (mOf L atoms rcut pbc))).minLimitD flR)
        (fun _ => rcut / 2) c.2 p| ≤ 2 := by
  set s := CStruct.makeD flR L atoms true with hs
  obtain ⟨ht1, ht2, ht3, _⟩ := tol_bounds L atoms pbc rcut hok
  have hδ : 0 ≤ nbrTol L rcut := le_trans (by have := mul_pos uR_pos ht3; linarith) ht1
  have hx : RoomyIn s.basis (nbrTol L rcut) a.2 := hok.room a ha
  have hxc : RoomyIn s.basis (nbrTol L rcut) c.2 := hok.room c hc
  have hr := hok.rcut_pos
  have hw : 0 < rcut / 2 := by linarith
  have h1 := near_quotD s (mOf L atoms rcut pbc) a.2 hδ hx t ht p hw
  have h2 := near_quotD s (mOf L atoms rcut pbc) c.2 hδ hxc 0 (fun i => by simp) p hw
  rw [imagePosD_self _ _ hdc, imagePos_zero] at h2
  have e : s.basis = L := rfl
  rw [e] at h1 h2
  unfold binIdxD
  have e2 : (2 : ℤ) = ⌈((2 : ℤ) : ℝ)⌉ := by rw [Int.ceil_intCast]
  rw [e2]
  apply floor_diff
  have hM := (axisLen_scale L atoms pbc rcut hok p).1
  have hc1 := (comp_le_dist3 (imagePos L a.2 t) c.2 p).trans hd
  have h3 : |(imagePos L a.2 t p - axisMin (axisOf L p) (mOf L atoms rcut pbc)) / (rcut / 2) -
      (c.2 p - axisMin (axisOf L p) (mOf L atoms rcut pbc)) / (rcut / 2)| ≤ (rcut - nbrTol L rcut) / (rcut / 2) := by
    rw [← sub_div, abs_div, abs_of_pos hw]
    apply div_le_div_of_nonneg_right _ hw.le
    rw [sub_sub_sub_cancel_right]
    exact hc1
  have huM : uR * axisLen (axisOf L p) (mOf L atoms rcut pbc) ≤ uR * scaleOf L rcut :=
    mul_le_mul_of_nonneg_left hM uR_pos.le
  have h4 : 35 * (uR * axisLen (axisOf L p) (mOf L atoms rcut pbc)) / (rcut / 2) +
      (35 * (uR * axisLen (axisOf L p) (mOf L atoms rcut pbc)) / (rcut / 2) +
        (rcut - nbrTol L rcut) / (rcut / 2)) ≤ 2 := by
    rw [← add_div, ← add_div, div_le_iff₀ hw]
    have := mul_pos uR_pos ht3
    linarith
  push_cast
  rw [abs_le] at h1 h2 h3 ⊢
  constructor <;> linarith [h1.1, h1.2, h2.1, h2.2, h3.1, h3.2]

/-- The relative position stored for an image. -/
noncomputable def relVecD (L : Fin 3 → Vec ℝ) (atoms : List (ℤ × Vec ℝ)) (c : Vec ℝ) (e : ℕ × (Fin 3 → ℤ)) : Vec ℝ :=
  match atoms[e.1]? with
  | some a => fun p => flR (imagePosD flR L a.2 e.2 p - c p)
  | none => 0

/-- The lists and tables in doubles. -/
theorem nbr_double_core (A : ArgSort) (sort : Bool) (hrc : flR rcut = rcut)
    (hdbl : ∀ a ∈ atoms, ∀ p, flR (a.2 p) = a.2 p)
    (hap : FarImages L (atoms.map Prod.snd) (1 / 20)) :
    ∃ (N : NbrLists) (I : List (List (ℕ × (Fin 3 → ℤ)))),
      NbrLists.makeD flR A (CStruct.makeD flR L atoms true) rcut pbc sort = .ok N ∧
      N.lists.map List.length = I.map List.length ∧ I.length = atoms.length ∧
      (∀ (i : ℕ) (c : ℤ × Vec ℝ) (imgs : List (ℕ × (Fin 3 → ℤ))), atoms[i]? = some c → I[i]? = some imgs →
        imgs.Nodup ∧
        (∀ e ∈ imgs, NearBy L pbc (atoms.map Prod.snd) (rcut + nbrTol L rcut) c.2 e ∧ e ≠ (i, 0)) ∧
        (∀ e, NearBy L pbc (atoms.map Prod.snd) (rcut - nbrTol L rcut) c.2 e → e ≠ (i, 0) → e ∈ imgs) ∧
        (sort = true → imgs.Pairwise (fun e e' => ∀ p p', (atoms.map Prod.snd)[e.1]? = some p →
          (atoms.map Prod.snd)[e'.1]? = some p' →
          dist3 (imagePos L p e.2) c.2 ≤ dist3 (imagePos L p' e'.2) c.2 + nbrTol L rcut)) ∧
        ∀ e ∈ imgs, ∀ x, (atoms.map Prod.snd)[e.1]? = some x → ∀ p,
          |relVecD L atoms c.2 e p - (imagePos L x e.2 p - c.2 p)| ≤ nbrTol L rcut) ∧
      ∀ umax : ℕ, (∀ imgs ∈ I, imgs.length ≤ umax) → ∃ info, N.findInfoD flR umax = .ok info ∧
        info.inum = atoms.length ∧ info.ilist = (List.range atoms.length).map (fun i : ℕ => (i : ℤ)) ∧
        info.types = atoms.map Prod.fst ∧ info.numneigh = I.map List.length ∧
        ∀ (i : ℕ) (c : ℤ × Vec ℝ) (imgs : List (ℕ × (Fin 3 → ℤ))), atoms[i]? = some c → I[i]? = some imgs →
          flatRow info.firstneigh umax i =
            imgs.map (fun e => (e.1 : ℤ)) ++ List.replicate (umax - imgs.length) (-1) ∧
          flatRow info.rel (umax * 3) i =
            imgs.flatMap (fun e => [relVecD L atoms c.2 e 0, relVecD L atoms c.2 e 1, relVecD L atoms c.2 e 2]) ++
              List.replicate ((umax - imgs.length) * 3) 0 := by
  set s := CStruct.makeD flR L atoms true with hs
  have hsb : s.basis = L := rfl
  have hsa : s.atoms = atoms := rfl
  set m := mOf L atoms rcut pbc with hm
  have hr := hok.rcut_pos
  have hfive := fun p hp => numBin_five L atoms pbc rcut hok hrc p hp
  have hhalf : flR (rcut / 2) = rcut / 2 := by
    have := flR_scale rcut (-1)
    rw [hrc] at this
    have e : rcut * (2 : ℝ) ^ (-1 : ℤ) = rcut / 2 := by norm_num; ring
    rwa [e] at this
  have htwo : ⌈flR (rcut / (rcut / 2))⌉ = 2 := by
    have e : rcut / (rcut / 2) = ((2 : ℤ) : ℝ) := by
      have := hr.ne'
      field_simp
      norm_num
    rw [e, flR_int 2 (by norm_num), Int.ceil_intCast]
  have hw : 0 < flR (rcut / 2) := by rw [hhalf]; linarith
  obtain ⟨B, hmk, hB, hsup, hBr, hBs, hBp, hBn⟩ := makeD_bins L atoms pbc rcut hok _ hw
  have hself : ∀ a ∈ s.atoms, imagePosD flR s.basis a.2 0 = a.2 := fun a ha =>
    imagePosD_self _ _ (hdbl a ha)
  have hn : ∀ p, B.pbc p = true → 2 * B.extD flR p + 1 ≤ B.numBin p := by
    intro p hp
    rw [hBp] at hp
    unfold BinList.extD
    rw [hBr, hBs, hBn]
    exact (hfive p hp).1
  obtain ⟨N, hN, hNb, K, hK, hKl, hKs⟩ := listsD_core flR A s rcut pbc sort m B hmk hB hsup hself hn
  obtain ⟨ht1, ht2, ht3, hrS⟩ := tol_bounds L atoms pbc rcut hok
  have hst : B.supercell.struct = s.makeSupercellD flR (oddOf m) := by rw [hsup]; rfl
  have hspec := fun c => B.foundD_spec flR hB c hn
  rw [hst] at hspec
  have hclose : ∀ c x, B.closeD flR c x = true ↔ dDist2 flR x c < flR (rcut ^ 2) ∧ dEps flR < dDist2 flR x c := by
    intro c x
    unfold BinList.closeD
    rw [decide_eq_true_eq, hBr]
  have hin : ∀ ks ∈ K, ∀ k ∈ ks, k < (s.makeSupercellD flR (oddOf m)).atoms.length := by
    intro ks hks k hk
    obtain ⟨i, hi⟩ := List.mem_iff_getElem?.1 hks
    have hlt : i < s.atoms.length := by
      rw [← hKl]; exact (List.getElem?_eq_some_iff.1 hi).1
    obtain ⟨ks', g1, _, g3, _⟩ := hKs i _ (List.getElem?_eq_getElem hlt)
    rw [hi] at g1
    cases g1
    obtain ⟨a, ha, _⟩ := (hspec _).2.1 k ((g3 k).1 hk)
    exact (List.getElem?_eq_some_iff.1 ha).1
  -- facts about a listed index
  have hidx : ∀ (i : ℕ) (c : ℤ × Vec ℝ) (ks : List ℕ), atoms[i]? = some c → K[i]? = some ks →
      ∀ k ∈ ks, ∃ a, atoms[(imageAt s (oddOf m) k).1]? = some a ∧
      (s.makeSupercellD flR (oddOf m)).atoms[k]?
        = some (a.1, imagePosD flR L a.2 (imageAt s (oddOf m) k).2) ∧
      (∀ q, |(imageAt s (oddOf m) k).2 q| ≤ m q) ∧
      dDist2 flR (imagePosD flR L a.2 (imageAt s (oddOf m) k).2) c.2 < flR (rcut ^ 2) ∧
      dEps flR < dDist2 flR (imagePosD flR L a.2 (imageAt s (oddOf m) k).2) c.2 := by
    intro i c ks hc hks k hk
    obtain ⟨ks', g1, _, g3, _⟩ := hKs i c hc
    rw [hks] at g1
    cases g1
    obtain ⟨b, hb, hcl⟩ := (hspec c.2).2.1 k ((g3 k).1 hk)
    obtain ⟨a, ha, rfl, hmem⟩ := imageAtD_get flR s _ hb
    refine ⟨a, ha, hb, (mem_superShifts_odd m _).1 hmem, ((hclose _ _).1 hcl).1, ((hclose _ _).1 hcl).2⟩
  have hI : ∀ (i : ℕ) (imgs : List (ℕ × (Fin 3 → ℤ))),
      (K.map (fun ks => ks.map (imageAt s (oddOf m))))[i]? = some imgs →
      ∃ ks, K[i]? = some ks ∧ imgs = ks.map (imageAt s (oddOf m)) := by
    intro i imgs h
    rw [List.getElem?_map] at h
    obtain ⟨ks, h1, h2⟩ := Option.map_eq_some_iff.1 h
    exact ⟨ks, h1, h2.symm⟩
  have hlenI : (K.map (fun ks => ks.map (imageAt s (oddOf m)))).map List.length = K.map List.length := by
    rw [List.map_map]
    refine List.map_congr_left ?_
    intro ks _
    simp
  refine ⟨N, K.map (fun ks => ks.map (imageAt s (oddOf m))), hN, ?_, by rw [List.length_map, hKl, hsa], ?_, ?_⟩
  · rw [hlenI, hK, List.map_map]
    refine List.map_congr_left ?_
    intro ks _
    simp
  · intro i c imgs hc himgs
    obtain ⟨ks, g1, rfl⟩ := hI i imgs himgs
    have hcm : c ∈ atoms := List.mem_of_getElem? hc
    obtain ⟨ks', g1', g2, g3, g4⟩ := hKs i c hc
    rw [g1] at g1'
    cases g1'
    have hksm := List.mem_of_getElem? g1
    have hidx := hidx i c ks hc g1
    refine ⟨?_, ?_, ?_, ?_, ?_⟩
    · refine List.Nodup.map_on ?_ g2
      intro k hk k' hk' h
      exact imageAtD_inj flR s _ (hin ks hksm k hk) (hin ks hksm k' hk') h
    · intro e he
      obtain ⟨k, hk, rfl⟩ := List.mem_map.1 he
      obtain ⟨a, ha, hb, htm, hlt, hgt⟩ := hidx k hk
      have ham := List.mem_of_getElem? ha
      obtain ⟨q1, q2⟩ := image_facts L atoms pbc rcut hok ham hcm _ htm
      refine ⟨⟨?_, a.2, by rw [List.getElem?_map, ha]; rfl, ?_⟩, ?_⟩
      · intro q hq
        have := htm q
        have h0 : m q = 0 := by rw [hm]; unfold mOf halfWidthD; rw [if_pos hq]
        rw [h0] at this
        simpa using this
      · have := (near_of_close q1 q2 hr hrS hlt).2
        linarith
      · intro h
        rw [h] at ha hgt
        rw [hc] at ha
        cases ha
        have hz := imagePosD_self L c.2 (hdbl c hcm)
        simp only at hgt
        rw [hz] at hgt
        exact self_not_close c.2 hgt
    · rintro e ⟨hq, x, hx, hdx⟩ hne
      have hcx : (atoms.map Prod.snd)[i]? = some c.2 := by rw [List.getElem?_map, hc]; rfl
      have hap' := hap i e.1 c.2 x e.2 hcx hx hne
      rw [List.getElem?_map] at hx
      obtain ⟨a, ha, rfl⟩ := Option.map_eq_some_iff.1 hx
      have ham := List.mem_of_getElem? ha
      obtain ⟨fp, hfp, ep⟩ := hok.inCell a ham
      obtain ⟨fc, hfc, ec⟩ := hok.inCell c hcm
      have hmt : ∀ q, |e.2 q| ≤ m q := by
        refine near_in_supercellD s rcut pbc hok.nonsing hok.skew_le hr a.2 c.2 fp fc hfp hfc ep ec e.2 hq ?_
        refine hdx.le.trans ?_
        rw [hsb, ht2]
        have h1 : uR * skewOf L * rcut ≤ uR * skewOf L * scaleOf L rcut :=
          mul_le_mul_of_nonneg_left hrS (mul_nonneg uR_pos.le (le_trans zero_le_one (skewOf_ge_one L hok.nonsing)))
        have h2 : 0 ≤ uR * skewOf L * scaleOf L rcut :=
          mul_nonneg (mul_nonneg uR_pos.le (le_trans zero_le_one (skewOf_ge_one L hok.nonsing))) ht3.le
        linarith
      obtain ⟨k, hk, he⟩ := exists_storedD flR s (oddOf m) ha ((mem_superShifts_odd m _).2 hmt)
      obtain ⟨q1, q2⟩ := image_facts L atoms pbc rcut hok ham hcm _ hmt
      refine List.mem_map.2 ⟨k, (g3 k).2 ?_, he⟩
      refine (hspec c.2).2.2 k _ hk ((hclose _ _).2 ⟨?_, ?_⟩) ?_
      · exact close_of_near q1 q2 hr hrS (by
          have hdx' : dist3 (imagePos L a.2 e.2) c.2 < rcut - nbrTol L rcut := hdx
          linarith)
      · exact apart_close q1 q2 hok.scale_le hap'
      · intro p
        have := bins_near L atoms pbc rcut hok ham hcm (hdbl c hcm) e.2 hmt hdx.le p
        unfold BinList.extD
        rw [hBr, hBs, hB.lim, hst, hhalf, htwo]
        exact this
    · intro hsort
      have := g4 hsort
      rw [List.pairwise_map] at this
      rw [List.pairwise_map]
      refine List.Pairwise.imp_of_mem ?_ this
      intro k k' hk hk' hle p p' hp hp'
      obtain ⟨a, ha, hb, htm, hlt, hgt⟩ := hidx k hk
      obtain ⟨a', ha', hb', htm', hlt', hgt'⟩ := hidx k' hk'
      obtain ⟨q1, q2⟩ := image_facts L atoms pbc rcut hok (List.mem_of_getElem? ha) hcm _ htm
      obtain ⟨q1', q2'⟩ := image_facts L atoms pbc rcut hok (List.mem_of_getElem? ha') hcm _ htm'
      rw [List.getElem?_map, ha] at hp
      rw [List.getElem?_map, ha'] at hp'
      cases hp
      cases hp'
      unfold atomDistD at hle
      rw [hb, hb'] at hle
      simp only [Option.map_some, Option.getD_some] at hle
      have := sorted_close q1 q2 q1' q2' hr hrS hlt hlt' hle
      linarith
    · intro e he x hx p
      obtain ⟨k, hk, rfl⟩ := List.mem_map.1 he
      obtain ⟨a, ha, hb, htm, hlt, hgt⟩ := hidx k hk
      obtain ⟨q1, q2⟩ := image_facts L atoms pbc rcut hok (List.mem_of_getElem? ha) hcm _ htm
      rw [List.getElem?_map, ha] at hx
      cases hx
      simp only [relVecD, ha]
      have := near_diffD q1 q2 p
      unfold NearR at this
      refine this.trans ?_
      have := mul_pos uR_pos ht3
      linarith
  · intro umax hum
    have hu : ∀ ks ∈ K, ks.length ≤ umax := by
      intro ks hks
      have := hum _ (List.mem_map_of_mem hks)
      rwa [List.length_map] at this
    obtain ⟨info, f1, f2, f3, f4, _, f6, f7⟩ := findInfoD_core flR s m N umax (by rw [hNb]; exact hsup)
      K hK hKl hself hin hu
    refine ⟨info, f1, f2, f3, f4, by rw [f6, hlenI], ?_⟩
    intro i c imgs hc himgs
    obtain ⟨ks, g1, rfl⟩ := hI i imgs himgs
    obtain ⟨r1, r2⟩ := f7 i c ks hc g1
    refine ⟨by simpa using r1, ?_⟩
    rw [r2, List.length_map]
    congr 1
    apply List.flatMap_congr
    intro e he
    obtain ⟨k, hk, rfl⟩ := List.mem_map.1 he
    obtain ⟨a, ha, _⟩ := hidx i c ks hc g1 k hk
    unfold relCoordsD relVecD
    rw [List.getElem?_map, hsa, ha]
    simp only [Option.map_some, hsb]

/-- The same with the reported maximum as width. -/
theorem nbr_double (A : ArgSort) (sort : Bool) (hrc : flR rcut = rcut)
    (hdbl : ∀ a ∈ atoms, ∀ p, flR (a.2 p) = a.2 p)
    (hap : FarImages L (atoms.map Prod.snd) (1 / 20)) :
    ∃ N, NbrLists.makeD flR A (CStruct.makeD flR L atoms true) rcut pbc sort = .ok N ∧
      ∀ umax : ℕ, N.maxNum ≤ umax → ∃ info, N.findInfoD flR umax = .ok info ∧
        info.inum = atoms.length ∧ info.ilist = (List.range atoms.length).map (fun i : ℕ => (i : ℤ)) ∧
        info.types = atoms.map Prod.fst ∧
        ∀ (i : ℕ) (c : ℤ × Vec ℝ), atoms[i]? = some c → ∃ imgs : List (ℕ × (Fin 3 → ℤ)), imgs.Nodup ∧
          (∀ e ∈ imgs, NearBy L pbc (atoms.map Prod.snd) (rcut + nbrTol L rcut) c.2 e ∧ e ≠ (i, 0)) ∧
          (∀ e, NearBy L pbc (atoms.map Prod.snd) (rcut - nbrTol L rcut) c.2 e → e ≠ (i, 0) → e ∈ imgs) ∧
          info.numneigh[i]? = some imgs.length ∧ imgs.length ≤ umax ∧
          (sort = true → imgs.Pairwise (fun e e' => ∀ p p', (atoms.map Prod.snd)[e.1]? = some p →
            (atoms.map Prod.snd)[e'.1]? = some p' →
            dist3 (imagePos L p e.2) c.2 ≤ dist3 (imagePos L p' e'.2) c.2 + nbrTol L rcut)) ∧
          flatRow info.firstneigh umax i =
            imgs.map (fun e => (e.1 : ℤ)) ++ List.replicate (umax - imgs.length) (-1) ∧
          ∃ v : ℕ × (Fin 3 → ℤ) → Vec ℝ,
            (∀ e ∈ imgs, ∀ x, (atoms.map Prod.snd)[e.1]? = some x → ∀ p,
              |v e p - (imagePos L x e.2 p - c.2 p)| ≤ nbrTol L rcut) ∧
            flatRow info.rel (umax * 3) i =
              imgs.flatMap (fun e => [v e 0, v e 1, v e 2]) ++
                List.replicate ((umax - imgs.length) * 3) 0 := by
  obtain ⟨N, I, h1, h2, h3, h4, h5⟩ := nbr_double_core L atoms pbc rcut hok A sort hrc hdbl hap
  refine ⟨N, h1, ?_⟩
  intro umax hum
  have hI : ∀ imgs ∈ I, imgs.length ≤ umax := by
    intro imgs hm
    refine le_trans ?_ hum
    unfold NbrLists.maxNum
    rw [h2]
    exact le_runningMax (List.mem_map_of_mem hm)
  obtain ⟨info, f1, f2, f3, f4, f5, f6⟩ := h5 umax hI
  refine ⟨info, f1, f2, f3, f4, ?_⟩
  intro i c hc
  have hi : i < I.length := by rw [h3]; exact (List.getElem?_eq_some_iff.1 hc).1
  have hImg := List.getElem?_eq_getElem hi
  obtain ⟨g1, g2, g3, g4, g5⟩ := h4 i c _ hc hImg
  obtain ⟨r1, r2⟩ := f6 i c _ hc hImg
  exact ⟨_, g1, g2, g3, by rw [f5, List.getElem?_map, hImg]; rfl, hI _ (List.getElem_mem hi), g4, r1,
    relVecD L atoms c.2, g5, r2⟩

end

end MaterSDK
