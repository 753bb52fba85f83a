import Verif.Lemmas.CellListNbr
import Verif.Spec.CellList

/-! # Supercell atoms as periodic images; sorted lists; flat arrays -/

namespace MaterSDK

open Classical Matrix

theorem imagePos_apply (L : Fin 3 → Vec ℝ) (p : Vec ℝ) (t : Fin 3 → ℤ) (q : Fin 3) :
    imagePos L p t q = p q + L 0 q * t 0 + L 1 q * t 1 + L 2 q * t 2 := by
  simp [imagePos, Fin.sum_univ_three]
  ring

theorem imagePos_zero (L : Fin 3 → Vec ℝ) (p : Vec ℝ) : imagePos L p 0 = p := by
  simp [imagePos]

/-- Displacements of the supercell, in storage order. -/
def superShifts (sc : Fin 3 → ℤ) : List (Fin 3 → ℤ) :=
  cRange3 (fun i => superLo (sc i)) (fun i => superHi (sc i))

theorem superAtoms_eq (s : CStruct) (sc : Fin 3 → ℤ) :
    (s.makeSupercell sc).atoms = (superShifts sc).flatMap fun t =>
      s.atoms.map fun a => (a.1, imagePos s.basis a.2 t) := by
  unfold CStruct.makeSupercell superShifts
  apply List.flatMap_congr
  intro t _
  apply List.map_congr_left
  intro a _
  refine Prod.ext rfl ?_
  funext q
  show _ = imagePos s.basis a.2 t q
  rw [imagePos_apply]

theorem superAtoms_get (s : CStruct) (sc : Fin 3 → ℤ) {c j : ℕ} {t : Fin 3 → ℤ} {a : ℤ × Vec ℝ}
    (ht : (superShifts sc)[c]? = some t) (ha : s.atoms[j]? = some a) :
    (s.makeSupercell sc).atoms[c * s.atoms.length + j]? = some (a.1, imagePos s.basis a.2 t) := by
  obtain ⟨hj, _⟩ := List.getElem?_eq_some_iff.1 ha
  rw [superAtoms_eq, flatMap_uniform_get _ _ s.atoms.length (by simp) c j t ht hj,
    List.getElem?_map, ha]
  rfl

theorem superAtoms_length (s : CStruct) (sc : Fin 3 → ℤ) :
    (s.makeSupercell sc).atoms.length = (superShifts sc).length * s.atoms.length := by
  rw [superAtoms_eq, flatMap_uniform_length _ _ s.atoms.length (by simp)]

theorem superAtoms_get_inv (s : CStruct) (sc : Fin 3 → ℤ) {k : ℕ} {b : ℤ × Vec ℝ}
    (hb : (s.makeSupercell sc).atoms[k]? = some b) :
    ∃ t a, (superShifts sc)[k / s.atoms.length]? = some t ∧ s.atoms[k % s.atoms.length]? = some a ∧
      b = (a.1, imagePos s.basis a.2 t) := by
  obtain ⟨hk, _⟩ := List.getElem?_eq_some_iff.1 hb
  rw [superAtoms_length] at hk
  have hn : 0 < s.atoms.length := by
    rcases Nat.eq_zero_or_pos s.atoms.length with h | h
    · rw [h] at hk; simp at hk
    · exact h
  have h1 : k / s.atoms.length < (superShifts sc).length := Nat.div_lt_of_lt_mul (by rwa [mul_comm])
  have h2 : k % s.atoms.length < s.atoms.length := Nat.mod_lt _ hn
  refine ⟨_, _, List.getElem?_eq_getElem h1, List.getElem?_eq_getElem h2, ?_⟩
  have := superAtoms_get s sc (List.getElem?_eq_getElem h1) (List.getElem?_eq_getElem h2)
  have e : k / s.atoms.length * s.atoms.length + k % s.atoms.length = k := Nat.div_add_mod' _ _
  rw [e, hb] at this
  exact Option.some.inj this

theorem primCellIdx_odd (m : Fin 3 → ℕ) : primCellIdx (fun i => 2 * (m i : ℤ) + 1)
    = ((m 0 * ((2 * m 1 + 1) * (2 * m 2 + 1)) + (m 1 * (2 * m 2 + 1) + m 2) : ℕ) : ℤ) := by
  unfold primCellIdx
  rw [primIdxAxis_eq (by positivity), primIdxAxis_eq (by positivity), primIdxAxis_eq (by positivity), superLo_odd,
    superLo_odd, superLo_odd]
  push_cast
  ring

theorem superShifts_zero_odd (m : Fin 3 → ℕ) :
    (superShifts (fun i => 2 * (m i : ℤ) + 1))[(primCellIdx (fun i => 2 * (m i : ℤ) + 1)).toNat]?
      = some 0 := by
  rw [primCellIdx_odd, Int.toNat_natCast]
  unfold superShifts
  have := cRange3_get (lo := fun i => superLo (2 * (m i : ℤ) + 1))
    (hi := fun i => superHi (2 * (m i : ℤ) + 1)) (i := m 0) (j := m 1) (k := m 2)
    (by simp only [superLo_odd, superHi_odd]; omega) (by simp only [superLo_odd, superHi_odd]; omega)
    (by simp only [superLo_odd, superHi_odd]; omega)
  simp only [superLo_odd, superHi_odd] at this ⊢
  have e : ∀ i, ((m i : ℤ) - -(m i : ℤ) + 1).toNat = 2 * m i + 1 := by intro i; omega
  rw [e, e] at this
  rw [this]
  congr 1
  funext p
  fin_cases p <;> simp

theorem mem_superShifts_odd (m : Fin 3 → ℕ) (t : Fin 3 → ℤ) :
    t ∈ superShifts (fun i => 2 * (m i : ℤ) + 1) ↔ ∀ i, |t i| ≤ m i := by
  unfold superShifts
  rw [mem_cRange3]
  apply forall_congr'
  intro i
  rw [superLo_odd, superHi_odd, abs_le]

/-! ## Half widths -/

/-- Number of replicas on each side. -/
noncomputable def halfWidth (s : CStruct) (rcut : ℝ) (pbc : Fin 3 → Bool) (p : Fin 3) : ℕ :=
  if pbc p = false then 0 else ⌈rcut / s.interplanar p⌉.toNat

theorem binScaling_odd (s : CStruct) (rcut : ℝ) (pbc : Fin 3 → Bool) (hr : 0 < rcut)
    (hi : ∀ p, 0 < s.interplanar p) :
    binScaling s rcut pbc = fun p => 2 * (halfWidth s rcut pbc p : ℤ) + 1 := by
  funext p
  unfold binScaling halfWidth
  split_ifs
  · rfl
  · have : 0 ≤ ⌈rcut / s.interplanar p⌉ := Int.ceil_nonneg (div_nonneg hr.le (hi p).le)
    omega

theorem halfWidth_cover (s : CStruct) (rcut : ℝ) (pbc : Fin 3 → Bool) (hr : 0 < rcut)
    (hi : ∀ p, 0 < s.interplanar p) (p : Fin 3) (hp : pbc p = true) :
    rcut ≤ halfWidth s rcut pbc p * s.interplanar p := by
  unfold halfWidth
  rw [if_neg (by simp [hp])]
  have h0 : 0 ≤ ⌈rcut / s.interplanar p⌉ := Int.ceil_nonneg (div_nonneg hr.le (hi p).le)
  have h1 : ((⌈rcut / s.interplanar p⌉.toNat : ℕ) : ℝ) = (⌈rcut / s.interplanar p⌉ : ℝ) := by
    have : ((⌈rcut / s.interplanar p⌉.toNat : ℕ) : ℤ) = ⌈rcut / s.interplanar p⌉ := by omega
    exact_mod_cast congrArg (fun z : ℤ => (z : ℝ)) this
  rw [h1, ← div_le_iff₀ (hi p)]
  exact Int.le_ceil _

/-- The supercell contains every image closer than the cutoff. -/
theorem near_in_supercell (s : CStruct) (hdet : (Matrix.of s.basis).det ≠ 0) (rcut : ℝ)
    (pbc : Fin 3 → Bool) (hr : 0 < rcut) (p c : Vec ℝ) (fp fc : Vec ℝ)
    (hfp : ∀ i, 0 ≤ fp i ∧ fp i < 1) (hfc : ∀ i, 0 ≤ fc i ∧ fc i < 1)
    (ep : p = cartOf s.basis fp) (ec : c = cartOf s.basis fc) (t : Fin 3 → ℤ)
    (ht : ∀ q, pbc q = false → t q = 0) (hd : dist3 (imagePos s.basis p t) c < rcut) (i : Fin 3) :
    |t i| ≤ halfWidth s rcut pbc i := by
  cases hq : pbc i with
  | false => rw [ht i hq]; simp
  | true =>
    have hcov := halfWidth_cover s rcut pbc hr (interplanar_pos s hdet) i hq
    set m := halfWidth s rcut pbc i
    obtain ⟨hp, hb⟩ := coeff_bound (Matrix.of s.basis) hdet (fun k => fp k + t k - fc k) i
    rw [← interplanar_eq] at hp hb
    have e : dist3 (∑ k, (fp k + t k - fc k) • Matrix.of s.basis k) 0
        = dist3 (imagePos s.basis p t) c := by
      unfold dist3
      congr 1
      apply Finset.sum_congr rfl
      intro j _
      congr 1
      rw [ec, ep]
      unfold imagePos cartOf
      simp only [sub_smul, add_smul, Finset.sum_sub_distrib, Finset.sum_add_distrib, Pi.zero_apply,
        Pi.sub_apply, Pi.add_apply, sub_zero]
      rfl
    rw [e] at hb
    have h1 : |fp i + t i - fc i| * s.interplanar i ≤ (m : ℝ) * s.interplanar i :=
      le_trans hb (le_trans hd.le hcov)
    have h2 : |fp i + t i - fc i| ≤ m := le_of_mul_le_mul_right h1 hp
    rw [abs_le] at h2
    have h3 := hfp i
    have h4 := hfc i
    have h5 : (t i : ℝ) < m + 1 := by linarith
    have h6 : -(m : ℝ) - 1 < t i := by linarith
    have h7 : t i < (m : ℤ) + 1 := by exact_mod_cast h5
    have h8 : -(m : ℤ) - 1 < t i := by exact_mod_cast h6
    rw [abs_le]
    constructor <;> omega

/-- Every supercell atom lies in the half-open supercell. -/
theorem superAtom_inside (s : CStruct) (m : Fin 3 → ℕ)
    (hfrac : ∀ a ∈ s.atoms, ∃ f : Vec ℝ, (∀ i, 0 ≤ f i ∧ f i < 1) ∧ a.2 = cartOf s.basis f)
    (b : ℤ × Vec ℝ) (hb : b ∈ (s.makeSupercell (fun i => 2 * (m i : ℤ) + 1)).atoms) :
    ∃ g : Fin 3 → ℝ, (∀ i, 0 ≤ g i ∧ g i < 1) ∧
      ∀ p, b.2 p = (s.makeSupercell (fun i => 2 * (m i : ℤ) + 1)).origin p +
        ∑ i, g i * (s.makeSupercell (fun i => 2 * (m i : ℤ) + 1)).basis i p := by
  rw [superAtoms_eq] at hb
  obtain ⟨t, ht, hb⟩ := List.mem_flatMap.1 hb
  obtain ⟨a, ha, rfl⟩ := List.mem_map.1 hb
  rw [mem_superShifts_odd] at ht
  obtain ⟨f, hf, ea⟩ := hfrac a ha
  have hpos : ∀ i, (0 : ℝ) < 2 * (m i : ℝ) + 1 := fun i => by positivity
  refine ⟨fun i => (f i + t i + m i) / (2 * (m i : ℝ) + 1), ?_, ?_⟩
  · intro i
    have h1 := ht i
    rw [abs_le] at h1
    have h2 : (-(m i : ℝ)) ≤ t i := by exact_mod_cast h1.1
    have h3 : (t i : ℝ) ≤ m i := by exact_mod_cast h1.2
    have h4 := hf i
    constructor
    · apply div_nonneg _ (hpos i).le
      linarith
    · rw [div_lt_one (hpos i)]
      linarith
  · intro p
    have key : ∀ i, (f i + t i + m i) / (2 * (m i : ℝ) + 1) * (s.basis i p * (2 * (m i : ℝ) + 1))
        = (f i + t i + m i) * s.basis i p := by
      intro i
      have := (hpos i).ne'
      field_simp
    simp only [CStruct.makeSupercell, superLo_odd, Fin.sum_univ_three]
    push_cast
    rw [key, key, key, imagePos_apply, ea]
    simp only [cartOf, Fin.sum_univ_three, Pi.add_apply, Pi.smul_apply, smul_eq_mul]
    ring

/-! ## Enough bins along periodic axes -/

theorem projected_large (s : CStruct) (hdet : (Matrix.of s.basis).det ≠ 0) (rcut : ℝ)
    (pbc : Fin 3 → Bool) (hr : 0 < rcut) (p : Fin 3)
    (hperp : ∀ q, pbc q = false → s.basis q p = 0) :
    2 * rcut < (s.makeSupercell (fun i => 2 * (halfWidth s rcut pbc i : ℤ) + 1)).projected p := by
  set L := Matrix.of s.basis with hL
  set c : Fin 3 → ℝ := fun k => L⁻¹ p k with hc
  have hunit : IsUnit L.det := isUnit_iff_ne_zero.2 hdet
  have hcomb : ∀ q, ∑ k, c k * s.basis k q = if p = q then 1 else 0 := by
    intro q
    have := congrFun (congrFun (Matrix.nonsing_inv_mul L hunit) p) q
    rw [Matrix.mul_apply, Matrix.one_apply] at this
    exact this
  have hvec : (∑ k, c k • L k) = fun q => if p = q then (1 : ℝ) else 0 := by
    funext q
    rw [← hcomb q]
    simp [Finset.sum_apply, hL]
  have hone : dist3 (∑ k, c k • L k) 0 = 1 := by
    rw [hvec]
    unfold dist3
    simp
  have hbound : ∀ k, |c k| * s.interplanar k ≤ 1 := by
    intro k
    have := (coeff_bound L hdet c k).2
    rwa [hone, ← interplanar_eq] at this
  have hip := interplanar_pos s hdet
  -- each non-zero term is smaller than its share
  have hterm : ∀ k, s.basis k p ≠ 0 →
      2 * rcut * |c k| < 2 * (halfWidth s rcut pbc k : ℝ) + 1 := by
    intro k hk
    have hq : pbc k = true := by
      cases h : pbc k with
      | true => rfl
      | false => exact absurd (hperp k h) hk
    have hcov := halfWidth_cover s rcut pbc hr hip k hq
    have h1 := hbound k
    have h2 := abs_nonneg (c k)
    have h3 := hip k
    have h4 : rcut * |c k| ≤ (halfWidth s rcut pbc k : ℝ) := by
      calc rcut * |c k| ≤ (halfWidth s rcut pbc k * s.interplanar k) * |c k| :=
            mul_le_mul_of_nonneg_right hcov h2
        _ = halfWidth s rcut pbc k * (|c k| * s.interplanar k) := by ring
        _ ≤ halfWidth s rcut pbc k * 1 := mul_le_mul_of_nonneg_left h1 (Nat.cast_nonneg _)
        _ = _ := mul_one _
    linarith
  have hpr : (s.makeSupercell (fun i => 2 * (halfWidth s rcut pbc i : ℤ) + 1)).projected p
      = ∑ k, |s.basis k p| * (2 * (halfWidth s rcut pbc k : ℝ) + 1) := by
    simp only [CStruct.projected, CStruct.makeSupercell, Fin.sum_univ_three, abs_mul]
    have : ∀ k, |(((2 * (halfWidth s rcut pbc k : ℤ) + 1 : ℤ)) : ℝ)|
        = 2 * (halfWidth s rcut pbc k : ℝ) + 1 := by
      intro k
      rw [abs_of_nonneg]
      · push_cast; ring
      · push_cast; positivity
    rw [this, this, this]
  have hsum : (1 : ℝ) = ∑ k, c k * s.basis k p := by rw [hcomb p]; simp
  rw [hpr]
  calc 2 * rcut = 2 * rcut * ∑ k, c k * s.basis k p := by rw [← hsum, mul_one]
    _ = ∑ k, 2 * rcut * (c k * s.basis k p) := Finset.mul_sum _ _ _
    _ < ∑ k, |s.basis k p| * (2 * (halfWidth s rcut pbc k : ℝ) + 1) := by
      apply Finset.sum_lt_sum
      · intro k _
        by_cases hk : s.basis k p = 0
        · simp [hk]
        · have h1 : c k * s.basis k p ≤ |c k| * |s.basis k p| := by
            rw [← abs_mul]; exact le_abs_self _
          have h2 := hterm k hk
          have h3 : 0 < |s.basis k p| := abs_pos.2 hk
          nlinarith
      · by_contra hno
        push Not at hno
        have hz : ∀ k, s.basis k p = 0 := by
          intro k
          by_contra hk
          have h1 : c k * s.basis k p ≤ |c k| * |s.basis k p| := by
            rw [← abs_mul]; exact le_abs_self _
          have h2 := hterm k hk
          have h3 : 0 < |s.basis k p| := abs_pos.2 hk
          have := hno k (Finset.mem_univ k)
          nlinarith
        simp [hz] at hsum

/-! ## Sorting -/

theorem map_range_getD (l : List ℕ) : (List.range l.length).map (fun j => l[j]?.getD 0) = l := by
  apply List.ext_getElem?
  intro i
  rw [List.getElem?_map]
  by_cases h : i < l.length
  · simp [h]
  · have h' : l.length ≤ i := by omega
    simp [List.getElem?_eq_none h', h']

theorem sortByDistance_spec (A : ArgSort) (atoms : List (ℤ × Vec ℝ)) (c : Vec ℝ) (l : List ℕ)
    (hl : ∀ k ∈ l, k < atoms.length) :
    ∃ l' : List ℕ, sortByDistance A atoms c (l.map (fun k : ℕ => (k : ℤ)))
        = .ok (l'.map (fun k : ℕ => (k : ℤ))) ∧ l'.Perm l ∧
      (l'.map (fun k => ((atoms[k]?).map (fun a => dist3 a.2 c)).getD 0)).Pairwise (· ≤ ·) := by
  set D : ℕ → ℝ := fun k => ((atoms[k]?).map (fun a => dist3 a.2 c)).getD 0 with hD
  have h1 : (l.map (fun k : ℕ => (k : ℤ))).mapM (fun k => (do
      let a ← cGet atoms k
      return Real.sqrt (cDist2 a.2 c) : Except CErr ℝ)) = .ok (l.map D) := by
    rw [mapM_eq_ok, List.forall₂_map_left_iff, List.forall₂_map_right_iff, List.forall₂_same]
    intro k hk
    have := List.getElem?_eq_getElem (hl k hk)
    rw [cGet_nat this, ok_bind, hD]
    simp only [this, Option.map_some, Option.getD_some, cDist2_eq]
    rfl
  refine ⟨(A.run (l.map D)).map (fun j => l[j]?.getD 0), ?_, ?_, ?_⟩
  · unfold sortByDistance
    rw [h1, ok_bind, List.map_map]
    apply mapM_map_ok
    intro j hj
    have hj' : j < l.length := by
      have := (A.perm (l.map D)).mem_iff.1 hj
      simpa using this
    have : (l.map (fun k : ℕ => (k : ℤ)))[j]? = some ((l[j]?.getD 0 : ℕ) : ℤ) := by
      simp [hj']
    exact cGet_nat this
  · have := (A.perm (l.map D)).map (fun j => l[j]?.getD 0)
    rw [List.length_map, map_range_getD] at this
    exact this
  · have := A.sorted (l.map D)
    rw [List.map_map]
    have e : (A.run (l.map D)).map (fun i => (l.map D)[i]?.getD 0)
        = (A.run (l.map D)).map (D ∘ fun j => l[j]?.getD 0) := by
      apply List.map_congr_left
      intro j hj
      have hj' : j < l.length := by
        have := (A.perm (l.map D)).mem_iff.1 hj
        simpa using this
      simp [hj']
    rw [← e]
    exact this

/-! ## Flat arrays -/

theorem cWrite_spec {α : Type} (row pre mid post : List α) (h : mid.length = row.length) :
    cWrite (pre ++ mid ++ post) (pre.length : ℤ) row = .ok (pre ++ row ++ post) := by
  induction row generalizing pre mid with
  | nil =>
    have : mid = [] := List.length_eq_zero_iff.1 (by simpa using h)
    subst this
    simp [cWrite]
  | cons v row ih =>
    cases mid with
    | nil => simp at h
    | cons w mid =>
      rw [cWrite, cSet_ok (by simp; try omega), ok_bind]
      have e : (pre ++ w :: mid ++ post).set ((pre.length : ℤ).toNat) v
          = (pre ++ [v]) ++ mid ++ post := by simp
      rw [e]
      have e2 : (pre.length : ℤ) + 1 = ((pre ++ [v]).length : ℤ) := by simp
      rw [e2, ih (pre ++ [v]) mid (by simpa using h)]
      simp

theorem cWriteRows_spec {α : Type} (w : ℕ) (fill : α) (rows : List (List α)) (done : List α) (ii : ℕ)
    (hd : done.length = ii * w) (hr : ∀ r ∈ rows, r.length ≤ w) :
    cWriteRows (w : ℤ) ii rows (done ++ List.replicate (rows.length * w) fill)
      = .ok (done ++ rows.flatMap (fun r => r ++ List.replicate (w - r.length) fill)) := by
  induction rows generalizing done ii with
  | nil => simp [cWriteRows]
  | cons r rows ih =>
    have hrw := hr r (by simp)
    have e : List.replicate ((r :: rows).length * w) fill
        = List.replicate r.length fill ++ (List.replicate (w - r.length) fill ++
          List.replicate (rows.length * w) fill) := by
      rw [← List.replicate_add, ← List.replicate_add]
      congr 1
      rw [List.length_cons]
      have : (rows.length + 1) * w = w + rows.length * w := by ring
      omega
    rw [cWriteRows, e]
    have e2 : ((ii : ℤ) * (w : ℤ)) = (done.length : ℤ) := by rw [hd]; push_cast; ring
    rw [e2, ← List.append_assoc, cWrite_spec r done (List.replicate r.length fill) _ (by simp), ok_bind]
    have := ih (done ++ r ++ List.replicate (w - r.length) fill) (ii + 1) (by
      simp only [List.length_append, List.length_replicate, hd]
      have : (ii + 1) * w = ii * w + w := by ring
      omega) (fun x hx => hr x (by simp [hx]))
    rw [← List.append_assoc, this]
    simp

theorem cWriteRows_ok {α : Type} (w : ℕ) (fill : α) (rows : List (List α)) (n : ℕ)
    (hn : rows.length = n) (hr : ∀ r ∈ rows, r.length ≤ w) :
    cWriteRows (w : ℤ) 0 rows (List.replicate (n * w) fill)
      = .ok (rows.flatMap (fun r => r ++ List.replicate (w - r.length) fill)) := by
  have := cWriteRows_spec w fill rows [] 0 (by simp) hr
  simpa [hn] using this

theorem flatRow_flatMap {α β : Type} (l : List α) (f : α → List β) (w : ℕ)
    (hf : ∀ a ∈ l, (f a).length = w) (i : ℕ) (a : α) (ha : l[i]? = some a) :
    flatRow (l.flatMap f) w i = f a := by
  unfold flatRow
  induction l generalizing i with
  | nil => simp at ha
  | cons b l ih =>
    have hb := hf b (by simp)
    rw [List.flatMap_cons]
    cases i with
    | zero =>
      simp at ha
      subst ha
      rw [zero_mul, List.drop_zero, List.take_append_of_le_length (by omega), List.take_of_length_le (by omega)]
    | succ i =>
      have e : (i + 1) * w = (f b).length + i * w := by rw [hb]; ring
      rw [e, List.drop_append, List.drop_of_length_le (by omega), List.nil_append]
      have : (f b).length + i * w - (f b).length = i * w := by omega
      rw [this]
      exact ih (fun x hx => hf x (by simp [hx])) i (by simpa using ha)

end MaterSDK
