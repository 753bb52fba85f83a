import Verif.Lemmas.CellListImg

/-! # The lists handed out by the C++ neighbour list -/

namespace MaterSDK

open Classical Matrix

/-- The odd scaling factors in use. -/
noncomputable def oddScale (s : CStruct) (rcut : ℝ) (pbc : Fin 3 → Bool) : Fin 3 → ℤ :=
  fun p => 2 * (halfWidth s rcut pbc p : ℤ) + 1

/-- Distance of the stored atom `k` from `c`. -/
noncomputable def atomDist (atoms : List (ℤ × Vec ℝ)) (c : Vec ℝ) (k : ℕ) : ℝ :=
  ((atoms[k]?).map (fun a => dist3 a.2 c)).getD 0

theorem bins_core (s : CStruct) (rcut : ℝ) (size : Vec ℝ) (pbc : Fin 3 → Bool)
    (hdet : (Matrix.of s.basis).det ≠ 0) (hne : s.atoms ≠ [])
    (hfrac : ∀ a ∈ s.atoms, InCell s.basis a.2) (hdir : ∀ p, ∃ q, 0 < s.basis q p)
    (hr : 0 < rcut) (hs : ∀ p, 0 < size p) :
    ∃ B, BinList.make s rcut size pbc = .ok B ∧ BinOk B ∧
      B.supercell = CSupercell.make s (oddScale s rcut pbc) ∧ B.rcut = rcut ∧ B.binSize = size ∧
      B.pbc = pbc ∧
      B.numBin = fun p => ⌈(s.makeSupercell (oddScale s rcut pbc)).projected p / size p⌉ := by
  have hip := interplanar_pos s hdet
  have hodd : binScaling s rcut pbc = oddScale s rcut pbc := binScaling_odd s rcut pbc hr hip
  have := BinList.make_ok s rcut size pbc hne hr hs hip
  rw [hodd] at this
  apply this
  intro a ha p
  obtain ⟨g, hg, hx⟩ := superAtom_inside s (halfWidth s rcut pbc) hfrac a ha
  have hpos : ∃ q, 0 < (s.makeSupercell (oddScale s rcut pbc)).basis q p := by
    obtain ⟨q, hq⟩ := hdir p
    refine ⟨q, ?_⟩
    simp only [CStruct.makeSupercell, oddScale]
    have : (0 : ℝ) < ((2 * (halfWidth s rcut pbc q : ℤ) + 1 : ℤ) : ℝ) := by
      push_cast; positivity
    exact mul_pos hq this
  have h := inside_box (s.makeSupercell (oddScale s rcut pbc)) g hg a.2 p (hx p) hpos
  exact bin_in_range (hs p) h.1 h.2

theorem centre_ok (s : CStruct) (rcut : ℝ) (pbc : Fin 3 → Bool) (B : BinList)
    (hB : B.supercell = CSupercell.make s (oddScale s rcut pbc)) (i : ℕ) (c : ℤ × Vec ℝ)
    (hc : s.atoms[i]? = some c) : B.centre i = .ok c.2 := by
  unfold BinList.centre
  rw [hB]
  have hz := superShifts_zero_odd (halfWidth s rcut pbc)
  have := superAtoms_get s _ hz hc
  rw [imagePos_zero] at this
  have hp : (0 : ℤ) ≤ primCellIdx (fun i => 2 * (halfWidth s rcut pbc i : ℤ) + 1) := by
    rw [primCellIdx_odd]; positivity
  have e : ((i : ℤ) + (CSupercell.make s (oddScale s rcut pbc)).primIdx *
      (CSupercell.make s (oddScale s rcut pbc)).primNum)
      = (((primCellIdx (fun i => 2 * (halfWidth s rcut pbc i : ℤ) + 1)).toNat * s.atoms.length + i : ℕ) : ℤ) := by
    have e0 : oddScale s rcut pbc = fun i => 2 * (halfWidth s rcut pbc i : ℤ) + 1 := rfl
    simp only [CSupercell.make]
    rw [e0, Nat.cast_add, Nat.cast_mul, Int.toNat_of_nonneg hp, add_comm]
  rw [e, cGet_nat (l := (CSupercell.make s (oddScale s rcut pbc)).struct.atoms) this, ok_bind]
  rfl

theorem lists_core (A : ArgSort) (s : CStruct) (rcut : ℝ) (size : Vec ℝ) (pbc : Fin 3 → Bool)
    (sort : Bool)
    (hdet : (Matrix.of s.basis).det ≠ 0) (hne : s.atoms ≠ [])
    (hfrac : ∀ a ∈ s.atoms, InCell s.basis a.2) (hdir : ∀ p, ∃ q, 0 < s.basis q p)
    (hr : 0 < rcut) (hs : ∀ p, 0 < size p)
    (hn : ∀ p, pbc p = true → 2 * ⌈rcut / size p⌉ + 1
      ≤ ⌈(s.makeSupercell (oddScale s rcut pbc)).projected p / size p⌉) :
    ∃ N, NbrLists.makeWith A s rcut size pbc sort = .ok N ∧ BinOk N.bins ∧
      N.bins.supercell = CSupercell.make s (oddScale s rcut pbc) ∧
      ∃ K : List (List ℕ), N.lists = K.map (fun ks => ks.map (fun k : ℕ => (k : ℤ))) ∧
        K.length = s.atoms.length ∧
        ∀ (i : ℕ) (c : ℤ × Vec ℝ), s.atoms[i]? = some c → ∃ ks : List ℕ, K[i]? = some ks ∧ ks.Nodup ∧
          (∀ k, k ∈ ks ↔ ∃ a, (s.makeSupercell (oddScale s rcut pbc)).atoms[k]? = some a ∧
            dist3 a.2 c.2 < rcut ∧ 1 / 1000 < dist3 a.2 c.2 ^ 2) ∧
          (sort = true → (ks.map (atomDist (s.makeSupercell (oddScale s rcut pbc)).atoms c.2)).Pairwise
            (· ≤ ·)) := by
  obtain ⟨B, hmk, hB, hsup, hrc, hsz, hpb, hnb⟩ := bins_core s rcut size pbc hdet hne hfrac hdir hr hs
  have hfound : ∀ c, _ := fun c => B.found_spec hB c (by
    intro p hp
    rw [hpb] at hp
    have := hn p hp
    unfold BinList.ext
    rw [hrc, hsz, hnb]
    exact this)
  have hst : B.supercell.struct = s.makeSupercell (oddScale s rcut pbc) := by rw [hsup]; rfl
  rw [hst, hrc] at hfound
  have hpn : B.supercell.primNum = s.atoms.length := by rw [hsup]; rfl
  set F : ℕ → List ℕ := fun i => B.found ((s.atoms[i]?).map (fun c => c.2) |>.getD 0) with hF
  have hcen : ∀ (i : ℕ) (c : ℤ × Vec ℝ), s.atoms[i]? = some c → B.centre i = .ok c.2 := centre_ok s rcut pbc B hsup
  have hFc : ∀ (i : ℕ) (c : ℤ × Vec ℝ), s.atoms[i]? = some c → F i = B.found c.2 := by
    intro i c h; simp only [hF, h, Option.map_some, Option.getD_some]
  have hlists : (List.range B.supercell.primNum).mapM B.neighAtoms
      = .ok ((List.range B.supercell.primNum).map (fun i => (F i).map (fun k : ℕ => (k : ℤ)))) := by
    apply mapM_map_ok
    intro i hi
    rw [List.mem_range, hpn] at hi
    have hg := List.getElem?_eq_getElem hi
    rw [B.neighAtoms_spec hB i _ (by rw [hpn]; exact hi) (hcen i _ hg), hFc i _ hg]
  unfold NbrLists.makeWith
  rw [hmk, ok_bind]
  unfold NbrLists.build
  rw [hlists, ok_bind, hpn]
  cases sort with
  | false =>
    refine ⟨⟨B, (List.range s.atoms.length).map (fun i => (F i).map (fun k : ℕ => (k : ℤ)))⟩, rfl, hB, hsup,
      (List.range s.atoms.length).map F, by simp, by simp, ?_⟩
    intro i c hc
    obtain ⟨hi, _⟩ := List.getElem?_eq_some_iff.1 hc
    refine ⟨F i, by simp [hi], ?_, ?_, by simp⟩
    · rw [hFc i c hc]; exact (hfound c.2).1
    · rw [hFc i c hc]; exact (hfound c.2).2
  | true =>
    have hsort : ∀ (i : ℕ) (c : ℤ × Vec ℝ), s.atoms[i]? = some c → ∃ l' : List ℕ,
        sortByDistance A B.supercell.struct.atoms c.2 ((F i).map (fun k : ℕ => (k : ℤ)))
          = .ok (l'.map (fun k : ℕ => (k : ℤ))) ∧ l'.Perm (F i) ∧
        (l'.map (atomDist B.supercell.struct.atoms c.2)).Pairwise (· ≤ ·) := by
      intro i c hc
      apply sortByDistance_spec
      intro k hk
      rw [hFc i c hc, (hfound c.2).2] at hk
      obtain ⟨a, ha, _⟩ := hk
      rw [hst]
      exact (List.getElem?_eq_some_iff.1 ha).1
    have hsort' : ∀ i : ℕ, ∃ l' : List ℕ, ∀ c, s.atoms[i]? = some c →
        sortByDistance A B.supercell.struct.atoms c.2 ((F i).map (fun k : ℕ => (k : ℤ)))
          = .ok (l'.map (fun k : ℕ => (k : ℤ))) ∧ l'.Perm (F i) ∧
        (l'.map (atomDist B.supercell.struct.atoms c.2)).Pairwise (· ≤ ·) := by
      intro i
      cases h : s.atoms[i]? with
      | none => exact ⟨[], by simp⟩
      | some c =>
        obtain ⟨l', h'⟩ := hsort i c h
        exact ⟨l', fun c' hc' => by cases hc'; exact h'⟩
    choose G hG using hsort'
    have hz : ((List.range s.atoms.length).map (fun i => (F i).map (fun k : ℕ => (k : ℤ)))).zipIdx
        = (List.range s.atoms.length).map (fun i => ((F i).map (fun k : ℕ => (k : ℤ)), i)) := by
      apply List.ext_getElem?
      intro i
      rw [List.getElem?_zipIdx, List.getElem?_map, List.getElem?_map]
      by_cases h : i < s.atoms.length
      · simp [h]
      · simp [h]
    have hm : ((List.range s.atoms.length).map (fun i => (F i).map (fun k : ℕ => (k : ℤ)))).zipIdx.mapM
        (fun e => (do
          let c ← B.centre e.2
          sortByDistance A B.supercell.struct.atoms c e.1 : Except CErr (List ℤ)))
        = .ok ((List.range s.atoms.length).map (fun i => (G i).map (fun k : ℕ => (k : ℤ)))) := by
      rw [hz, mapM_eq_ok, List.forall₂_map_left_iff, List.forall₂_map_right_iff, List.forall₂_same]
      intro i hi
      rw [List.mem_range] at hi
      have hg := List.getElem?_eq_getElem hi
      simp only [hcen i _ hg, ok_bind]
      exact (hG i _ hg).1
    refine ⟨⟨B, (List.range s.atoms.length).map (fun i => (G i).map (fun k : ℕ => (k : ℤ)))⟩, ?_, hB, hsup,
      (List.range s.atoms.length).map G, by simp, by simp, ?_⟩
    · simp only [if_true]
      rw [hm]
      rfl
    · intro i c hc
      obtain ⟨hi, _⟩ := List.getElem?_eq_some_iff.1 hc
      obtain ⟨_, g2, g3⟩ := hG i c hc
      refine ⟨G i, by simp [hi], ?_, ?_, ?_⟩
      · rw [g2.nodup_iff, hFc i c hc]; exact (hfound c.2).1
      · intro k
        rw [g2.mem_iff, hFc i c hc]; exact (hfound c.2).2 k
      · intro _
        rw [← hst]; exact g3

/-- Default bins are fine enough. -/
theorem default_bins (s : CStruct) (rcut : ℝ) (pbc : Fin 3 → Bool)
    (hdet : (Matrix.of s.basis).det ≠ 0) (hr : 0 < rcut)
    (hperp : ∀ p q, pbc p = true → pbc q = false → s.basis q p = 0) (p : Fin 3) (hp : pbc p = true) :
    2 * ⌈rcut / (rcut / 2)⌉ + 1
      ≤ ⌈(s.makeSupercell (oddScale s rcut pbc)).projected p / (rcut / 2)⌉ := by
  have h := projected_large s hdet rcut pbc hr p (fun q hq => hperp p q hp hq)
  have e : rcut / (rcut / 2) = ((2 : ℤ) : ℝ) := by
    have := hr.ne'
    field_simp
    norm_num
  rw [e, Int.ceil_intCast]
  have : (4 : ℤ) < ⌈(s.makeSupercell (oddScale s rcut pbc)).projected p / (rcut / 2)⌉ := by
    rw [Int.lt_ceil, lt_div_iff₀ (by linarith)]
    push_cast
    unfold oddScale
    linarith
  omega

/-! ## From stored indices to images -/

/-- The image stored at index `k`. -/
noncomputable def imageAt (s : CStruct) (sc : Fin 3 → ℤ) (k : ℕ) : ℕ × (Fin 3 → ℤ) :=
  (k % s.atoms.length, (superShifts sc)[k / s.atoms.length]?.getD 0)

theorem imageAt_get (s : CStruct) (sc : Fin 3 → ℤ) {k : ℕ} {b : ℤ × Vec ℝ}
    (hb : (s.makeSupercell sc).atoms[k]? = some b) :
    ∃ a, s.atoms[(imageAt s sc k).1]? = some a ∧ b = (a.1, imagePos s.basis a.2 (imageAt s sc k).2) ∧
      (imageAt s sc k).2 ∈ superShifts sc := by
  obtain ⟨t, a, h1, h2, h3⟩ := superAtoms_get_inv s sc hb
  refine ⟨a, h2, ?_, ?_⟩
  · simp only [imageAt, h1, Option.getD_some]; exact h3
  · simp only [imageAt, h1, Option.getD_some]; exact List.mem_of_getElem? h1

theorem imageAt_inj (s : CStruct) (sc : Fin 3 → ℤ) {k k' : ℕ}
    (hk : k < (s.makeSupercell sc).atoms.length) (hk' : k' < (s.makeSupercell sc).atoms.length)
    (h : imageAt s sc k = imageAt s sc k') : k = k' := by
  obtain ⟨t, a, h1, h2, _⟩ := superAtoms_get_inv s sc (List.getElem?_eq_getElem hk)
  obtain ⟨t', a', h1', h2', _⟩ := superAtoms_get_inv s sc (List.getElem?_eq_getElem hk')
  unfold imageAt at h
  rw [h1, h1', Option.getD_some, Option.getD_some, Prod.mk.injEq] at h
  obtain ⟨e1, e2⟩ := h
  subst e2
  have hnd : (superShifts sc).Nodup := cRange3_nodup _ _
  obtain ⟨g1, g2⟩ := List.getElem?_eq_some_iff.1 h1
  obtain ⟨g1', g2'⟩ := List.getElem?_eq_some_iff.1 h1'
  have e : k / s.atoms.length = k' / s.atoms.length := (hnd.getElem_inj_iff).1 (g2.trans g2'.symm)
  rw [← Nat.div_add_mod k s.atoms.length, ← Nat.div_add_mod k' s.atoms.length, e, e1]

theorem exists_stored (s : CStruct) (sc : Fin 3 → ℤ) {j : ℕ} {t : Fin 3 → ℤ} {a : ℤ × Vec ℝ}
    (ha : s.atoms[j]? = some a) (ht : t ∈ superShifts sc) :
    ∃ k : ℕ, (s.makeSupercell sc).atoms[k]? = some (a.1, imagePos s.basis a.2 t) ∧
      imageAt s sc k = (j, t) := by
  obtain ⟨c, hc⟩ := List.mem_iff_getElem?.1 ht
  obtain ⟨hj, _⟩ := List.getElem?_eq_some_iff.1 ha
  refine ⟨c * s.atoms.length + j, superAtoms_get s sc hc ha, ?_⟩
  unfold imageAt
  have h1 : (c * s.atoms.length + j) % s.atoms.length = j := by
    rw [Nat.mul_comm, Nat.mul_add_mod, Nat.mod_eq_of_lt hj]
  have h2 : (c * s.atoms.length + j) / s.atoms.length = c := by
    rw [Nat.mul_comm, Nat.mul_add_div (by omega), Nat.div_eq_of_lt hj, Nat.add_zero]
  rw [h1, h2, hc, Option.getD_some]

/-- The images behind a list of stored indices. -/
theorem images_spec (s : CStruct) (rcut : ℝ) (pbc : Fin 3 → Bool)
    (hdet : (Matrix.of s.basis).det ≠ 0) (hr : 0 < rcut)
    (hfrac : ∀ a ∈ s.atoms, InCell s.basis a.2) (c : Vec ℝ) (hc : InCell s.basis c)
    (ks : List ℕ) (hnd : ks.Nodup)
    (hks : ∀ k, k ∈ ks ↔ ∃ a, (s.makeSupercell (oddScale s rcut pbc)).atoms[k]? = some a ∧
            dist3 a.2 c < rcut ∧ 1 / 1000 < dist3 a.2 c ^ 2) :
    (ks.map (imageAt s (oddScale s rcut pbc))).Nodup ∧
    ∀ e, e ∈ ks.map (imageAt s (oddScale s rcut pbc)) ↔
      (∀ q, pbc q = false → e.2 q = 0) ∧ ∃ a, s.atoms[e.1]? = some a ∧
        dist3 (imagePos s.basis a.2 e.2) c < rcut ∧
        1 / 1000 < dist3 (imagePos s.basis a.2 e.2) c ^ 2 := by
  constructor
  · refine List.Nodup.map_on ?_ hnd
    intro k hk k' hk' h
    obtain ⟨a, ha, _⟩ := (hks k).1 hk
    obtain ⟨a', ha', _⟩ := (hks k').1 hk'
    exact imageAt_inj s _ (List.getElem?_eq_some_iff.1 ha).1 (List.getElem?_eq_some_iff.1 ha').1 h
  · intro e
    rw [List.mem_map]
    constructor
    · rintro ⟨k, hk, rfl⟩
      obtain ⟨b, hb, h1, h2⟩ := (hks k).1 hk
      obtain ⟨a, ha, rfl, hmem⟩ := imageAt_get s _ hb
      refine ⟨?_, a, ha, h1, h2⟩
      intro q hq
      have := (mem_superShifts_odd (halfWidth s rcut pbc) _).1 hmem q
      have h0 : halfWidth s rcut pbc q = 0 := by unfold halfWidth; rw [if_pos hq]
      rw [h0] at this
      simpa using this
    · rintro ⟨hq, a, ha, h1, h2⟩
      obtain ⟨fp, hfp, ep⟩ := hfrac a (List.mem_of_getElem? ha)
      obtain ⟨fc, hfc, ec⟩ := hc
      have hmem : e.2 ∈ superShifts (oddScale s rcut pbc) :=
        (mem_superShifts_odd (halfWidth s rcut pbc) _).2
          (near_in_supercell s hdet rcut pbc hr a.2 c fp fc hfp hfc ep ec e.2 hq h1)
      obtain ⟨k, hk, he⟩ := exists_stored s _ ha hmem
      exact ⟨k, (hks k).2 ⟨_, hk, h1, h2⟩, he⟩

theorem tmod_imageAt (s : CStruct) (sc : Fin 3 → ℤ) (k : ℕ) :
    ((k : ℤ)).tmod (s.atoms.length : ℤ) = ((imageAt s sc k).1 : ℤ) := by
  rw [Int.tmod_eq_emod_of_nonneg (by positivity)]
  simp [imageAt]

end MaterSDK
