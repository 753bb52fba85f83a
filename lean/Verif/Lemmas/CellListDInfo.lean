import Verif.Lemmas.CellListD

/-! # The lists and tables of the C++ neighbour list with rounded arithmetic -/

namespace MaterSDK

open Classical Matrix

variable (R : ℝ → ℝ)

/-- Position of an image as the supercell computes it. -/
def imagePosD (L : Fin 3 → Vec ℝ) (x : Vec ℝ) (t : Fin 3 → ℤ) : Vec ℝ := fun p =>
  R (R (R (x p + R (L 0 p * t 0)) + R (L 1 p * t 1)) + R (L 2 p * t 2))

/-- Odd scaling factors. -/
def oddOf (m : Fin 3 → ℕ) : Fin 3 → ℤ := fun p => 2 * (m p : ℤ) + 1

theorem superAtomsD_eq (s : CStruct) (sc : Fin 3 → ℤ) :
    (s.makeSupercellD R sc).atoms = (superShifts sc).flatMap fun t =>
      s.atoms.map fun a => (a.1, imagePosD R s.basis a.2 t) := rfl

theorem superAtomsD_get (s : CStruct) (sc : Fin 3 → ℤ) {c j : ℕ} {t : Fin 3 → ℤ} {a : ℤ × Vec ℝ}
    (ht : (superShifts sc)[c]? = some t) (ha : s.atoms[j]? = some a) :
    (s.makeSupercellD R sc).atoms[c * s.atoms.length + j]? = some (a.1, imagePosD R s.basis a.2 t) := by
  obtain ⟨hj, _⟩ := List.getElem?_eq_some_iff.1 ha
  rw [superAtomsD_eq, flatMap_uniform_get _ _ s.atoms.length (by simp) c j t ht hj,
    List.getElem?_map, ha]
  rfl

theorem superAtomsD_length (s : CStruct) (sc : Fin 3 → ℤ) :
    (s.makeSupercellD R sc).atoms.length = (superShifts sc).length * s.atoms.length := by
  rw [superAtomsD_eq, flatMap_uniform_length _ _ s.atoms.length (by simp)]

theorem imageAtD_get (s : CStruct) (sc : Fin 3 → ℤ) {k : ℕ} {b : ℤ × Vec ℝ}
    (hb : (s.makeSupercellD R sc).atoms[k]? = some b) :
    ∃ a, s.atoms[(imageAt s sc k).1]? = some a ∧ b = (a.1, imagePosD R s.basis a.2 (imageAt s sc k).2) ∧
      (imageAt s sc k).2 ∈ superShifts sc := by
  obtain ⟨hk, _⟩ := List.getElem?_eq_some_iff.1 hb
  rw [superAtomsD_length] at hk
  have hn : 0 < s.atoms.length := by
    rcases Nat.eq_zero_or_pos s.atoms.length with h | h
    · rw [h] at hk; simp at hk
    · exact h
  have h1 : k / s.atoms.length < (superShifts sc).length := Nat.div_lt_of_lt_mul (by rwa [mul_comm])
  have h2 : k % s.atoms.length < s.atoms.length := Nat.mod_lt _ hn
  have := superAtomsD_get R s sc (List.getElem?_eq_getElem h1) (List.getElem?_eq_getElem h2)
  have e : k / s.atoms.length * s.atoms.length + k % s.atoms.length = k := Nat.div_add_mod' _ _
  rw [e, hb] at this
  refine ⟨_, List.getElem?_eq_getElem h2, ?_, ?_⟩
  · rw [Option.some.inj this]
    simp only [imageAt, List.getElem?_eq_getElem h1, Option.getD_some]
  · simp only [imageAt, List.getElem?_eq_getElem h1, Option.getD_some]
    exact List.getElem_mem h1

theorem imageAtD_inj (s : CStruct) (sc : Fin 3 → ℤ) {k k' : ℕ}
    (hk : k < (s.makeSupercellD R sc).atoms.length) (hk' : k' < (s.makeSupercellD R sc).atoms.length)
    (h : imageAt s sc k = imageAt s sc k') : k = k' := by
  apply imageAt_inj s sc _ _ h
  · rw [superAtoms_length, ← superAtomsD_length R]; exact hk
  · rw [superAtoms_length, ← superAtomsD_length R]; exact hk'

theorem exists_storedD (s : CStruct) (sc : Fin 3 → ℤ) {j : ℕ} {t : Fin 3 → ℤ} {a : ℤ × Vec ℝ}
    (ha : s.atoms[j]? = some a) (ht : t ∈ superShifts sc) :
    ∃ k : ℕ, (s.makeSupercellD R sc).atoms[k]? = some (a.1, imagePosD R s.basis a.2 t) ∧
      imageAt s sc k = (j, t) := by
  obtain ⟨c, hc⟩ := List.mem_iff_getElem?.1 ht
  obtain ⟨hj, _⟩ := List.getElem?_eq_some_iff.1 ha
  refine ⟨c * s.atoms.length + j, superAtomsD_get R s sc hc ha, ?_⟩
  unfold imageAt
  have h1 : (c * s.atoms.length + j) % s.atoms.length = j := by
    rw [Nat.mul_comm, Nat.mul_add_mod, Nat.mod_eq_of_lt hj]
  have h2 : (c * s.atoms.length + j) / s.atoms.length = c := by
    rw [Nat.mul_comm, Nat.mul_add_div (by omega), Nat.div_eq_of_lt hj, Nat.add_zero]
  rw [h1, h2, hc, Option.getD_some]

/-- Rounded distance of the stored atom `k` from `c`. -/
noncomputable def atomDistD (atoms : List (ℤ × Vec ℝ)) (c : Vec ℝ) (k : ℕ) : ℝ :=
  ((atoms[k]?).map (fun a => R (Real.sqrt (dDist2 R a.2 c)))).getD 0

theorem sortByDistanceD_spec (A : ArgSort) (atoms : List (ℤ × Vec ℝ)) (c : Vec ℝ) (l : List ℕ)
    (hl : ∀ k ∈ l, k < atoms.length) :
    ∃ l' : List ℕ, sortByDistanceD R A atoms c (l.map (fun k : ℕ => (k : ℤ)))
        = .ok (l'.map (fun k : ℕ => (k : ℤ))) ∧ l'.Perm l ∧
      (l'.map (atomDistD R atoms c)).Pairwise (· ≤ ·) := by
  set D : ℕ → ℝ := atomDistD R atoms c with hD
  have h1 : (l.map (fun k : ℕ => (k : ℤ))).mapM (fun k => (do
      let a ← cGet atoms k
      return R (Real.sqrt (dDist2 R a.2 c)) : Except CErr ℝ)) = .ok (l.map D) := by
    rw [mapM_eq_ok, List.forall₂_map_left_iff, List.forall₂_map_right_iff, List.forall₂_same]
    intro k hk
    have := List.getElem?_eq_getElem (hl k hk)
    rw [cGet_nat this, ok_bind, hD]
    simp only [atomDistD, this, Option.map_some, Option.getD_some]
    rfl
  refine ⟨(A.run (l.map D)).map (fun j => l[j]?.getD 0), ?_, ?_, ?_⟩
  · unfold sortByDistanceD
    rw [h1, ok_bind, List.map_map]
    apply mapM_map_ok
    intro j hj
    have hj' : j < l.length := by
      have := (A.perm (l.map D)).mem_iff.1 hj
      simpa using this
    have : (l.map (fun k : ℕ => (k : ℤ)))[j]? = some ((l[j]?.getD 0 : ℕ) : ℤ) := by
      simp [hj']
    exact cGet_nat this
  · have := (A.perm (l.map D)).map (fun j => l[j]?.getD 0)
    rw [List.length_map, map_range_getD] at this
    exact this
  · have := A.sorted (l.map D)
    rw [List.map_map]
    have e : (A.run (l.map D)).map (fun i => (l.map D)[i]?.getD 0)
        = (A.run (l.map D)).map (D ∘ fun j => l[j]?.getD 0) := by
      apply List.map_congr_left
      intro j hj
      have hj' : j < l.length := by
        have := (A.perm (l.map D)).mem_iff.1 hj
        simpa using this
      simp [hj']
    rw [← e]
    exact this

theorem centreD_ok (s : CStruct) (m : Fin 3 → ℕ) (B : BinList)
    (hB : B.supercell = CSupercell.makeD R s (oddOf m))
    (hself : ∀ a ∈ s.atoms, imagePosD R s.basis a.2 0 = a.2) (i : ℕ) (c : ℤ × Vec ℝ)
    (hc : s.atoms[i]? = some c) : B.centre i = .ok c.2 := by
  unfold BinList.centre
  rw [hB]
  have hz := superShifts_zero_odd m
  have := superAtomsD_get R s _ hz hc
  rw [hself c (List.mem_of_getElem? hc)] at this
  have hp : (0 : ℤ) ≤ primCellIdx (fun i => 2 * (m i : ℤ) + 1) := by
    rw [primCellIdx_odd]; positivity
  have e : ((i : ℤ) + (CSupercell.makeD R s (oddOf m)).primIdx *
      (CSupercell.makeD R s (oddOf m)).primNum)
      = (((primCellIdx (fun i => 2 * (m i : ℤ) + 1)).toNat * s.atoms.length + i : ℕ) : ℤ) := by
    have e0 : oddOf m = fun i => 2 * (m i : ℤ) + 1 := rfl
    simp only [CSupercell.makeD]
    rw [e0, Nat.cast_add, Nat.cast_mul, Int.toNat_of_nonneg hp, add_comm]
  rw [e, cGet_nat (l := (CSupercell.makeD R s (oddOf m)).struct.atoms) this, ok_bind]
  rfl

theorem listsD_core (A : ArgSort) (s : CStruct) (rcut : ℝ) (pbc : Fin 3 → Bool) (sort : Bool)
    (m : Fin 3 → ℕ) (B : BinList)
    (hmk : BinList.makeD R s rcut (fun _ => R (rcut / 2)) pbc = .ok B) (hB : BinOkD R B)
    (hsup : B.supercell = CSupercell.makeD R s (oddOf m))
    (hself : ∀ a ∈ s.atoms, imagePosD R s.basis a.2 0 = a.2)
    (hn : ∀ p, B.pbc p = true → 2 * B.extD R p + 1 ≤ B.numBin p) :
    ∃ N, NbrLists.makeD R A s rcut pbc sort = .ok N ∧ N.bins = B ∧
      ∃ K : List (List ℕ), N.lists = K.map (fun ks => ks.map (fun k : ℕ => (k : ℤ))) ∧
        K.length = s.atoms.length ∧
        ∀ (i : ℕ) (c : ℤ × Vec ℝ), s.atoms[i]? = some c → ∃ ks : List ℕ, K[i]? = some ks ∧ ks.Nodup ∧
          (∀ k, k ∈ ks ↔ k ∈ B.foundD R c.2) ∧
          (sort = true → (ks.map (atomDistD R (s.makeSupercellD R (oddOf m)).atoms c.2)).Pairwise
            (· ≤ ·)) := by
  have hfound : ∀ c, _ := fun c => B.foundD_spec R hB c hn
  have hst : B.supercell.struct = s.makeSupercellD R (oddOf m) := by rw [hsup]; rfl
  rw [hst] at hfound
  have hpn : B.supercell.primNum = s.atoms.length := by rw [hsup]; rfl
  set F : ℕ → List ℕ := fun i => B.foundD R ((s.atoms[i]?).map (fun c => c.2) |>.getD 0) with hF
  have hcen : ∀ (i : ℕ) (c : ℤ × Vec ℝ), s.atoms[i]? = some c → B.centre i = .ok c.2 :=
    centreD_ok R s m B hsup hself
  have hFc : ∀ (i : ℕ) (c : ℤ × Vec ℝ), s.atoms[i]? = some c → F i = B.foundD R c.2 := by
    intro i c h; simp only [hF, h, Option.map_some, Option.getD_some]
  have hlists : (List.range B.supercell.primNum).mapM (B.neighAtomsD R)
      = .ok ((List.range B.supercell.primNum).map (fun i => (F i).map (fun k : ℕ => (k : ℤ)))) := by
    apply mapM_map_ok
    intro i hi
    rw [List.mem_range, hpn] at hi
    have hg := List.getElem?_eq_getElem hi
    rw [B.neighAtomsD_spec R hB i _ (by rw [hpn]; exact hi) (hcen i _ hg), hFc i _ hg]
  unfold NbrLists.makeD
  rw [hmk, ok_bind]
  unfold NbrLists.buildD
  rw [hlists, ok_bind, hpn]
  cases sort with
  | false =>
    refine ⟨⟨B, (List.range s.atoms.length).map (fun i => (F i).map (fun k : ℕ => (k : ℤ)))⟩, rfl, rfl,
      (List.range s.atoms.length).map F, by simp, by simp, ?_⟩
    intro i c hc
    obtain ⟨hi, _⟩ := List.getElem?_eq_some_iff.1 hc
    refine ⟨F i, by simp [hi], ?_, ?_, by simp⟩
    · rw [hFc i c hc]; exact (hfound c.2).1
    · rw [hFc i c hc]; exact fun k => Iff.rfl
  | true =>
    have hsort : ∀ (i : ℕ) (c : ℤ × Vec ℝ), s.atoms[i]? = some c → ∃ l' : List ℕ,
        sortByDistanceD R A B.supercell.struct.atoms c.2 ((F i).map (fun k : ℕ => (k : ℤ)))
          = .ok (l'.map (fun k : ℕ => (k : ℤ))) ∧ l'.Perm (F i) ∧
        (l'.map (atomDistD R B.supercell.struct.atoms c.2)).Pairwise (· ≤ ·) := by
      intro i c hc
      apply sortByDistanceD_spec
      intro k hk
      rw [hFc i c hc] at hk
      obtain ⟨a, ha, _⟩ := (hfound c.2).2.1 k hk
      rw [hst]
      exact (List.getElem?_eq_some_iff.1 ha).1
    have hsort' : ∀ i : ℕ, ∃ l' : List ℕ, ∀ c, s.atoms[i]? = some c →
        sortByDistanceD R A B.supercell.struct.atoms c.2 ((F i).map (fun k : ℕ => (k : ℤ)))
          = .ok (l'.map (fun k : ℕ => (k : ℤ))) ∧ l'.Perm (F i) ∧
        (l'.map (atomDistD R B.supercell.struct.atoms c.2)).Pairwise (· ≤ ·) := by
      intro i
      cases h : s.atoms[i]? with
      | none => exact ⟨[], by simp⟩
      | some c =>
        obtain ⟨l', h'⟩ := hsort i c h
        exact ⟨l', fun c' hc' => by cases hc'; exact h'⟩
    choose G hG using hsort'
    have hz : ((List.range s.atoms.length).map (fun i => (F i).map (fun k : ℕ => (k : ℤ)))).zipIdx
        = (List.range s.atoms.length).map (fun i => ((F i).map (fun k : ℕ => (k : ℤ)), i)) := by
      apply List.ext_getElem?
      intro i
      rw [List.getElem?_zipIdx, List.getElem?_map, List.getElem?_map]
      by_cases h : i < s.atoms.length
      · simp [h]
      · simp [h]
    have hm : ((List.range s.atoms.length).map (fun i => (F i).map (fun k : ℕ => (k : ℤ)))).zipIdx.mapM
        (fun e => (do
          let c ← B.centre e.2
          sortByDistanceD R A B.supercell.struct.atoms c e.1 : Except CErr (List ℤ)))
        = .ok ((List.range s.atoms.length).map (fun i => (G i).map (fun k : ℕ => (k : ℤ)))) := by
      rw [hz, mapM_eq_ok, List.forall₂_map_left_iff, List.forall₂_map_right_iff, List.forall₂_same]
      intro i hi
      rw [List.mem_range] at hi
      have hg := List.getElem?_eq_getElem hi
      simp only [hcen i _ hg, ok_bind]
      exact (hG i _ hg).1
    refine ⟨⟨B, (List.range s.atoms.length).map (fun i => (G i).map (fun k : ℕ => (k : ℤ)))⟩, ?_, rfl,
      (List.range s.atoms.length).map G, by simp, by simp, ?_⟩
    · simp only [if_true]
      rw [hm]
      rfl
    · intro i c hc
      obtain ⟨hi, _⟩ := List.getElem?_eq_some_iff.1 hc
      obtain ⟨_, g2, g3⟩ := hG i c hc
      refine ⟨G i, by simp [hi], ?_, ?_, ?_⟩
      · rw [g2.nodup_iff, hFc i c hc]; exact (hfound c.2).1
      · intro k
        rw [g2.mem_iff, hFc i c hc]
      · intro _
        rw [← hst]; exact g3

/-- The three numbers stored for one image. -/
noncomputable def relCoordsD (L : Fin 3 → Vec ℝ) (ps : List (Vec ℝ)) (c : Vec ℝ) (e : ℕ × (Fin 3 → ℤ)) :
    List ℝ :=
  match ps[e.1]? with
  | some p => [R (imagePosD R L p e.2 0 - c 0), R (imagePosD R L p e.2 1 - c 1),
      R (imagePosD R L p e.2 2 - c 2)]
  | none => []

theorem findInfoD_core (s : CStruct) (m : Fin 3 → ℕ) (N : NbrLists) (umax : ℕ)
    (hsup : N.bins.supercell = CSupercell.makeD R s (oddOf m)) (K : List (List ℕ))
    (hK : N.lists = K.map (fun ks => ks.map (fun k : ℕ => (k : ℤ)))) (hlen : K.length = s.atoms.length)
    (hself : ∀ a ∈ s.atoms, imagePosD R s.basis a.2 0 = a.2)
    (hin : ∀ ks ∈ K, ∀ k ∈ ks, k < (s.makeSupercellD R (oddOf m)).atoms.length)
    (hu : ∀ ks ∈ K, ks.length ≤ umax) :
    ∃ info, N.findInfoD R umax = .ok info ∧ info.inum = s.atoms.length ∧
      info.ilist = (List.range s.atoms.length).map (fun i : ℕ => (i : ℤ)) ∧
      info.types = s.atoms.map Prod.fst ∧ info.nghost = 0 ∧
      info.numneigh = K.map List.length ∧
      ∀ (i : ℕ) (c : ℤ × Vec ℝ) (ks : List ℕ), s.atoms[i]? = some c → K[i]? = some ks →
        flatRow info.firstneigh umax i =
          ((ks.map (imageAt s (oddOf m))).map (fun e => (e.1 : ℤ))) ++
            List.replicate (umax - ks.length) (-1) ∧
        flatRow info.rel (umax * 3) i =
          ((ks.map (imageAt s (oddOf m))).flatMap
            (relCoordsD R s.basis (s.atoms.map Prod.snd) c.2)) ++
            List.replicate ((umax - ks.length) * 3) 0 := by
  set sc := oddOf m with hsc
  have hpn : N.bins.supercell.primNum = s.atoms.length := by rw [hsup]; rfl
  have hat : N.bins.supercell.struct.atoms = (s.makeSupercellD R sc).atoms := by rw [hsup]; rfl
  -- stored atom `k`
  have hstored : ∀ k, k < (s.makeSupercellD R sc).atoms.length → ∃ a, s.atoms[(imageAt s sc k).1]? = some a ∧
      (s.makeSupercellD R sc).atoms[k]? = some (a.1, imagePosD R s.basis a.2 (imageAt s sc k).2) := by
    intro k hk
    obtain ⟨a, h1, h2, _⟩ := imageAtD_get R s sc (List.getElem?_eq_getElem hk)
    exact ⟨a, h1, by rw [List.getElem?_eq_getElem hk, h2]⟩
  -- types
  have hne : superShifts sc ≠ [] := by
    intro h
    have := superShifts_zero_odd m
    have e : (fun i => 2 * (m i : ℤ) + 1) = sc := rfl
    rw [e, h] at this
    simp at this
  have htypes : (List.range s.atoms.length).mapM (fun ii : ℕ => (do
      let a ← cGet (s.makeSupercellD R sc).atoms (ii : ℤ)
      return a.1 : Except CErr ℤ)) = .ok (s.atoms.map Prod.fst) := by
    rw [mapM_eq_ok]
    rw [List.forall₂_iff_get]
    refine ⟨by simp, ?_⟩
    intro i h1 h2
    have hi : i < s.atoms.length := by simpa using h1
    obtain ⟨t, ts, hts⟩ := List.exists_cons_of_ne_nil hne
    have h0 : (superShifts sc)[0]? = some t := by rw [hts]; rfl
    have := superAtomsD_get R s sc h0 (List.getElem?_eq_getElem hi)
    rw [zero_mul, zero_add] at this
    simp only [List.get_eq_getElem, List.getElem_range, List.getElem_map]
    rw [cGet_nat this, ok_bind]
    rfl
  -- firstneigh
  set rowsI : List (List ℤ) := K.map (fun ks => (ks.map (imageAt s sc)).map (fun e => (e.1 : ℤ))) with hrowsI
  have hfirst : N.lists.map (fun l => l.map (fun k => k.tmod (s.atoms.length : ℤ))) = rowsI := by
    rw [hK, hrowsI, List.map_map]
    apply List.map_congr_left
    intro ks _
    simp only [Function.comp, List.map_map]
    apply List.map_congr_left
    intro k _
    exact tmod_imageAt s sc k
  have hw1 := cWriteRows_ok umax (-1 : ℤ) rowsI s.atoms.length (by simp [hrowsI, hlen]) (by
    intro r hr
    rw [hrowsI] at hr
    obtain ⟨ks, hks, rfl⟩ := List.mem_map.1 hr
    simpa using hu ks hks)
  -- relative coordinates
  set C : ℕ → Vec ℝ := fun i => ((s.atoms[i]?).map (fun c => c.2)).getD 0 with hC
  set rowsR : List (List ℝ) := K.zipIdx.map (fun e =>
    (e.1.map (imageAt s sc)).flatMap (relCoordsD R s.basis (s.atoms.map Prod.snd) (C e.2))) with hrowsR
  have hrelCoords : ∀ c k, k < (s.makeSupercellD R sc).atoms.length →
      ∃ b, (s.makeSupercellD R sc).atoms[k]? = some b ∧
      relCoordsD R s.basis (s.atoms.map Prod.snd) c (imageAt s sc k)
        = [R (b.2 0 - c 0), R (b.2 1 - c 1), R (b.2 2 - c 2)] := by
    intro c k hk
    obtain ⟨a, h1, h2⟩ := hstored k hk
    refine ⟨_, h2, ?_⟩
    unfold relCoordsD
    rw [List.getElem?_map, h1]
    rfl
  have hrel : N.lists.zipIdx.mapM (fun e => (do
      let c ← N.bins.centre e.2
      let xs ← e.1.mapM (fun k => (do
        let a ← cGet (s.makeSupercellD R sc).atoms k
        return [R (a.2 0 - c 0), R (a.2 1 - c 1), R (a.2 2 - c 2)] : Except CErr (List ℝ)))
      return xs.flatten : Except CErr (List ℝ))) = .ok rowsR := by
    rw [hK, zipIdx_map_eq, mapM_eq_ok, List.forall₂_map_left_iff, hrowsR, List.forall₂_map_right_iff,
      List.forall₂_same]
    rintro ⟨ks, i⟩ hmem
    have hget := List.mk_mem_zipIdx_iff_getElem?.1 hmem
    obtain ⟨hi, _⟩ := List.getElem?_eq_some_iff.1 hget
    rw [hlen] at hi
    have hg := List.getElem?_eq_getElem hi
    have hCi : C i = s.atoms[i].2 := by simp only [hC, hg, Option.map_some, Option.getD_some]
    simp only [centreD_ok R s m N.bins hsup hself i _ hg, ok_bind]
    rw [List.mapM_map]
    rw [mapM_map_ok (g := fun k => relCoordsD R s.basis (s.atoms.map Prod.snd) (C i) (imageAt s sc k))]
    · rw [ok_bind, ← List.flatMap_def, List.flatMap_map]
      rfl
    · intro k hk
      obtain ⟨b, hb, hr⟩ := hrelCoords (C i) k (hin ks (List.mem_of_getElem? hget) k hk)
      simp only [Function.comp, cGet_nat hb, ok_bind]
      rw [hr, hCi]
      rfl
  have hrlen : ∀ ks ∈ K, ∀ c, ((ks.map (imageAt s sc)).flatMap
      (relCoordsD R s.basis (s.atoms.map Prod.snd) c)).length = ks.length * 3 := by
    intro ks hks c
    rw [flatMap_uniform_length _ _ 3, List.length_map]
    intro e he
    obtain ⟨k, hk, rfl⟩ := List.mem_map.1 he
    obtain ⟨b, _, hr⟩ := hrelCoords c k (hin ks hks k hk)
    rw [hr]; rfl
  have hw2 := cWriteRows_ok (umax * 3) (0 : ℝ) rowsR s.atoms.length (by simp [hrowsR, hlen]) (by
    intro r hr
    rw [hrowsR] at hr
    obtain ⟨⟨ks, i⟩, hmem, rfl⟩ := List.mem_map.1 hr
    have hks := List.mem_of_getElem? (List.mk_mem_zipIdx_iff_getElem?.1 hmem)
    rw [hrlen ks hks]
    exact Nat.mul_le_mul_right 3 (hu ks hks))
  have e3 : ((umax : ℤ) * 3) = ((umax * 3 : ℕ) : ℤ) := by push_cast; ring
  refine ⟨{ inum := s.atoms.length, ilist := (List.range s.atoms.length).map (fun ii : ℕ => (ii : ℤ)),
            numneigh := N.lists.map List.length,
            firstneigh := rowsI.flatMap (fun r => r ++ List.replicate (umax - r.length) (-1)),
            rel := rowsR.flatMap (fun r => r ++ List.replicate (umax * 3 - r.length) 0),
            types := s.atoms.map Prod.fst, nghost := 0 }, ?_, rfl, rfl, rfl, rfl, ?_, ?_⟩
  · unfold NbrLists.findInfoD
    simp only [hpn, hat]
    rw [htypes, ok_bind, hfirst, hw1, ok_bind, hrel, ok_bind, e3, Nat.mul_assoc, hw2, ok_bind]
    rfl
  · simp only [hK, List.map_map]
    apply List.map_congr_left
    intro ks _
    simp
  · intro i c ks hc hks
    have hmem := List.mem_of_getElem? hks
    have hum := hu ks hmem
    constructor
    · have h1 : rowsI[i]? = some ((ks.map (imageAt s sc)).map (fun e => (e.1 : ℤ))) := by
        rw [hrowsI, List.getElem?_map, hks]; rfl
      simp only
      rw [flatRow_flatMap rowsI _ umax ?_ i _ h1]
      · simp
      · intro r hr
        rw [hrowsI] at hr
        obtain ⟨ks', hks', rfl⟩ := List.mem_map.1 hr
        have := hu ks' hks'
        simp
        omega
    · have hCi : C i = c.2 := by simp only [hC, hc, Option.map_some, Option.getD_some]
      have h1 : rowsR[i]? = some ((ks.map (imageAt s sc)).flatMap
          (relCoordsD R s.basis (s.atoms.map Prod.snd) c.2)) := by
        rw [hrowsR, List.getElem?_map, List.getElem?_zipIdx, hks]
        simp [hCi]
      simp only
      rw [flatRow_flatMap rowsR _ (umax * 3) ?_ i _ h1]
      · rw [hrlen ks hmem, Nat.sub_mul]
      · intro r hr
        rw [hrowsR] at hr
        obtain ⟨⟨ks', i'⟩, hm', rfl⟩ := List.mem_map.1 hr
        have hks' := List.mem_of_getElem? (List.mk_mem_zipIdx_iff_getElem?.1 hm')
        have h5 := hu ks' hks'
        have h4 := hrlen ks' hks' (C i')
        rw [List.length_append, List.length_replicate, h4]
        omega

end MaterSDK
