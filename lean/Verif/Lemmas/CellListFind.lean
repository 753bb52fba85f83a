import Verif.Lemmas.CellListInfo

/-! # Rows written by `find_info4mlff` -/

namespace MaterSDK

open Classical Matrix

theorem zipIdx_map_eq {α β : Type} (l : List α) (f : α → β) :
    (l.map f).zipIdx = l.zipIdx.map (fun e => (f e.1, e.2)) := by
  rw [List.zipIdx_map]
  rfl

theorem findInfo_core (s : CStruct) (rcut : ℝ) (pbc : Fin 3 → Bool) (N : NbrLists) (umax : ℕ)
    (hsup : N.bins.supercell = CSupercell.make s (oddScale s rcut pbc)) (K : List (List ℕ))
    (hK : N.lists = K.map (fun ks => ks.map (fun k : ℕ => (k : ℤ)))) (hlen : K.length = s.atoms.length)
    (hin : ∀ ks ∈ K, ∀ k ∈ ks, k < (s.makeSupercell (oddScale s rcut pbc)).atoms.length)
    (hu : ∀ ks ∈ K, ks.length ≤ umax) :
    ∃ info, N.findInfo umax = .ok info ∧ info.inum = s.atoms.length ∧
      info.ilist = (List.range s.atoms.length).map (fun i : ℕ => (i : ℤ)) ∧
      info.types = s.atoms.map Prod.fst ∧ info.nghost = 0 ∧
      info.numneigh = K.map List.length ∧
      ∀ (i : ℕ) (c : ℤ × Vec ℝ) (ks : List ℕ), s.atoms[i]? = some c → K[i]? = some ks →
        flatRow info.firstneigh umax i =
          ((ks.map (imageAt s (oddScale s rcut pbc))).map (fun e => (e.1 : ℤ))) ++
            List.replicate (umax - ks.length) (-1) ∧
        flatRow info.rel (umax * 3) i =
          ((ks.map (imageAt s (oddScale s rcut pbc))).flatMap
            (relCoords s.basis (s.atoms.map Prod.snd) c.2)) ++
            List.replicate ((umax - ks.length) * 3) 0 := by
  set sc := oddScale s rcut pbc with hsc
  have hpn : N.bins.supercell.primNum = s.atoms.length := by rw [hsup]; rfl
  have hat : N.bins.supercell.struct.atoms = (s.makeSupercell sc).atoms := by rw [hsup]; rfl
  -- stored atom `k`
  have hstored : ∀ k, k < (s.makeSupercell sc).atoms.length → ∃ a, s.atoms[(imageAt s sc k).1]? = some a ∧
      (s.makeSupercell sc).atoms[k]? = some (a.1, imagePos s.basis a.2 (imageAt s sc k).2) := by
    intro k hk
    obtain ⟨a, h1, h2, _⟩ := imageAt_get s sc (List.getElem?_eq_getElem hk)
    exact ⟨a, h1, by rw [List.getElem?_eq_getElem hk, h2]⟩
  -- types
  have hne : superShifts sc ≠ [] := by
    intro h
    have := superShifts_zero_odd (halfWidth s rcut pbc)
    have e : (fun i => 2 * (halfWidth s rcut pbc i : ℤ) + 1) = sc := rfl
    rw [e, h] at this
    simp at this
  have htypes : (List.range s.atoms.length).mapM (fun ii : ℕ => (do
      let a ← cGet (s.makeSupercell sc).atoms (ii : ℤ)
      return a.1 : Except CErr ℤ)) = .ok (s.atoms.map Prod.fst) := by
    rw [mapM_eq_ok]
    rw [List.forall₂_iff_get]
    refine ⟨by simp, ?_⟩
    intro i h1 h2
    have hi : i < s.atoms.length := by simpa using h1
    obtain ⟨t, ts, hts⟩ := List.exists_cons_of_ne_nil hne
    have h0 : (superShifts sc)[0]? = some t := by rw [hts]; rfl
    have := superAtoms_get s sc h0 (List.getElem?_eq_getElem hi)
    rw [zero_mul, zero_add] at this
    simp only [List.get_eq_getElem, List.getElem_range, List.getElem_map]
    rw [cGet_nat this, ok_bind]
    rfl
  -- firstneigh
  set rowsI : List (List ℤ) := K.map (fun ks => (ks.map (imageAt s sc)).map (fun e => (e.1 : ℤ))) with hrowsI
  have hfirst : N.lists.map (fun l => l.map (fun k => k.tmod (s.atoms.length : ℤ))) = rowsI := by
    rw [hK, hrowsI, List.map_map]
    apply List.map_congr_left
    intro ks _
    simp only [Function.comp, List.map_map]
    apply List.map_congr_left
    intro k _
    exact tmod_imageAt s sc k
  have hw1 := cWriteRows_ok umax (-1 : ℤ) rowsI s.atoms.length (by simp [hrowsI, hlen]) (by
    intro r hr
    rw [hrowsI] at hr
    obtain ⟨ks, hks, rfl⟩ := List.mem_map.1 hr
    simpa using hu ks hks)
  -- relative coordinates
  set C : ℕ → Vec ℝ := fun i => ((s.atoms[i]?).map (fun c => c.2)).getD 0 with hC
  set rowsR : List (List ℝ) := K.zipIdx.map (fun e =>
    (e.1.map (imageAt s sc)).flatMap (relCoords s.basis (s.atoms.map Prod.snd) (C e.2))) with hrowsR
  have hrelCoords : ∀ c k, k < (s.makeSupercell sc).atoms.length →
      ∃ b, (s.makeSupercell sc).atoms[k]? = some b ∧
      relCoords s.basis (s.atoms.map Prod.snd) c (imageAt s sc k)
        = [b.2 0 - c 0, b.2 1 - c 1, b.2 2 - c 2] := by
    intro c k hk
    obtain ⟨a, h1, h2⟩ := hstored k hk
    refine ⟨_, h2, ?_⟩
    unfold relCoords
    rw [List.getElem?_map, h1]
    rfl
  have hrel : N.lists.zipIdx.mapM (fun e => (do
      let c ← N.bins.centre e.2
      let xs ← e.1.mapM (fun k => (do
        let a ← cGet (s.makeSupercell sc).atoms k
        return [a.2 0 - c 0, a.2 1 - c 1, a.2 2 - c 2] : Except CErr (List ℝ)))
      return xs.flatten : Except CErr (List ℝ))) = .ok rowsR := by
    rw [hK, zipIdx_map_eq, mapM_eq_ok, List.forall₂_map_left_iff, hrowsR, List.forall₂_map_right_iff,
      List.forall₂_same]
    rintro ⟨ks, i⟩ hmem
    have hget := List.mk_mem_zipIdx_iff_getElem?.1 hmem
    obtain ⟨hi, _⟩ := List.getElem?_eq_some_iff.1 hget
    rw [hlen] at hi
    have hg := List.getElem?_eq_getElem hi
    have hCi : C i = s.atoms[i].2 := by simp only [hC, hg, Option.map_some, Option.getD_some]
    simp only [centre_ok s rcut pbc N.bins hsup i _ hg, ok_bind]
    rw [List.mapM_map]
    rw [mapM_map_ok (g := fun k => relCoords s.basis (s.atoms.map Prod.snd) (C i) (imageAt s sc k))]
    · rw [ok_bind, ← List.flatMap_def, List.flatMap_map]
      rfl
    · intro k hk
      obtain ⟨b, hb, hr⟩ := hrelCoords (C i) k (hin ks (List.mem_of_getElem? hget) k hk)
      simp only [Function.comp, cGet_nat hb, ok_bind]
      rw [hr, hCi]
      rfl
  have hrlen : ∀ ks ∈ K, ∀ c, ((ks.map (imageAt s sc)).flatMap
      (relCoords s.basis (s.atoms.map Prod.snd) c)).length = ks.length * 3 := by
    intro ks hks c
    rw [flatMap_uniform_length _ _ 3, List.length_map]
    intro e he
    obtain ⟨k, hk, rfl⟩ := List.mem_map.1 he
    obtain ⟨b, _, hr⟩ := hrelCoords c k (hin ks hks k hk)
    rw [hr]; rfl
  have hw2 := cWriteRows_ok (umax * 3) (0 : ℝ) rowsR s.atoms.length (by simp [hrowsR, hlen]) (by
    intro r hr
    rw [hrowsR] at hr
    obtain ⟨⟨ks, i⟩, hmem, rfl⟩ := List.mem_map.1 hr
    have hks := List.mem_of_getElem? (List.mk_mem_zipIdx_iff_getElem?.1 hmem)
    rw [hrlen ks hks]
    exact Nat.mul_le_mul_right 3 (hu ks hks))
  have e3 : ((umax : ℤ) * 3) = ((umax * 3 : ℕ) : ℤ) := by push_cast; ring
  refine ⟨{ inum := s.atoms.length, ilist := (List.range s.atoms.length).map (fun ii : ℕ => (ii : ℤ)),
            numneigh := N.lists.map List.length,
            firstneigh := rowsI.flatMap (fun r => r ++ List.replicate (umax - r.length) (-1)),
            rel := rowsR.flatMap (fun r => r ++ List.replicate (umax * 3 - r.length) 0),
            types := s.atoms.map Prod.fst, nghost := 0 }, ?_, rfl, rfl, rfl, rfl, ?_, ?_⟩
  · unfold NbrLists.findInfo
    simp only [hpn, hat]
    rw [htypes, ok_bind, hfirst, hw1, ok_bind, hrel, ok_bind, e3, Nat.mul_assoc, hw2, ok_bind]
    rfl
  · simp only [hK, List.map_map]
    apply List.map_congr_left
    intro ks _
    simp
  · intro i c ks hc hks
    have hmem := List.mem_of_getElem? hks
    have hum := hu ks hmem
    constructor
    · have h1 : rowsI[i]? = some ((ks.map (imageAt s sc)).map (fun e => (e.1 : ℤ))) := by
        rw [hrowsI, List.getElem?_map, hks]; rfl
      simp only
      rw [flatRow_flatMap rowsI _ umax ?_ i _ h1]
      · simp
      · intro r hr
        rw [hrowsI] at hr
        obtain ⟨ks', hks', rfl⟩ := List.mem_map.1 hr
        have := hu ks' hks'
        simp
        omega
    · have hCi : C i = c.2 := by simp only [hC, hc, Option.map_some, Option.getD_some]
      have h1 : rowsR[i]? = some ((ks.map (imageAt s sc)).flatMap
          (relCoords s.basis (s.atoms.map Prod.snd) c.2)) := by
        rw [hrowsR, List.getElem?_map, List.getElem?_zipIdx, hks]
        simp [hCi]
      simp only
      rw [flatRow_flatMap rowsR _ (umax * 3) ?_ i _ h1]
      · rw [hrlen ks hmem, Nat.sub_mul]
      · intro r hr
        rw [hrowsR] at hr
        obtain ⟨⟨ks', i'⟩, hm', rfl⟩ := List.mem_map.1 hr
        have hks' := List.mem_of_getElem? (List.mk_mem_zipIdx_iff_getElem?.1 hm')
        have h5 := hu ks' hks'
        have h4 := hrlen ks' hks' (C i')
        rw [List.length_append, List.length_replicate, h4]
        omega

end MaterSDK
