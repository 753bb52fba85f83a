import Verif.Model.NbrShow
import Verif.Props.CellListExact
import Mathlib.Tactic.NormNum

/-! # C207: what a neighbour list shows -/

namespace MaterSDK

/-- C207: the lines of the four printouts of a neighbour list.  Line `i` of each has one number for every
image atom `i` sees, all four in the same order (nearest first if sorted): the place of the image in the
supercell, the atom of the cell it is an image of, its atomic number, its distance from atom `i`. -/
theorem C207_shows (A : ArgSort) (L : Fin 3 → Vec ℝ) (atoms : List (ℤ × Vec ℝ)) (rcut : ℝ)
    (pbc : Fin 3 → Bool) (sort : Bool) (hok : CellOk L atoms pbc) (hr : 0 < rcut) :
    ∃ N an ds, NbrLists.make A (CStruct.make L atoms true) rcut pbc sort = .ok N ∧
      N.showAn = .ok an ∧ N.showDistances = .ok ds ∧
      N.showIndex.length = atoms.length ∧ N.showPrimIndex.length = atoms.length ∧
      an.length = atoms.length ∧ ds.length = atoms.length ∧
      ∀ (i : ℕ) (c : ℤ × Vec ℝ), atoms[i]? = some c → ∃ (imgs : List (ℕ × (Fin 3 → ℤ))) (ks zs : List ℤ)
          (rs : List ℝ), imgs.Nodup ∧
        (∀ e, e ∈ imgs ↔ SeenFrom L pbc (atoms.map Prod.snd) rcut c.2 e) ∧
        (sort = true → rs.Pairwise (· ≤ ·)) ∧
        N.showIndex[i]? = some ((i : ℤ), ks) ∧
        N.showPrimIndex[i]? = some ((i : ℤ), imgs.map fun e => (e.1 : ℤ)) ∧
        an[i]? = some (c.1, zs) ∧ ds[i]? = some (c.1, rs) ∧
        List.Forall₂ (fun e k => ∃ a, atoms[e.1]? = some a ∧
          cGet N.bins.supercell.struct.atoms k = .ok (a.1, imagePos L a.2 e.2)) imgs ks ∧
        List.Forall₂ (fun e z => ∃ a, atoms[e.1]? = some a ∧ z = a.1) imgs zs ∧
        List.Forall₂ (fun e d => ∃ a, atoms[e.1]? = some a ∧ d = dist3 (imagePos L a.2 e.2) c.2) imgs rs := by
  set s := CStruct.make L atoms true with hs
  have hsb : s.basis = L := rfl
  have hsa : s.atoms = atoms := rfl
  obtain ⟨N, h1, h2, h3, K, h4, h5, h6⟩ := lists_core A s rcut (fun _ => rcut / 2) pbc sort
    hok.nonsing hok.nonempty hok.inCell hok.dir hr (fun _ => by linarith)
    (default_bins s rcut pbc hok.nonsing hr hok.perp)
  set sc := oddScale s rcut pbc with hsc
  have hpn : N.bins.supercell.primNum = atoms.length := by rw [h3]; rfl
  have hat : N.bins.supercell.struct.atoms = (s.makeSupercell sc).atoms := by rw [h3]; rfl
  have hin : ∀ ks ∈ K, ∀ k ∈ ks, ∃ a, atoms[(imageAt s sc k).1]? = some a ∧
      (s.makeSupercell sc).atoms[k]? = some (a.1, imagePos L a.2 (imageAt s sc k).2) := by
    intro ks hks k hk
    obtain ⟨i, hi⟩ := List.mem_iff_getElem?.1 hks
    have hlt : i < s.atoms.length := by
      rw [← h5]; exact (List.getElem?_eq_some_iff.1 hi).1
    obtain ⟨ks', g1, _, g3, _⟩ := h6 i _ (List.getElem?_eq_getElem hlt)
    rw [hi] at g1
    cases g1
    obtain ⟨b, hb, _⟩ := (g3 k).1 hk
    obtain ⟨a, q1, q2, _⟩ := imageAt_get s sc hb
    exact ⟨a, q1, hb.trans (congrArg some q2)⟩
  -- the atom in front
  have hfirst : ∀ (i : ℕ) (c : ℤ × Vec ℝ), atoms[i]? = some c → ∃ b,
      (s.makeSupercell sc).atoms[i]? = some b ∧ b.1 = c.1 := by
    intro i c hc
    have := superShifts_zero_odd (halfWidth s rcut pbc)
    have e : (fun i => 2 * (halfWidth s rcut pbc i : ℤ) + 1) = sc := rfl
    rw [e] at this
    have hl := (List.getElem?_eq_some_iff.1 this).1
    have := superAtoms_get s sc (List.getElem?_eq_getElem (show 0 < (superShifts sc).length by omega)) hc
    rw [zero_mul, zero_add] at this
    exact ⟨_, this, rfl⟩
  have hcen : ∀ (i : ℕ) (c : ℤ × Vec ℝ), atoms[i]? = some c → ∃ b,
      cGet (s.makeSupercell sc).atoms ((i : ℤ) + (N.bins.supercell.primNum : ℤ) * N.bins.supercell.primIdx)
        = .ok b ∧ b.2 = c.2 := by
    intro i c hc
    have := centre_ok s rcut pbc N.bins h3 i c hc
    unfold BinList.centre at this
    rw [bind_eq_ok, hat] at this
    obtain ⟨b, q1, q2⟩ := this
    rw [mul_comm]
    exact ⟨b, q1, Except.ok.inj q2⟩
  set Z : ℕ → ℤ := fun i => ((atoms[i]?).map Prod.fst).getD 0 with hZ
  set C : ℕ → Vec ℝ := fun i => ((atoms[i]?).map Prod.snd).getD 0 with hC
  set D : Vec ℝ → ℕ → ℝ := fun c k => atomDist (s.makeSupercell sc).atoms c k with hD
  have hidx : ∀ e ∈ K.zipIdx, ∃ c, atoms[e.2]? = some c := by
    rintro ⟨ks, i⟩ hm
    have hlt := (List.getElem?_eq_some_iff.1 (List.mk_mem_zipIdx_iff_getElem?.1 hm)).1
    exact ⟨_, List.getElem?_eq_getElem (show i < atoms.length by rw [← hsa, ← h5]; exact hlt)⟩
  have hKm : ∀ e ∈ K.zipIdx, e.1 ∈ K := by
    rintro ⟨ks, i⟩ hm
    exact List.mem_of_getElem? (List.mk_mem_zipIdx_iff_getElem?.1 hm)
  have hzs : ∀ ks ∈ K, (ks.map fun k : ℕ => (k : ℤ)).mapM (fun k => (do
      let a ← cGet (s.makeSupercell sc).atoms k
      return a.1 : Except CErr ℤ)) = .ok (ks.map fun k => Z (imageAt s sc k).1) := by
    intro ks hks
    rw [List.mapM_map]
    refine mapM_map_ok ?_
    intro k hk
    obtain ⟨a, q1, q2⟩ := hin ks hks k hk
    simp only [Function.comp, cGet_nat q2, ok_bind, hZ, q1]
    rfl
  have han : N.showAn = .ok (K.zipIdx.map fun e => (Z e.2, e.1.map fun k => Z (imageAt s sc k).1)) := by
    unfold NbrLists.showAn
    rw [h4, zipIdx_map_eq, List.mapM_map]
    refine mapM_map_ok ?_
    intro e he
    obtain ⟨c, hc⟩ := hidx e he
    obtain ⟨b, hb, hbc⟩ := hfirst e.2 c hc
    simp only [Function.comp, hat]
    rw [cGet_nat hb, ok_bind, hzs e.1 (hKm e he), ok_bind]
    simp only [hZ, hc, hbc]
    rfl
  have hds : N.showDistances = .ok (K.zipIdx.map fun e => (Z e.2, e.1.map fun k => D (C e.2) k)) := by
    unfold NbrLists.showDistances
    rw [h4, zipIdx_map_eq, List.mapM_map]
    refine mapM_map_ok ?_
    intro e he
    obtain ⟨c, hc⟩ := hidx e he
    obtain ⟨b, hb, hbc⟩ := hfirst e.2 c hc
    obtain ⟨b', hb', hbc'⟩ := hcen e.2 c hc
    simp only [Function.comp, hat]
    rw [cGet_nat hb, ok_bind, hb', ok_bind, List.mapM_map,
      mapM_map_ok (g := fun k => D (C e.2) k), ok_bind]
    · simp only [hZ, hc, hbc]
      rfl
    · intro k hk
      obtain ⟨a, q1, q2⟩ := hin e.1 (hKm e he) k hk
      simp only [Function.comp, cGet_nat q2, ok_bind, hD, hC, hc, atomDist, q2, hbc']
      simp only [dist3, Fin.sum_univ_three]
      rfl
  refine ⟨N, _, _, h1, han, hds, ?_, ?_, ?_, ?_, ?_⟩
  · simp [NbrLists.showIndex, h4, h5, hsa]
  · simp [NbrLists.showPrimIndex, h4, h5, hsa]
  · simp [h5, hsa]
  · simp [h5, hsa]
  intro i c hc
  obtain ⟨ks, g1, g2, g3, g4⟩ := h6 i c hc
  obtain ⟨k1, k2⟩ := images_spec s rcut pbc hok.nonsing hr hok.inCell c.2
    (hok.inCell c (List.mem_of_getElem? hc)) ks g2 g3
  have hmem := List.mem_of_getElem? g1
  have hz : K.zipIdx[i]? = some (ks, i) := by rw [List.getElem?_zipIdx, g1]; simp
  have hl : N.lists.zipIdx[i]? = some (ks.map (fun k : ℕ => (k : ℤ)), i) := by
    rw [h4, zipIdx_map_eq, List.getElem?_map, hz]; rfl
  have hCi : C i = c.2 := by simp [hC, hc]
  have hZi : Z i = c.1 := by simp [hZ, hc]
  refine ⟨ks.map (imageAt s sc), ks.map (fun k : ℕ => (k : ℤ)),
    ks.map (fun k => Z (imageAt s sc k).1), ks.map (fun k => D c.2 k), k1, ?_, ?_, ?_, ?_, ?_, ?_, ?_, ?_, ?_⟩
  rotate_left 4
  · rw [List.getElem?_map, hz]
    simp only [Option.map_some, hZi]
  · rw [List.getElem?_map, hz]
    simp only [Option.map_some, hZi, hCi]
  · rw [List.forall₂_map_left_iff, List.forall₂_map_right_iff, List.forall₂_same]
    intro k hk
    obtain ⟨a, q1, q2⟩ := hin ks hmem k hk
    exact ⟨a, q1, by rw [hat, cGet_nat q2]⟩
  · rw [List.forall₂_map_left_iff, List.forall₂_map_right_iff, List.forall₂_same]
    intro k hk
    obtain ⟨a, q1, q2⟩ := hin ks hmem k hk
    exact ⟨a, q1, by simp [hZ, q1]⟩
  · rw [List.forall₂_map_left_iff, List.forall₂_map_right_iff, List.forall₂_same]
    intro k hk
    obtain ⟨a, q1, q2⟩ := hin ks hmem k hk
    exact ⟨a, q1, by simp only [hD, atomDist, q2]; rfl⟩
  · intro e
    rw [k2]
    unfold SeenFrom NearBy
    constructor
    · rintro ⟨q1, a, q2, q3, q4⟩
      have : (atoms.map Prod.snd)[e.1]? = some a.2 := by
        rw [List.getElem?_map, ← hsa, q2]; rfl
      refine ⟨⟨q1, a.2, this, q3⟩, ?_⟩
      intro p hp
      rw [this] at hp
      cases hp
      exact q4
    · rintro ⟨⟨q1, p, q2, q3⟩, q4⟩
      have q5 := q4 p q2
      rw [List.getElem?_map] at q2
      obtain ⟨a, ha, rfl⟩ := Option.map_eq_some_iff.1 q2
      exact ⟨q1, a, ha, q3, q5⟩
  · exact g4
  · rw [NbrLists.showIndex, List.getElem?_map, hl]; rfl
  · rw [NbrLists.showPrimIndex, List.getElem?_map, hl, hpn]
    simp only [Option.map_some, List.map_map, Option.some.injEq, Prod.mk.injEq, true_and]
    refine List.map_congr_left ?_
    intro k _
    exact tmod_imageAt s sc k

example (A : ArgSort) := C207_shows A exL exAtoms 3 ![true, true, false] true (exL_ok _ (Or.inr rfl)) (by norm_num)

end MaterSDK
