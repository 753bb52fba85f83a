import Verif.Lemmas.TildeRAux
import Mathlib.Tactic.NormNum

/-! # `PairTildeR` and `TildeR`: properties C134 to C137 -/

namespace MaterSDK

open Classical

/-! ## C134 -/

/-- C134, values: when there are enough slots, the static `TildeR::generate` returns for every centre,
grouped by element, and every element of the neighbours the DeepPot-SE rows of exactly the neighbours of
that element, in the order of the neighbour list, then zeros; the version which fills an array of the
caller leaves nothing of what the array held before. -/
theorem C134_tilde_values (p : LmpIn) (sites : List Centre) (cz : List ℤ) (nzw : List (ℤ × ℕ))
    (extra : List ℤ) (rcut rs : ℝ) (hp : p.Describes sites) (hroom : HasSlots cz nzw sites) :
    tildeGenerateLmp p cz (nzw.map Prod.fst) (nzw.map (fun e => (e.2 : ℤ)) ++ extra) rcut rs
      = .ok ((tildeTable 0 (envAt rcut rs) cz nzw sites).map (List.map some)) ∧
    ∀ arr, arr.length = (cz.map (fun c => sites.countP (fun s => decide (s.z = c)))).sum →
      (∀ row ∈ arr, row.length = (nzw.map Prod.snd).sum) →
      tildeGenerateInto arr p cz (nzw.map Prod.fst) (nzw.map (fun e => (e.2 : ℤ)) ++ extra) rcut rs
        = .ok (tildeTable 0 (envAt rcut rs) cz nzw sites) := by
  obtain ⟨h1, _, h3, _⟩ := tilde_static_ok p sites (reads_of_describes hp) cz nzw extra rcut rs hroom
  simp only [cEnvRow_envAt] at h1 h3
  exact ⟨h1, h3⟩

/-- C134, derivatives: the static `TildeR::deriv` holds in every slot the derivative of the row in the
same slot of `TildeR::generate` with respect to the position of the centre; slots without a neighbour
are zero. -/
theorem C134_tilde_derivatives (p : LmpIn) (sites : List Centre) (cz : List ℤ) (nzw : List (ℤ × ℕ))
    (extra : List ℤ) (rcut rs : ℝ) (h : rs < rcut) (hp : p.Describes sites) (hroom : HasSlots cz nzw sites) :
    ∃ J : Vec ℝ → Vec ℝ → Matrix (Fin 4) (Fin 3) ℝ,
      (∀ q c, q ≠ c → HasFDerivAt (fun y => envAt rcut rs q y)
        ((Matrix.mulVecLin (J q c)).toContinuousLinearMap) c) ∧
      tildeDerivLmp p cz (nzw.map Prod.fst) (nzw.map (fun e => (e.2 : ℤ)) ++ extra) rcut rs
        = .ok (tildeTable 0 J cz nzw sites) ∧
      ∀ arr, arr.length = (cz.map (fun c => sites.countP (fun s => decide (s.z = c)))).sum →
        (∀ row ∈ arr, row.length = (nzw.map Prod.snd).sum) →
        tildeDerivInto arr p cz (nzw.map Prod.fst) (nzw.map (fun e => (e.2 : ℤ)) ++ extra) rcut rs
          = .ok (tildeTable 0 J cz nzw sites) := by
  obtain ⟨_, h2, _, h4⟩ := tilde_static_ok p sites (reads_of_describes hp) cz nzw extra rcut rs hroom
  exact ⟨_, fun q c hqc => hasFDerivAt_centre h q c hqc, h2, h4⟩

example := C134_tilde_values exLmp exCentres [8, 3] [(3, 2), (8, 1)] [7] 3 1 exLmp_describes exLmp_room

example := C134_tilde_derivatives exLmp exCentres [8, 3] [(3, 2), (8, 1)] [7] 3 1 (by norm_num)
  exLmp_describes exLmp_room

/-! ## C135 -/

/-- C135: from a structure to its `TildeR`.  For cells the neighbour list handles, building `TildeR` from
a structure never fails; the number of slots of an element is the largest number of neighbours of that
element around any atom; and `generate` and `deriv` hold for every atom of the listed elements the rows,
and their derivatives with respect to the position of the atom, of exactly the periodic images closer
than the cutoff. -/
theorem C135_structure_to_tilde (A : ArgSort) (L : Fin 3 → Vec ℝ) (atoms : List (ℤ × Vec ℝ)) (rcut rs : ℝ)
    (pbc : Fin 3 → Bool) (sort : Bool) (hok : CellOk L atoms pbc) (hr : 0 < rcut) (hrs : rs < rcut)
    (hap : ApartImages L (atoms.map Prod.snd)) (cz nz : List ℤ) :
    ∃ T I, Tilde.ofStructure A (CStruct.make L atoms true) rcut pbc sort cz nz rs = .ok T ∧
      ListsImages L pbc atoms rcut sort I ∧
      ∃ width : ℤ → ℕ,
        (∀ z w, width z ≤ w ↔ ∀ imgs ∈ I, imgs.countP (fun e => decide ((imageAtom L atoms e).1 = z)) ≤ w) ∧
        T.nn = nz.map (fun z => (width z : ℤ)) ∧
        T.generate = .ok ((tildeTable 0 (envAt rcut rs) cz (nz.map (fun z => (z, width z)))
          (crystalCentres L atoms I)).map (List.map some)) ∧
        ∃ J : Vec ℝ → Vec ℝ → Matrix (Fin 4) (Fin 3) ℝ,
          (∀ q c, q ≠ c → HasFDerivAt (fun y => envAt rcut rs q y)
            ((Matrix.mulVecLin (J q c)).toContinuousLinearMap) c) ∧
          T.deriv = .ok (tildeTable 0 J cz (nz.map (fun z => (z, width z))) (crystalCentres L atoms I)) := by
  obtain ⟨N, h1, h2, I, h3, h4, h5, h6, _⟩ := nbr_reads A L atoms rcut pbc sort hok hr hap
  set width : ℤ → ℕ := fun z => runningMax (I.map (fun imgs =>
    (imgs.map (imageAtom L atoms)).countP (fun q => decide (q.1 = z)))) with hwidth
  have hw : ∀ z w, width z ≤ w ↔ ∀ imgs ∈ I,
      imgs.countP (fun e => decide ((imageAtom L atoms e).1 = z)) ≤ w := by
    intro z w
    constructor
    · intro h imgs hi
      refine le_trans ?_ h
      have := le_runningMax (List.mem_map_of_mem (f := fun imgs : List (ℕ × (Fin 3 → ℤ)) =>
        (imgs.map (imageAtom L atoms)).countP (fun q => decide (q.1 = z))) hi)
      rw [List.countP_map] at this
      exact this
    · intro h
      apply runningMax_le
      intro x hx
      obtain ⟨imgs, hi, rfl⟩ := List.mem_map.1 hx
      rw [List.countP_map]
      exact h imgs hi
  have hroom : HasSlots cz (nz.map (fun z => (z, width z))) (crystalCentres L atoms I) := by
    intro s hs _ e he
    obtain ⟨z, _, rfl⟩ := List.mem_map.1 he
    unfold crystalCentres at hs
    obtain ⟨x, hx, rfl⟩ := List.mem_map.1 hs
    have := (hw z (width z)).1 le_rfl x.2 (List.of_mem_zip hx).2
    rw [List.countP_map]
    exact this
  obtain ⟨g1, g2⟩ := tilde_member_ok N _ h4 cz (nz.map (fun z => (z, width z))) rs hroom
  have hcount : ∀ c, atoms.countP (fun a => decide (a.1 = c))
      = (crystalCentres L atoms I).countP (fun s => decide (s.z = c)) := crystalCentres_count L atoms I h3.1
  have hT : Tilde.ofStructure A (CStruct.make L atoms true) rcut pbc sort cz nz rs
      = .ok (Tilde.mk N cz ((nz.map (fun z => (z, width z))).map Prod.fst)
        (cz.map (fun c => (crystalCentres L atoms I).countP (fun s => decide (s.z = c))))
        ((nz.map (fun z => (z, width z))).map (fun e => (e.2 : ℤ))) rs) := by
    unfold Tilde.ofStructure Tilde.makeAuto
    rw [h1, ok_bind, mapM_map_ok (fun c _ => h5 c), ok_bind, mapM_map_ok (fun z _ => h6 z), ok_bind]
    refine congrArg Except.ok ?_
    simp only [hcount, List.map_map, Function.comp_def, List.map_id']
    rfl
  refine ⟨_, I, hT, h3, width, hw, by simp [Function.comp_def], ?_, ?_⟩
  · rw [g1, h2]
    simp only [cEnvRow_envAt]
  · refine ⟨_, fun q c hqc => hasFDerivAt_centre hrs q c hqc, ?_⟩
    rw [g2, h2]

/-- C135 for one pair of elements: `PairTildeR` with automatic width. -/
theorem C135_pair (A : ArgSort) (L : Fin 3 → Vec ℝ) (atoms : List (ℤ × Vec ℝ)) (rcut rs : ℝ)
    (pbc : Fin 3 → Bool) (sort : Bool) (hok : CellOk L atoms pbc) (hr : 0 < rcut) (hrs : rs < rcut)
    (hap : ApartImages L (atoms.map Prod.snd)) (cz nz : ℤ) :
    ∃ N I, NbrLists.make A (CStruct.make L atoms true) rcut pbc sort = .ok N ∧
      ListsImages L pbc atoms rcut sort I ∧ ∃ P w, PairTilde.makeAuto N cz nz rs = .ok P ∧
      (∀ m : ℕ, w ≤ m ↔ ∀ s ∈ crystalCentres L atoms I, s.z = cz →
        s.nbrs.countP (fun q => decide (q.1 = nz)) ≤ m) ∧
      P.generate = .ok (tildeTable 0 (envAt rcut rs) [cz] [(nz, w)] (crystalCentres L atoms I)) ∧
      ∃ J : Vec ℝ → Vec ℝ → Matrix (Fin 4) (Fin 3) ℝ,
        (∀ q c, q ≠ c → HasFDerivAt (fun y => envAt rcut rs q y)
          ((Matrix.mulVecLin (J q c)).toContinuousLinearMap) c) ∧
        P.deriv = .ok (tildeTable 0 J [cz] [(nz, w)] (crystalCentres L atoms I)) := by
  obtain ⟨N, h1, h2, I, h3, h4, h5, _, h7⟩ := nbr_reads A L atoms rcut pbc sort hok hr hap
  have hle := maxNbrs_le (crystalCentres L atoms I) cz nz
  set w := runningMax ((crystalCentres L atoms I).map (fun s =>
    if s.z = cz then s.nbrs.countP (fun q => decide (q.1 = nz)) else 0)) with hw
  have hP : PairTilde.makeAuto N cz nz rs = .ok ⟨N, cz, nz,
      (crystalCentres L atoms I).countP (fun s => decide (s.z = cz)), (w : ℤ), rs⟩ := by
    unfold PairTilde.makeAuto
    rw [h5, ok_bind, h7, ok_bind, crystalCentres_count L atoms I h3.1]
    rfl
  refine ⟨N, I, h1, h3, _, w, hP, hle, ?_, _, fun q c hqc => hasFDerivAt_centre hrs q c hqc, ?_⟩
  · rw [PairTilde.generate_eq]
    refine (pairMember_ok N _ h4 _ 0 true cz nz w ((hle w).1 le_rfl)).trans ?_
    simp [pairRows, tildeTable, h2, cEnvRow_envAt]
  · rw [PairTilde.deriv_eq]
    refine (pairMember_ok N _ h4 _ 0 false cz nz w ((hle w).1 le_rfl)).trans ?_
    simp [pairRows, tildeTable, h2]

example (A : ArgSort) := C135_structure_to_tilde A exL exAtoms 3 1 (fun _ => true) true
  (exL_ok _ (Or.inl rfl)) (by norm_num) (by norm_num) exL_apart [8, 3] [3, 8]

example (A : ArgSort) := C135_pair A exL exAtoms 3 1 ![true, true, false] false
  (exL_ok _ (Or.inr rfl)) (by norm_num) (by norm_num) exL_apart 8 3

/-! ## C136 -/

/-- C136 for the static functions: when some centre has more neighbours of an element than slots, no
table is returned, the assertion fails. -/
theorem C136_static_too_few_partial (p : LmpIn) (sites : List Centre) (cz : List ℤ) (nzw : List (ℤ × ℕ))
    (extra : List ℤ) (rcut rs : ℝ) (hp : p.Describes sites) (hroom : ¬ HasSlots cz nzw sites) :
    tildeGenerateLmp p cz (nzw.map Prod.fst) (nzw.map (fun e => (e.2 : ℤ)) ++ extra) rcut rs
      = .error .assertFail ∧
    tildeDerivLmp p cz (nzw.map Prod.fst) (nzw.map (fun e => (e.2 : ℤ)) ++ extra) rcut rs
      = .error .assertFail ∧
    (∀ arr, arr.length = (cz.map (fun c => sites.countP (fun s => decide (s.z = c)))).sum →
      (∀ row ∈ arr, row.length = (nzw.map Prod.snd).sum) →
      tildeGenerateInto arr p cz (nzw.map Prod.fst) (nzw.map (fun e => (e.2 : ℤ)) ++ extra) rcut rs
        = .error .assertFail) ∧
    ∀ arr, arr.length = (cz.map (fun c => sites.countP (fun s => decide (s.z = c)))).sum →
      (∀ row ∈ arr, row.length = (nzw.map Prod.snd).sum) →
      tildeDerivInto arr p cz (nzw.map Prod.fst) (nzw.map (fun e => (e.2 : ℤ)) ++ extra) rcut rs
        = .error .assertFail :=
  tilde_static_err p sites (reads_of_describes hp) cz nzw extra rcut rs hroom

/-- C136 fails for the member functions: with too few slots they write outside the array of the pair. -/
theorem C136_violated_member (A : ArgSort) (L : Fin 3 → Vec ℝ) (atoms : List (ℤ × Vec ℝ)) (rcut rs : ℝ)
    (pbc : Fin 3 → Bool) (sort : Bool) (hok : CellOk L atoms pbc) (hr : 0 < rcut)
    (hap : ApartImages L (atoms.map Prod.snd)) (cz : List ℤ) (nzw : List (ℤ × ℕ)) (extra : List ℤ) :
    ∃ N I T, NbrLists.make A (CStruct.make L atoms true) rcut pbc sort = .ok N ∧
      ListsImages L pbc atoms rcut sort I ∧
      Tilde.makeWith N cz (nzw.map Prod.fst) (nzw.map (fun e => (e.2 : ℤ)) ++ extra) rs = .ok T ∧
      (¬ HasSlots cz nzw (crystalCentres L atoms I) →
        T.generate = .error .outOfBounds ∧ T.deriv = .error .outOfBounds) := by
  obtain ⟨N, h1, _, I, h3, h4, h5, _, _⟩ := nbr_reads A L atoms rcut pbc sort hok hr hap
  refine ⟨N, I, _, h1, h3, makeWith_tilde L atoms I N cz nzw extra rs h3.1 h5, ?_⟩
  intro hroom
  exact tilde_member_oob N _ h4 cz nzw rs hroom

example := C136_static_too_few_partial exLmp exCentres [8, 3] [(3, 1), (8, 0)] [] 3 1 exLmp_describes
  exLmp_crowded

/-- The crystal of the example has more neighbours than this `TildeR` has slots. -/
example (A : ArgSort) : ∃ N T, NbrLists.make A (CStruct.make exL exAtoms true) 3 (fun _ => true) true = .ok N ∧
    Tilde.makeWith N [3] [8] [0] 1 = .ok T ∧ T.generate = .error .outOfBounds ∧
    T.deriv = .error .outOfBounds := by
  obtain ⟨N, I, T, h1, h2, h3, h4⟩ := C136_violated_member A exL exAtoms 3 1 (fun _ => true) true
    (exL_ok _ (Or.inl rfl)) (by norm_num) exL_apart [3] [(8, 0)] []
  exact ⟨N, T, h1, h3, h4 (ex_crowded I h2)⟩

/-! ## C137 -/

/-- C137: with enough slots the member functions of `TildeR` return the tables the static functions
compute from the arrays of the same neighbour list. -/
theorem C137_member_static (A : ArgSort) (L : Fin 3 → Vec ℝ) (atoms : List (ℤ × Vec ℝ)) (rcut rs : ℝ)
    (pbc : Fin 3 → Bool) (sort : Bool) (hok : CellOk L atoms pbc) (hr : 0 < rcut)
    (hap : ApartImages L (atoms.map Prod.snd)) (cz : List ℤ) (nzw : List (ℤ × ℕ)) (extra : List ℤ)
    (hroom : ∀ (i : ℕ) (c : ℤ × Vec ℝ), atoms[i]? = some c → c.1 ∈ cz → ∀ e ∈ nzw,
      ∀ l : List (ℕ × (Fin 3 → ℤ)), l.Nodup → (∀ x ∈ l, NearBy L pbc (atoms.map Prod.snd) rcut c.2 x ∧
        x ≠ (i, 0) ∧ (atoms[x.1]?).map Prod.fst = some e.1) → l.length ≤ e.2) :
    ∃ N T vals ders, NbrLists.make A (CStruct.make L atoms true) rcut pbc sort = .ok N ∧
      Tilde.makeWith N cz (nzw.map Prod.fst) (nzw.map (fun e => (e.2 : ℤ)) ++ extra) rs = .ok T ∧
      T.generate = .ok vals ∧ T.deriv = .ok ders ∧
      tildeGenerateLmp N.toLmp cz (nzw.map Prod.fst) (nzw.map (fun e => (e.2 : ℤ)) ++ extra) rcut rs
        = .ok vals ∧
      tildeDerivLmp N.toLmp cz (nzw.map Prod.fst) (nzw.map (fun e => (e.2 : ℤ)) ++ extra) rcut rs
        = .ok ders := by
  obtain ⟨N, h1, h2, I, h3, h4, h5, _, _⟩ := nbr_reads A L atoms rcut pbc sort hok hr hap
  have hslots := hasSlots_crystal L pbc atoms rcut sort I h3 cz nzw hroom
  obtain ⟨g1, g2⟩ := tilde_member_ok N _ h4 cz nzw rs hslots
  obtain ⟨k1, k2, _⟩ := tilde_static_ok N.toLmp _ (toLmp_reads h4) cz nzw extra rcut rs hslots
  rw [h2] at g1 g2
  exact ⟨N, _, _, _, h1, makeWith_tilde L atoms I N cz nzw extra rs h3.1 h5, g1, g2, k1, k2⟩

example (A : ArgSort) := C137_member_static A exL exTyped 3 1 (fun _ => true) true exTyped_ok
  (by norm_num) exL_apart [1, 0] [(0, 2), (1, 2)] []
  (by
    intro i c hc _ e he l hl h
    have he2 : e.2 = 2 := by
      simp only [List.mem_cons, List.not_mem_nil, or_false] at he
      rcases he with rfl | rfl <;> rfl
    rw [he2]
    exact (hl.subperm (fun x hx => exTyped_near i c hc x (h x hx).1 (h x hx).2.1)).length_le)

end MaterSDK
