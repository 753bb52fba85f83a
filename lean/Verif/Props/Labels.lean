import Verif.Lemmas.TildeEnv
import Verif.Props.EnvMatrix

/-! # C217 and C218: element numbers do not influence the neighbour lists, and `TildeR` agrees with `EnvMatrix` -/

namespace MaterSDK

open Classical

/-! ## C217 -/

/-- C217: the tables of the neighbour list depend on the positions only.  Giving the atoms other element
numbers changes nothing but the column of the types, for every input, and an input that makes the code
fail still makes it fail in the same way.  `R` is the rounding: `flR` for doubles. -/
theorem C217_labels (R : ℝ → ℝ) (A : ArgSort) (f : ℤ → ℤ) (L : Fin 3 → Vec ℝ) (atoms : List (ℤ × Vec ℝ))
    (cart : Bool) (rcut : ℝ) (pbc : Fin 3 → Bool) (sort : Bool) (umax : ℕ) :
    (NbrLists.makeD R A (CStruct.makeD R L (relabel f atoms) cart) rcut pbc sort >>= fun N => N.findInfoD R umax)
      = (NbrLists.makeD R A (CStruct.makeD R L atoms cart) rcut pbc sort >>= fun N =>
          N.findInfoD R umax >>= fun i => .ok { i with types := i.types.map f }) := by
  rw [nbrD_relabel, bind_assoc]
  congr 1
  funext N
  exact findInfoD_relabel R f N umax

/-- C217 for the lists themselves and for the counts of neighbours: they are those of the original
structure, if different elements keep different numbers. -/
theorem C217_counts (A : ArgSort) (f : ℤ → ℤ) (L : Fin 3 → Vec ℝ) (atoms : List (ℤ × Vec ℝ))
    (cart : Bool) (rcut : ℝ) (pbc : Fin 3 → Bool) (sort : Bool) (N : NbrLists)
    (h : NbrLists.make A (CStruct.make L atoms cart) rcut pbc sort = .ok N) :
    ∃ N', NbrLists.make A (CStruct.make L (relabel f atoms) cart) rcut pbc sort = .ok N' ∧
      N'.lists = N.lists ∧ N'.maxNum = N.maxNum ∧
      (Function.Injective f → ∀ cz nz, N'.maxNumOf (f cz) (f nz) = N.maxNumOf cz nz ∧
        N'.maxNbrsOf (f nz) = N.maxNbrsOf nz) := by
  refine ⟨N.relabel f, by rw [nbr_relabel, h, ok_bind], rfl, rfl, ?_⟩
  intro hf cz nz
  have hc : ∀ l, (N.relabel f).countOf (f nz) l = N.countOf nz l := by
    intro l
    unfold NbrLists.countOf
    have e : (l.mapM fun k => do
          let a ← cGet (N.relabel f).bins.supercell.struct.atoms k
          return a.1)
        = ((l.mapM fun k => do
          let a ← cGet N.bins.supercell.struct.atoms k
          return a.1) >>= fun t => .ok (t.map f) : Except CErr (List ℤ)) := by
      induction l with
      | nil => rfl
      | cons k l ih =>
        have e2 : (N.relabel f).bins.supercell.struct.atoms = relabel f N.bins.supercell.struct.atoms := rfl
        rw [e2] at ih ⊢
        rw [List.mapM_cons, List.mapM_cons, ih, cGet_relabel]
        cases cGet N.bins.supercell.struct.atoms k with
        | error e => rfl
        | ok a =>
          simp only [ok_bind, bind_assoc, pure_bind]
          rfl
    rw [e, bind_assoc]
    congr 1
    funext t
    rw [ok_bind, List.count_map_of_injective _ _ hf]
  constructor
  · unfold NbrLists.maxNumOf
    congr 1
    refine mapM_congr_mem (fun e _ => ?_)
    show (cGet (relabel f _) _ >>= _) = _
    rw [cGet_relabel, bind_assoc]
    congr 1
    funext a
    simp only [ok_bind, hf.eq_iff, hc]
  · unfold NbrLists.maxNbrsOf
    congr 1
    exact mapM_congr_mem (fun l _ => hc l)

example (A : ArgSort) := C217_labels flR A (fun z => if z = 3 then 8 else 3) exL exAtoms true 3 (fun _ => true) true 4

/-- Lithium and oxygen as elements 0 and 1: the code succeeds and finds the same lists. -/
example (A : ArgSort) : ∃ N N', NbrLists.make A (CStruct.make exL exTyped true) 3 (fun _ => true) true = .ok N ∧
    NbrLists.make A (CStruct.make exL (relabel (fun z => if z = 0 then 3 else 8) exTyped) true) 3
      (fun _ => true) true = .ok N' ∧ N'.lists = N.lists := by
  obtain ⟨N, h, _⟩ := nbr_exact A exL exTyped 3 (fun _ => true) true exTyped_ok (by norm_num)
  obtain ⟨N', h', e, _⟩ := C217_counts A (fun z => if z = 0 then 3 else 8) exL exTyped true 3 (fun _ => true) true N h
  exact ⟨N, N', h, h', e⟩

/-! ## C218 -/

/-- C218: the two C++ implementations of the environment matrix agree.  Build `TildeR` from a structure,
and build `EnvMatrix` from the same structure with the elements numbered by their place in the list of
elements, with as many slots per element as `TildeR` chose.  Then nothing fails, and the rows of an atom
in `TildeR::generate` are the rows of that atom in `EnvMatrix`, slot by slot, padding included; the
derivatives of `TildeR` (with respect to the atom) are those of `EnvMatrix` (with respect to the
neighbour) with the opposite sign. -/
theorem C218_agree (A : ArgSort) (L : Fin 3 → Vec ℝ) (atoms : List (ℤ × Vec ℝ)) (rcut rs : ℝ)
    (pbc : Fin 3 → Bool) (sort : Bool) (hok : CellOk L atoms pbc) (hr : 0 < rcut)
    (hap : ApartImages L (atoms.map Prod.snd)) (cz els : List ℤ) (hnd : els.Nodup)
    (hels : ∀ a ∈ atoms, a.1 ∈ els) :
    ∃ (T : Tilde) (umax : List ℕ) (N : NbrLists) (info : MlffInfo)
      (out : List ((Fin 4 → ℝ) × Matrix (Fin 4) (Fin 3) ℝ)),
      Tilde.ofStructure A (CStruct.make L atoms true) rcut pbc sort cz els rs = .ok T ∧
      T.nn = umax.map (fun m : ℕ => (m : ℤ)) ∧ umax.length = els.length ∧
      NbrLists.make A (CStruct.make L (relabel (fun z => ((els.idxOf z : ℕ) : ℤ)) atoms) true) rcut pbc sort
        = .ok N ∧
      N.findInfo umax.sum = .ok info ∧
      envFind ⟨info.inum, info.numneigh.map (fun k : ℕ => (k : ℤ)), info.firstneigh, info.types,
        umax.map (fun m : ℕ => (m : ℤ))⟩ info.rel rcut rs = .ok out ∧
      T.generate = .ok (cz.flatMap (fun z => ((List.range atoms.length).filter
        (fun i => decide ((atoms[i]?).map Prod.fst = some z))).map (fun i =>
          (flatRow out umax.sum i).map (fun e => some e.1)))) ∧
      T.deriv = .ok (cz.flatMap (fun z => ((List.range atoms.length).filter
        (fun i => decide ((atoms[i]?).map Prod.fst = some z))).map (fun i =>
          (flatRow out umax.sum i).map (fun e => -e.2)))) := by
  obtain ⟨N, h1, h2, I, h0, h3, h4, h5, h6, _⟩ := nbr_reads_lists A L atoms rcut pbc sort hok hr hap
  set width : ℤ → ℕ := fun z => runningMax (I.map (fun imgs =>
    (imgs.map (imageAtom L atoms)).countP (fun q => decide (q.1 = z)))) with hwidth
  have hw : ∀ z, ∀ imgs ∈ I, imgs.countP (fun e => decide ((imageAtom L atoms e).1 = z)) ≤ width z := by
    intro z imgs hi
    have := le_runningMax (List.mem_map_of_mem (f := fun imgs : List (ℕ × (Fin 3 → ℤ)) =>
      (imgs.map (imageAtom L atoms)).countP (fun q => decide (q.1 = z))) hi)
    rw [List.countP_map] at this
    exact this
  have hroom : HasSlots cz (els.map (fun z => (z, width z))) (crystalCentres L atoms I) := by
    intro s hs _ e he
    obtain ⟨z, _, rfl⟩ := List.mem_map.1 he
    unfold crystalCentres at hs
    obtain ⟨x, hx, rfl⟩ := List.mem_map.1 hs
    rw [List.countP_map]
    exact hw z x.2 (List.of_mem_zip hx).2
  obtain ⟨g1, g2⟩ := tilde_member_ok N _ h4 cz (els.map (fun z => (z, width z))) rs hroom
  have hT : Tilde.ofStructure A (CStruct.make L atoms true) rcut pbc sort cz els rs
      = .ok (Tilde.mk N cz ((els.map (fun z => (z, width z))).map Prod.fst)
        (cz.map (fun c => (crystalCentres L atoms I).countP (fun s => decide (s.z = c))))
        ((els.map (fun z => (z, width z))).map (fun e => (e.2 : ℤ))) rs) := by
    unfold Tilde.ofStructure Tilde.makeAuto
    rw [h1, ok_bind, mapM_map_ok (fun c _ => h5 c), ok_bind, mapM_map_ok (fun z _ => h6 z), ok_bind]
    refine congrArg Except.ok ?_
    simp only [crystalCentres_count L atoms I h3.1, List.map_map, Function.comp_def, List.map_id']
    rfl
  set f : ℤ → ℤ := fun z => ((els.idxOf z : ℕ) : ℤ) with hf
  have hatom : ∀ (i : ℕ) (c : ℤ × Vec ℝ) (imgs : List (ℕ × (Fin 3 → ℤ))), atoms[i]? = some c →
      I[i]? = some imgs → ∀ e ∈ imgs, ∃ a, atoms[e.1]? = some a ∧ a ∈ atoms := by
    intro i c imgs hc hi e he
    obtain ⟨imgs', k1, _, k3, _⟩ := h3.2 i c hc
    rw [hi] at k1; cases k1
    obtain ⟨⟨_, p, hp, _⟩, _⟩ := (k3 e).1 he
    rw [List.getElem?_map] at hp
    obtain ⟨a, ha, _⟩ := Option.map_eq_some_iff.1 hp
    exact ⟨a, ha, List.mem_of_getElem? ha⟩
  obtain ⟨N', info, out, n1, n2, n3, n4⟩ := env_core_lists A L (relabel f atoms) rcut rs pbc sort
    (cellOk_relabel hok) hr (by rw [relabel_pos]; exact hap) (els.map width)
    (by
      intro a ha
      obtain ⟨b, hb, rfl⟩ := List.mem_map.1 ha
      refine ⟨Int.natCast_nonneg _, ?_⟩
      rw [List.length_map]
      show ((els.idxOf b.1 : ℕ) : ℤ) < _
      exact_mod_cast List.idxOf_lt_length_of_mem (hels b hb))
    (by
      intro i c hc t m hm l hl h
      rw [relabel_get] at hc
      obtain ⟨c0, hc0, rfl⟩ := Option.map_eq_some_iff.1 hc
      rw [List.getElem?_map] at hm
      obtain ⟨z, hz, rfl⟩ := Option.map_eq_some_iff.1 hm
      obtain ⟨imgs, k1, k2, k3, _⟩ := h3.2 i c0 hc0
      refine le_trans ?_ (hw z imgs (List.mem_of_getElem? k1))
      rw [List.countP_eq_length_filter]
      refine (hl.subperm ?_).length_le
      intro e he
      obtain ⟨q1, q2, q3⟩ := h e he
      rw [relabel_pos] at q1
      have hin := (k3 e).2 ⟨q1, q2⟩
      obtain ⟨a, ha, ham⟩ := hatom i c0 imgs hc0 k1 e hin
      rw [relabel_get, ha] at q3
      have q4 : els.idxOf a.1 = t := by
        have : ((els.idxOf a.1 : ℕ) : ℤ) = (t : ℤ) := Option.some.inj q3
        exact_mod_cast this
      have hg := List.getElem_idxOf (List.idxOf_lt_length_of_mem (hels a ham))
      obtain ⟨hlt, hz'⟩ := List.getElem?_eq_some_iff.1 hz
      rw [List.mem_filter]
      refine ⟨hin, ?_⟩
      simp only [imageAtom, ha, decide_eq_true_eq]
      rw [← hg, ← hz']
      simp only [q4])
  have hN' : N' = N.relabel f := by
    rw [nbr_relabel, h1, ok_bind] at n1
    exact (Except.ok.inj n1).symm
  have hrow : ∀ (i : ℕ) (c : ℤ × Vec ℝ) (imgs : List (ℕ × (Fin 3 → ℤ))), atoms[i]? = some c →
      I[i]? = some imgs → flatRow out (els.map width).sum i
        = typeBlocks (0, 0) (els.map width) (imgs.map (fun e => (((els.idxOf (imageAtom L atoms e).1 : ℕ) : ℤ),
            (cEnvRow rcut rs ((imageAtom L atoms e).2 - c.2), cEnvDeriv rcut rs ((imageAtom L atoms e).2 - c.2))))) := by
    intro i c imgs hc hi
    obtain ⟨imgs', k0, _, _, _, k4, _⟩ := n4 i (f c.1, c.2) (by rw [relabel_get, hc]; rfl)
    rw [listedImages_relabel, hN'] at k0
    have k0' : I[i]? = some imgs' := by rw [h0]; exact k0
    rw [hi] at k0'
    cases k0'
    rw [k4]
    congr 1
    refine List.map_congr_left ?_
    intro e he
    obtain ⟨a, ha, _⟩ := hatom i c imgs hc hi e he
    simp only [imageBoth, imageAtom, relabel_get, ha, Option.map_some, hf]
  have hmem : ∀ (i : ℕ) (c : ℤ × Vec ℝ) (imgs : List (ℕ × (Fin 3 → ℤ))), atoms[i]? = some c →
      I[i]? = some imgs → ∀ e ∈ imgs, (imageAtom L atoms e).1 ∈ els := by
    intro i c imgs hc hi e he
    obtain ⟨a, ha, ham⟩ := hatom i c imgs hc hi e he
    simp only [imageAtom, ha]
    exact hels a ham
  have hslots : ∀ {α : Type} (zero : α) (g : Vec ℝ → α) (imgs : List (ℕ × (Fin 3 → ℤ))),
      (∀ e ∈ imgs, (imageAtom L atoms e).1 ∈ els) →
      (els.map (fun z => (z, width z))).flatMap (slotsOf zero g (imgs.map (imageAtom L atoms)))
        = typeBlocks zero (els.map width) (imgs.map (fun e => (((els.idxOf (imageAtom L atoms e).1 : ℕ) : ℤ),
            g (imageAtom L atoms e).2))) := by
    intro α zero g imgs h
    rw [← slots_blocks zero els hnd width imgs (fun e => (imageAtom L atoms e).1)
      (fun e => g (imageAtom L atoms e).2) h]
    refine List.flatMap_congr ?_
    intro e _
    unfold slotsOf
    rw [List.filter_map, List.map_map, List.countP_map]
    rfl
  refine ⟨_, els.map width, N', info, out, hT, by simp [Function.comp_def], by simp, n1, n2, n3, ?_, ?_⟩
  · rw [g1, h2, tildeTable_rows 0 _ cz _ L atoms I h3.1
      (fun i => (flatRow out (els.map width).sum i).map Prod.fst)]
    · simp only [List.map_flatMap, List.map_map, Function.comp_def]
    · intro i c imgs hc hi
      rw [hslots 0 _ imgs (hmem i c imgs hc hi), hrow i c imgs hc hi, typeBlocks_map, List.map_map]
      rfl
  · rw [g2, h2, tildeTable_rows 0 _ cz _ L atoms I h3.1
      (fun i => (flatRow out (els.map width).sum i).map (fun e => -e.2))]
    intro i c imgs hc hi
    rw [hslots 0 _ imgs (hmem i c imgs hc hi), hrow i c imgs hc hi, typeBlocks_map, List.map_map, neg_zero]
    simp only [se4pwDeriv_neg, Function.comp_def]

/-- The hypotheses hold for the cell with one lithium and one oxygen atom. -/
example (A : ArgSort) := C218_agree A exL exAtoms 3 1 (fun _ => true) true (exL_ok _ (Or.inl rfl)) (by norm_num) exL_apart
  [8, 3] [3, 8] (by decide) (by
    intro a ha
    simp only [exAtoms, List.mem_cons, List.not_mem_nil, or_false] at ha
    rcases ha with rfl | rfl <;> simp)

end MaterSDK
