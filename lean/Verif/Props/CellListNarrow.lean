import Verif.Lemmas.CellListNarrow
import Verif.Props.CellListExact

/-!
# C87 for every number of columns
-/

set_option linter.unusedSectionVars false

namespace MaterSDK

open Classical

/-- C87: what happens for every number of columns. The call succeeds exactly when every atom's neighbours end
before the end of the whole array, so that an atom which is not the last may have more neighbours than columns;
otherwise it accesses memory outside of the array. After success `firstneigh` holds at each position the
neighbour stored by the last atom whose row reaches there, and -1 where none does; `numneigh` is right. -/
theorem C87_exact (A : ArgSort) (L : Fin 3 → Vec ℝ) (atoms : List (ℤ × Vec ℝ)) (rcut : ℝ)
    (pbc : Fin 3 → Bool) (sort : Bool) (hok : CellOk L atoms pbc) (hr : 0 < rcut) :
    ∃ (N : NbrLists) (I : ℕ → List (ℕ × (Fin 3 → ℤ))),
      NbrLists.make A (CStruct.make L atoms true) rcut pbc sort = .ok N ∧
      (∀ (i : ℕ) (c : ℤ × Vec ℝ), atoms[i]? = some c → (I i).Nodup ∧
        ∀ e, e ∈ I i ↔ SeenFrom L pbc (atoms.map Prod.snd) rcut c.2 e) ∧
      ∀ umax : ℕ,
        ((∃ info, N.findInfo umax = .ok info) ↔ ∀ i < atoms.length, (I i).length ≤ (atoms.length - i) * umax) ∧
        ((∃ i < atoms.length, (atoms.length - i) * umax < (I i).length) → N.findInfo umax = .error .outOfBounds) ∧
        ∀ info, N.findInfo umax = .ok info →
          info.numneigh = (List.range atoms.length).map (fun i => (I i).length) ∧
          info.firstneigh.length = atoms.length * umax ∧
          ∀ p < atoms.length * umax,
            (∃ i < atoms.length, ∃ e, i * umax ≤ p ∧ (I i)[p - i * umax]? = some e ∧
              (∀ i' < atoms.length, i < i' → ¬ (i' * umax ≤ p ∧ p < i' * umax + (I i').length)) ∧
              info.firstneigh[p]? = some (e.1 : ℤ)) ∨
            ((∀ i < atoms.length, ¬ (i * umax ≤ p ∧ p < i * umax + (I i).length)) ∧
              info.firstneigh[p]? = some (-1)) := by
  obtain ⟨N, h1, h2, h3, I, h4, h5, _, h6⟩ := nbr_exact A L atoms rcut pbc sort hok hr
  have hpn : N.bins.supercell.primNum = atoms.length := by rw [h3]; rfl
  have hIlen : I.length = atoms.length := by
    have := congrArg List.length h4
    simp only [List.length_map] at this
    rw [← this, h2]
  set J : ℕ → List (ℕ × (Fin 3 → ℤ)) := fun i => (I[i]?).getD [] with hJ
  have hJi : ∀ i < atoms.length, I[i]? = some (J i) := by
    intro i hi
    rw [← hIlen] at hi
    simp only [hJ, List.getElem?_eq_getElem hi, Option.getD_some]
  -- a width that is certainly enough
  set U := runningMax (I.map List.length) with hU
  have hIU : ∀ imgs ∈ I, imgs.length ≤ U := fun imgs hm => le_runningMax (List.mem_map_of_mem hm)
  obtain ⟨infoU, f1, f2, f3, f4, _, f5, f6⟩ := h6 U hIU
  -- the rows in terms of the images
  set T := N.lists.map (fun l => l.map (fun k => k.tmod (atoms.length : ℤ))) with hT
  have hTlen : T.length = atoms.length := by rw [hT, List.length_map, h2]
  have hlens : ∀ (i : ℕ) (l : List ℤ), N.lists[i]? = some l → l.length = (J i).length := by
    intro i l hl
    have hi : i < atoms.length := by rw [← h2]; exact (List.getElem?_eq_some_iff.1 hl).1
    have := congrArg (fun x => x[i]?) h4
    simp only [List.getElem?_map, hl, hJi i hi, Option.map_some, Option.some_inj] at this
    exact this
  have hTrow : ∀ i < atoms.length, T[i]? = some ((J i).map (fun e => (e.1 : ℤ))) := by
    intro i hi
    obtain ⟨_, hw⟩ := (findInfo_narrow N U infoU f1 U).2 infoU f1
    rw [hpn] at hw
    have hTle : ∀ r ∈ T, r.length ≤ U := by
      intro r hr
      obtain ⟨l, hl, rfl⟩ := List.mem_map.1 hr
      obtain ⟨j, hj⟩ := List.mem_iff_getElem?.1 hl
      have hjl : j < atoms.length := by rw [← h2]; exact (List.getElem?_eq_some_iff.1 hj).1
      rw [List.length_map, hlens j l hj]
      exact hIU _ (List.mem_of_getElem? (hJi j hjl))
    rw [cWriteRows_ok U (-1 : ℤ) T atoms.length hTlen hTle] at hw
    have hfn := Except.ok.inj hw
    have hi' : i < T.length := by rw [hTlen]; exact hi
    have hTi := List.getElem?_eq_getElem hi'
    have r1 := flatRow_flatMap T (fun r => r ++ List.replicate (U - r.length) (-1)) U (by
      intro r hr
      have := hTle r hr
      rw [List.length_append, List.length_replicate]
      omega) i _ hTi
    rw [hfn, (f6 i _ (J i) (List.getElem?_eq_getElem hi) (hJi i hi)).1] at r1
    have hl : T[i].length = (J i).length := by
      have hl2 : i < N.lists.length := by rw [h2]; exact hi
      have := hlens i _ (List.getElem?_eq_getElem hl2)
      simp only [hT, List.getElem_map, List.length_map]
      exact this
    rw [hTi]
    congr 1
    exact (List.append_inj r1 (by rw [List.length_map, hl])).1.symm
  have key : ∀ umax : ℕ, (∃ info, N.findInfo umax = .ok info) ↔
      ∀ i < atoms.length, (J i).length ≤ (atoms.length - i) * umax := by
    intro umax
    rw [(findInfo_narrow N U infoU f1 umax).1, hpn]
    constructor
    · intro h i hi
      have hl2 : i < N.lists.length := by rw [h2]; exact hi
      have hl := List.getElem?_eq_getElem hl2
      rw [← hlens i _ hl, Nat.sub_mul]
      rcases h i _ hl with h0 | h0
      · rw [h0]; simp
      · omega
    · intro h i l hl
      have hi : i < atoms.length := by rw [← h2]; exact (List.getElem?_eq_some_iff.1 hl).1
      right
      have := h i hi
      rw [← hlens i l hl, Nat.sub_mul] at this
      have : i * umax ≤ atoms.length * umax := Nat.mul_le_mul_right _ hi.le
      omega
  refine ⟨N, J, h1, ?_, ?_⟩
  · intro i c hc
    obtain ⟨imgs, g1, g2, g3, _⟩ := h5 i c hc
    have : J i = imgs := by simp only [hJ, g1, Option.getD_some]
    rw [this]
    exact ⟨g2, g3⟩
  · intro umax
    refine ⟨key umax, ?_, ?_⟩
    · rintro ⟨i, hi, hlt⟩
      have hl2 : i < N.lists.length := by rw [h2]; exact hi
      have hl := List.getElem?_eq_getElem hl2
      rw [← hlens i _ hl, Nat.sub_mul] at hlt
      have hle : i * umax ≤ atoms.length * umax := Nat.mul_le_mul_right _ hi.le
      refine findInfo_oob N umax i _ hl (by rw [hpn]; omega) ?_
      intro h0
      rw [h0] at hlt
      simp at hlt
    · intro info hinfo
      obtain ⟨n1, n2⟩ := (findInfo_narrow N U infoU f1 umax).2 info hinfo
      rw [hpn] at n2
      have hfit := (key umax).1 ⟨info, hinfo⟩
      have hTi : ∀ (k : ℕ) (r : List ℤ), T[k]? = some r → k < atoms.length ∧ r = (J k).map (fun e => (e.1 : ℤ)) := by
        intro k r hk
        have hlt : k < atoms.length := by rw [← hTlen]; exact (List.getElem?_eq_some_iff.1 hk).1
        rw [hTrow k hlt] at hk
        exact ⟨hlt, (Option.some_inj.1 hk).symm⟩
      obtain ⟨a, a1, a2, a3⟩ := cWriteRows_in umax T 0 (List.replicate (atoms.length * umax) (-1)) (by
        intro k r hk
        obtain ⟨hlt, rfl⟩ := hTi k r hk
        right
        have := hfit k hlt
        have hle : k * umax ≤ atoms.length * umax := Nat.mul_le_mul_right _ hlt.le
        rw [Nat.sub_mul] at this
        rw [List.length_map, List.length_replicate, Nat.zero_add]
        omega)
      rw [n2] at a1
      have ha : info.firstneigh = a := Except.ok.inj a1
      subst ha
      simp only [Nat.zero_add] at a3
      refine ⟨?_, by rw [a2, List.length_replicate], ?_⟩
      · rw [n1, h4]
        refine List.ext_getElem? (fun i => ?_)
        by_cases hi : i < atoms.length
        · simp [List.getElem?_map, hJi i hi, List.getElem?_range hi]
        · rw [List.getElem?_eq_none (by simpa [hIlen] using hi), List.getElem?_eq_none (by simpa using hi)]
      · intro p hp
        rcases a3 p with ⟨k, r, g1, g2, g3, g4, g5⟩ | ⟨g1, g2⟩
        · obtain ⟨hlt, rfl⟩ := hTi k r g1
          rw [List.length_map] at g3
          have hin : p - k * umax < (J k).length := by omega
          refine Or.inl ⟨k, hlt, (J k)[p - k * umax], g2, List.getElem?_eq_getElem hin, ?_, ?_⟩
          · intro i' hi' hlt'
            have := g4 i' _ hlt' (hTrow i' hi')
            rwa [List.length_map] at this
          · rw [g5, List.getElem?_map, List.getElem?_eq_getElem hin]
            rfl
        · refine Or.inr ⟨?_, ?_⟩
          · intro i hi
            have := g1 i _ (hTrow i hi)
            rwa [List.length_map] at this
          · rw [g2, List.getElem?_replicate, if_pos hp]

example (A : ArgSort) := C87_exact A exL exAtoms 3 ![true, true, false] true (exL_ok _ (Or.inr rfl)) (by norm_num)

end MaterSDK
