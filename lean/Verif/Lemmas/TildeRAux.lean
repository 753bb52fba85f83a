import Verif.Lemmas.TildeRStruct
import Verif.Lemmas.EnvMatrixAux

/-! # Auxiliary facts and examples for `TildeR` -/

namespace MaterSDK

open Classical

theorem hasFDerivAt_centre {rcut rs : ℝ} (h : rs < rcut) (q c : Vec ℝ) (hqc : q ≠ c) :
    HasFDerivAt (fun y => envAt rcut rs q y)
      ((Matrix.mulVecLin (cSe4pwDeriv rcut rs (q - c))).toContinuousLinearMap) c := by
  have e := hasFDerivAt_envRow h (q - c) (norm3_pos (sub_ne_zero.2 hqc))
  have s : HasFDerivAt (fun y : Vec ℝ => q - y) (-ContinuousLinearMap.id ℝ (Vec ℝ)) c :=
    (hasFDerivAt_id c).const_sub q
  have k := e.comp c s
  refine HasFDerivAt.congr_fderiv (k.congr_of_eventuallyEq ?_) ?_
  · filter_upwards with y
    exact (cEnvRow_envAt rcut rs q y).symm
  · ext w
    simp [se4pwDeriv_neg]

theorem crystalCentres_count (L : Fin 3 → Vec ℝ) (atoms : List (ℤ × Vec ℝ))
    (I : List (List (ℕ × (Fin 3 → ℤ)))) (h : I.length = atoms.length) (c : ℤ) :
    atoms.countP (fun a => decide (a.1 = c))
      = (crystalCentres L atoms I).countP (fun s => decide (s.z = c)) := by
  unfold crystalCentres
  rw [List.countP_map]
  have : (atoms.zip I).map Prod.fst = atoms := by rw [List.map_fst_zip]; omega
  conv_lhs => rw [← this]
  rw [List.countP_map]
  rfl

theorem makeWith_tilde (L : Fin 3 → Vec ℝ) (atoms : List (ℤ × Vec ℝ)) (I : List (List (ℕ × (Fin 3 → ℤ))))
    (N : NbrLists) (cz : List ℤ) (nzw : List (ℤ × ℕ)) (extra : List ℤ) (rs : ℝ)
    (hI : I.length = atoms.length)
    (h : ∀ cz, N.numCentresOf cz = .ok (atoms.countP (fun a => decide (a.1 = cz)))) :
    Tilde.makeWith N cz (nzw.map Prod.fst) (nzw.map (fun e => (e.2 : ℤ)) ++ extra) rs
      = .ok (Tilde.mk N cz (nzw.map Prod.fst)
        (cz.map (fun c => (crystalCentres L atoms I).countP (fun s => decide (s.z = c))))
        (nzw.map (fun e => (e.2 : ℤ))) rs) := by
  unfold Tilde.makeWith
  rw [mapM_map_ok (fun c _ => h c), ok_bind, cTake_widths, ok_bind]
  simp only [crystalCentres_count L atoms I hI]
  rfl

theorem hasSlots_crystal (L : Fin 3 → Vec ℝ) (pbc : Fin 3 → Bool) (atoms : List (ℤ × Vec ℝ)) (rcut : ℝ)
    (sort : Bool) (I : List (List (ℕ × (Fin 3 → ℤ)))) (hI : ListsImages L pbc atoms rcut sort I)
    (cz : List ℤ) (nzw : List (ℤ × ℕ))
    (hroom : ∀ (i : ℕ) (c : ℤ × Vec ℝ), atoms[i]? = some c → c.1 ∈ cz → ∀ e ∈ nzw,
      ∀ l : List (ℕ × (Fin 3 → ℤ)), l.Nodup → (∀ x ∈ l, NearBy L pbc (atoms.map Prod.snd) rcut c.2 x ∧
        x ≠ (i, 0) ∧ (atoms[x.1]?).map Prod.fst = some e.1) → l.length ≤ e.2) :
    HasSlots cz nzw (crystalCentres L atoms I) := by
  intro s hs hz e he
  obtain ⟨i, hi⟩ := List.mem_iff_getElem?.1 hs
  unfold crystalCentres at hi
  rw [List.getElem?_map] at hi
  obtain ⟨x, hx, rfl⟩ := Option.map_eq_some_iff.1 hi
  obtain ⟨hx1, hx2⟩ := List.getElem?_zip_eq_some.1 hx
  obtain ⟨imgs, g1, g2, g3, _⟩ := hI.2 i x.1 hx1
  rw [hx2] at g1
  cases g1
  rw [List.countP_map, List.countP_eq_length_filter]
  refine hroom i x.1 hx1 hz e he _ (g2.filter _) ?_
  intro y hy
  rw [List.mem_filter] at hy
  obtain ⟨k1, k2⟩ := (g3 y).1 hy.1
  refine ⟨k1, k2, ?_⟩
  obtain ⟨_, p, hp, _⟩ := k1
  rw [List.getElem?_map] at hp
  obtain ⟨a, ha, _⟩ := Option.map_eq_some_iff.1 hp
  have := hy.2
  simp only [Function.comp, imageAtom, ha, decide_eq_true_eq] at this
  rw [ha, Option.map_some, this]

/-! ## Examples -/

/-- Two centres; the third atom is only a neighbour. -/
noncomputable def exLmp : LmpIn where
  inum := 2
  ilist := [0, 1]
  numneigh := [2, 1]
  firstneigh := [[1, 2], [0, -5]]
  x := [![0, 0, 0], ![1, 0, 0], ![0, 2, 0]]
  types := [3, 8, 3]

/-- The centres of `exLmp`. -/
noncomputable def exCentres : List Centre :=
  [⟨3, ![0, 0, 0], [(8, ![1, 0, 0]), (3, ![0, 2, 0])]⟩, ⟨8, ![1, 0, 0], [(3, ![0, 0, 0])]⟩]

theorem exLmp_describes : exLmp.Describes exCentres := by
  refine ⟨rfl, ?_⟩
  intro ii s hs
  rcases ii with _ | _ | ii
  · simp only [exCentres, List.getElem?_cons_zero, Option.some.injEq] at hs
    subst hs
    refine ⟨0, [1, 2], rfl, rfl, rfl, rfl, rfl, ?_⟩
    intro jj e he
    rcases jj with _ | _ | jj
    · simp at he
      subst he
      exact ⟨1, rfl, rfl, rfl⟩
    · simp at he
      subst he
      exact ⟨2, rfl, rfl, rfl⟩
    · simp at he
  · simp [exCentres] at hs
    subst hs
    refine ⟨1, [0, -5], rfl, rfl, rfl, rfl, rfl, ?_⟩
    intro jj e he
    rcases jj with _ | jj
    · simp at he
      subst he
      exact ⟨0, rfl, rfl, rfl⟩
    · simp at he
  · simp [exCentres] at hs

theorem exLmp_room : HasSlots [8, 3] [(3, 2), (8, 1)] exCentres := by
  intro s hs _ e he
  simp only [exCentres, List.mem_cons, List.not_mem_nil, or_false] at hs he
  rcases hs with rfl | rfl <;> rcases he with rfl | rfl <;> simp

theorem exLmp_crowded : ¬ HasSlots [8, 3] [(3, 1), (8, 0)] exCentres := by
  intro h
  have := h ⟨3, ![0, 0, 0], [(8, ![1, 0, 0]), (3, ![0, 2, 0])]⟩ (by simp [exCentres]) (by simp) (8, 0) (by simp)
  simp at this

theorem ex_crowded (I : List (List (ℕ × (Fin 3 → ℤ))))
    (h : ListsImages exL (fun _ => true) exAtoms 3 true I) :
    ¬ HasSlots [3] [(8, 0)] (crystalCentres exL exAtoms I) := by
  obtain ⟨imgs, h1, _, h3, _⟩ := h.2 0 (3, ![0, 0, 0]) rfl
  have hmem : ((1 : ℕ), (0 : Fin 3 → ℤ)) ∈ imgs := by
    rw [h3]
    refine ⟨⟨by simp, ![2, 1, 1], rfl, ?_⟩, by simp⟩
    rw [imagePos_zero]
    show Real.sqrt _ < 3
    rw [Real.sqrt_lt' (by norm_num)]
    simp [Fin.sum_univ_three]
    norm_num
  intro hs
  have hin : (⟨3, ![0, 0, 0], imgs.map (imageAtom exL exAtoms)⟩ : Centre) ∈ crystalCentres exL exAtoms I := by
    unfold crystalCentres
    refine List.mem_map.2 ⟨((3, ![0, 0, 0]), imgs), ?_, rfl⟩
    refine List.mem_iff_getElem?.2 ⟨0, ?_⟩
    rw [List.getElem?_zip_eq_some]
    exact ⟨rfl, h1⟩
  have := hs _ hin (by simp) (8, 0) (by simp)
  have h0 := List.countP_eq_zero.1 (Nat.le_zero.1 this) _ (List.mem_map_of_mem hmem)
  apply h0
  simp [imageAtom, exAtoms]

end MaterSDK
