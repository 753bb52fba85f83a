import Verif.Props.CellList
import Verif.Props.EnvMatrix

/-!
# C82, C88 and C94 for atoms at any distance

The neighbour list leaves out every image whose squared distance is at most 1/1000.
-/

set_option linter.unusedSectionVars false

namespace MaterSDK

open Classical

/-- The image `e` is within the cutoff of `c` and its squared distance is more than 1/1000. -/
def SeenFrom (L : Fin 3 → Vec ℝ) (pbc : Fin 3 → Bool) (pos : List (Vec ℝ)) (rcut : ℝ) (c : Vec ℝ)
    (e : ℕ × (Fin 3 → ℤ)) : Prop :=
  NearBy L pbc pos rcut c e ∧ ∀ p, pos[e.1]? = some p → 1 / 1000 < dist3 (imagePos L p e.2) c ^ 2

/-- An atom does not see itself. -/
theorem not_seen_self (L : Fin 3 → Vec ℝ) (pbc : Fin 3 → Bool) (pos : List (Vec ℝ)) (rcut : ℝ) (i : ℕ) (c : Vec ℝ)
    (hc : pos[i]? = some c) : ¬ SeenFrom L pbc pos rcut c (i, 0) := by
  rintro ⟨_, h⟩
  have := h c hc
  rw [imagePos_zero, dist3_sq_comp] at this
  norm_num at this

/-- A sub-list of the same length. -/
theorem length_eq_iff_all {α : Type} [DecidableEq α] (l all : List α) (hl : l.Nodup) (hall : all.Nodup) (p : α → Prop)
    (hmem : ∀ e, e ∈ l ↔ e ∈ all ∧ p e) : l.length = all.length ↔ ∀ e ∈ all, p e := by
  constructor
  · intro h e he
    have hsub : l.Subperm all := hl.subperm (fun e he => ((hmem e).1 he).1)
    exact ((hmem e).1 ((hsub.perm_of_length_le (le_of_eq h.symm)).mem_iff.2 he)).2
  · intro h
    refine List.Perm.length_eq ((List.perm_ext_iff_of_nodup hl hall).2 (fun e => ?_))
    rw [hmem]
    exact ⟨fun h => h.1, fun he => ⟨he, h e he⟩⟩

/-- C82 without the assumption that atoms are apart: the rows are the images within the cutoff whose squared
distance is more than 1/1000, and the number of neighbours of an atom is right exactly when no image within
the cutoff, other than the atom itself, is closer. -/
theorem C82_exact (A : ArgSort) (L : Fin 3 → Vec ℝ) (atoms : List (ℤ × Vec ℝ)) (rcut : ℝ)
    (pbc : Fin 3 → Bool) (sort : Bool) (hok : CellOk L atoms pbc) (hr : 0 < rcut) :
    ∃ N, NbrLists.make A (CStruct.make L atoms true) rcut pbc sort = .ok N ∧
      ∀ umax : ℕ, N.maxNum ≤ umax → ∃ info, N.findInfo umax = .ok info ∧
        info.inum = atoms.length ∧ info.ilist = (List.range atoms.length).map (fun i : ℕ => (i : ℤ)) ∧
        info.types = atoms.map Prod.fst ∧
        ∀ (i : ℕ) (c : ℤ × Vec ℝ), atoms[i]? = some c → ∃ imgs : List (ℕ × (Fin 3 → ℤ)), imgs.Nodup ∧
          (∀ e, e ∈ imgs ↔ SeenFrom L pbc (atoms.map Prod.snd) rcut c.2 e) ∧
          info.numneigh[i]? = some imgs.length ∧ imgs.length ≤ umax ∧
          flatRow info.firstneigh umax i =
            imgs.map (fun e => (e.1 : ℤ)) ++ List.replicate (umax - imgs.length) (-1) ∧
          flatRow info.rel (umax * 3) i =
            imgs.flatMap (relCoords L (atoms.map Prod.snd) c.2) ++
              List.replicate ((umax - imgs.length) * 3) 0 ∧
          ∀ all : List (ℕ × (Fin 3 → ℤ)), all.Nodup →
            (∀ e, e ∈ all ↔ NearBy L pbc (atoms.map Prod.snd) rcut c.2 e ∧ e ≠ (i, 0)) →
            (info.numneigh[i]? = some all.length ↔
              ∀ e ∈ all, SeenFrom L pbc (atoms.map Prod.snd) rcut c.2 e) := by
  obtain ⟨N, h1, _, _, I, h4, h5, _, h6⟩ := nbr_exact A L atoms rcut pbc sort hok hr
  refine ⟨N, h1, ?_⟩
  intro umax hu
  have hI : ∀ imgs ∈ I, imgs.length ≤ umax := by
    intro imgs hm
    refine le_trans ?_ hu
    unfold NbrLists.maxNum
    rw [h4]
    exact le_runningMax (List.mem_map_of_mem hm)
  obtain ⟨info, f1, f2, f3, f4, _, f5, f6⟩ := h6 umax hI
  refine ⟨info, f1, f2, f3, f4, ?_⟩
  intro i c hc
  obtain ⟨imgs, g1, g2, g3, _⟩ := h5 i c hc
  obtain ⟨r1, r2⟩ := f6 i c imgs hc g1
  have hci : (atoms.map Prod.snd)[i]? = some c.2 := by rw [List.getElem?_map, hc]; rfl
  have hnum : info.numneigh[i]? = some imgs.length := by rw [f5, List.getElem?_map, g1]; rfl
  refine ⟨imgs, g2, g3, hnum, hI imgs (List.mem_of_getElem? g1), r1, r2, ?_⟩
  intro all ha hmem
  rw [hnum, Option.some_inj]
  refine length_eq_iff_all imgs all g2 ha _ (fun e => ?_)
  rw [g3, hmem]
  constructor
  · intro h
    refine ⟨⟨h.1, ?_⟩, h⟩
    rintro rfl
    exact not_seen_self L pbc _ rcut i c.2 hci h
  · exact fun h => h.2

example (A : ArgSort) := C82_exact A exL exAtoms 3 ![true, true, false] true (exL_ok _ (Or.inr rfl)) (by norm_num)

/-- C88 without the assumption that atoms are apart: the maximum is over the images within the cutoff whose
squared distance is more than 1/1000. -/
theorem C88_exact (A : ArgSort) (L : Fin 3 → Vec ℝ) (atoms : List (ℤ × Vec ℝ)) (rcut : ℝ)
    (pbc : Fin 3 → Bool) (sort : Bool) (hok : CellOk L atoms pbc) (hr : 0 < rcut) (cz nz : ℤ) :
    ∃ N m, NbrLists.make A (CStruct.make L atoms true) rcut pbc sort = .ok N ∧ N.maxNumOf cz nz = .ok m ∧
      ∃ cnt : ℕ → ℕ,
        (∀ (i : ℕ) (c : ℤ × Vec ℝ), atoms[i]? = some c → ∃ imgs : List (ℕ × (Fin 3 → ℤ)), imgs.Nodup ∧
          (∀ e, e ∈ imgs ↔ SeenFrom L pbc (atoms.map Prod.snd) rcut c.2 e ∧
            (atoms[e.1]?).map Prod.fst = some nz) ∧ cnt i = imgs.length) ∧
        (∀ (i : ℕ) (c : ℤ × Vec ℝ), atoms[i]? = some c → c.1 = cz → cnt i ≤ m) ∧
        (m = 0 ∨ ∃ (i : ℕ) (c : ℤ × Vec ℝ), atoms[i]? = some c ∧ c.1 = cz ∧ cnt i = m) := by
  obtain ⟨N, h1, h2, _, I, h4, h5, h6, _⟩ := nbr_exact A L atoms rcut pbc sort hok hr
  set f : List (ℕ × (Fin 3 → ℤ)) → ℕ := fun l =>
    l.countP (fun x => decide ((atoms[x.1]?).map Prod.fst = some nz)) with hf
  set cs := I.zipIdx.map (fun e => if (atoms[e.2]?).map Prod.fst = some cz then f e.1 else 0) with hcs
  refine ⟨N, runningMax cs, h1, h6 cz nz, fun i => f ((I[i]?).getD []), ?_, ?_, ?_⟩
  · intro i c hc
    obtain ⟨imgs, g1, g2, g3, _⟩ := h5 i c hc
    refine ⟨imgs.filter (fun x => decide ((atoms[x.1]?).map Prod.fst = some nz)), g2.filter _, ?_, ?_⟩
    · intro e
      rw [List.mem_filter, g3, decide_eq_true_eq]
      rfl
    · simp only [g1, Option.getD_some, hf, List.countP_eq_length_filter]
  · intro i c hc hz
    obtain ⟨imgs, g1, _⟩ := h5 i c hc
    apply le_runningMax
    rw [hcs, List.mem_map]
    refine ⟨(imgs, i), List.mk_mem_zipIdx_iff_getElem?.2 g1, ?_⟩
    simp [hc, hz, g1]
  · by_cases hne : cs = []
    · left; rw [hne]; rfl
    · have hmem := runningMax_mem hne
      rw [hcs, List.mem_map] at hmem
      obtain ⟨⟨imgs, i⟩, hm, he⟩ := hmem
      have g1 := List.mk_mem_zipIdx_iff_getElem?.1 hm
      simp only at he
      split_ifs at he with hz
      · right
        obtain ⟨c, hc, hcz⟩ := Option.map_eq_some_iff.1 hz
        refine ⟨i, c, hc, hcz, ?_⟩
        simp only [g1, Option.getD_some]
        exact he
      · left; exact he.symm

example (A : ArgSort) := C88_exact A exL exAtoms 3 (fun _ => true) true (exL_ok _ (Or.inl rfl)) (by norm_num) 3 8

/-- C94 without the assumption that atoms are apart: the rows of the matrix describe the images within the
cutoff whose squared distance is more than 1/1000, and only these need room. -/
theorem C94_exact (A : ArgSort) (L : Fin 3 → Vec ℝ) (atoms : List (ℤ × Vec ℝ)) (rcut rs : ℝ)
    (pbc : Fin 3 → Bool) (sort : Bool) (hok : CellOk L atoms pbc) (hr : 0 < rcut) (umax : List ℕ)
    (hty : ∀ a ∈ atoms, 0 ≤ a.1 ∧ a.1 < umax.length)
    (hroom : ∀ (i : ℕ) (c : ℤ × Vec ℝ), atoms[i]? = some c → ∀ (t m : ℕ), umax[t]? = some m →
      ∀ l : List (ℕ × (Fin 3 → ℤ)), l.Nodup → (∀ e ∈ l, SeenFrom L pbc (atoms.map Prod.snd) rcut c.2 e ∧
        (atoms[e.1]?).map Prod.fst = some (t : ℤ)) → l.length ≤ m) :
    ∃ N info out, NbrLists.make A (CStruct.make L atoms true) rcut pbc sort = .ok N ∧
      N.findInfo umax.sum = .ok info ∧
      envFind ⟨info.inum, info.numneigh.map (fun k : ℕ => (k : ℤ)), info.firstneigh, info.types,
        umax.map (fun m : ℕ => (m : ℤ))⟩ info.rel rcut rs = .ok out ∧
      ∀ (i : ℕ) (c : ℤ × Vec ℝ), atoms[i]? = some c → ∃ imgs : List (ℕ × (Fin 3 → ℤ)), imgs.Nodup ∧
        (∀ e, e ∈ imgs ↔ SeenFrom L pbc (atoms.map Prod.snd) rcut c.2 e) ∧
        flatRow (out.map Prod.fst) umax.sum i
          = typeBlocks 0 umax (imgs.map (imageEnv L atoms rcut rs c.2)) := by
  obtain ⟨N, info, out, h1, h2, h3, h4⟩ := env_core_far A L atoms rcut rs pbc sort hok hr
    (fun _ c e => ∀ p, (atoms.map Prod.snd)[e.1]? = some p → 1 / 1000 < dist3 (imagePos L p e.2) c.2 ^ 2)
    (by
      intro i c e _
      constructor
      · exact Or.inl
      · rintro (h | h)
        · exact h
        · intro p hp; rw [h] at hp; cases hp)
    umax hty (by
      intro i c hc t m hm l hl h
      exact hroom i c hc t m hm l hl (fun e he => ⟨⟨(h e he).1, (h e he).2.1⟩, (h e he).2.2⟩))
  refine ⟨N, info, out, h1, h2, h3, ?_⟩
  intro i c hc
  obtain ⟨imgs, g1, g2, _, g3, _⟩ := h4 i c hc
  refine ⟨imgs, g1, g2, ?_⟩
  rw [flatRow_map, g3, typeBlocks_map, List.map_map]
  congr 1
  refine List.map_congr_left ?_
  intro e he
  obtain ⟨⟨_, p, hp, _⟩, _⟩ := (g2 e).1 he
  rw [List.getElem?_map] at hp
  obtain ⟨a, ha, _⟩ := Option.map_eq_some_iff.1 hp
  simp only [Function.comp, imageBoth, imageEnv, ha, cEnvRow_envAt]

example (A : ArgSort) := C94_exact A exL exTyped 3 1 (fun _ => true) true exTyped_ok (by norm_num) [2, 2]
  (by
    intro a ha
    simp only [exTyped, List.mem_cons, List.not_mem_nil, or_false] at ha
    rcases ha with rfl | rfl <;> simp)
  (by
    intro i c hc t m hm l hl h
    have hm2 : m = 2 := by
      rcases t with _ | _ | t <;> simp at hm <;> exact hm.symm
    subst hm2
    refine (hl.subperm (fun e he => exTyped_near i c hc e (h e he).1.1 ?_)).length_le
    rintro rfl
    exact not_seen_self exL _ _ 3 i c.2 (by rw [List.getElem?_map, hc]; rfl) (h _ he).1)

end MaterSDK
