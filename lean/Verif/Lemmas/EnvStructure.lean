import Verif.Lemmas.EnvMatrixAux
import Verif.Lemmas.EnvMatrixUse
import Verif.Lemmas.CellListAux
import Verif.Lemmas.CellListMore
import Mathlib.Tactic.FinCases
import Mathlib.Tactic.NormNum

/-! # From a structure to its environment matrix, with order and derivatives -/

namespace MaterSDK

open Classical

/-- Type, environment row and derivative block of a periodic image seen from the point `c`. -/
noncomputable def imageBoth (L : Fin 3 → Vec ℝ) (atoms : List (ℤ × Vec ℝ)) (rcut rs : ℝ) (c : Vec ℝ)
    (e : ℕ × (Fin 3 → ℤ)) : ℤ × (Fin 4 → ℝ) × Matrix (Fin 4) (Fin 3) ℝ :=
  match atoms[e.1]? with
  | some a => (a.1, cEnvRow rcut rs (imagePos L a.2 e.2 - c), cEnvDeriv rcut rs (imagePos L a.2 e.2 - c))
  | none => (0, 0, 0)

theorem flatRow_map {α β : Type} (f : α → β) (l : List α) (w i : ℕ) :
    flatRow (l.map f) w i = (flatRow l w i).map f := by
  unfold flatRow
  rw [List.map_take, List.map_drop]

theorem env_core_far_lists (A : ArgSort) (L : Fin 3 → Vec ℝ) (atoms : List (ℤ × Vec ℝ)) (rcut rs : ℝ)
    (pbc : Fin 3 → Bool) (sort : Bool) (hok : CellOk L atoms pbc) (hr : 0 < rcut)
    (far : ℕ → ℤ × Vec ℝ → ℕ × (Fin 3 → ℤ) → Prop)
    (hfar : ∀ (i : ℕ) (c : ℤ × Vec ℝ) (e : ℕ × (Fin 3 → ℤ)), atoms[i]? = some c →
      ((∀ p, (atoms.map Prod.snd)[e.1]? = some p → 1 / 1000 < dist3 (imagePos L p e.2) c.2 ^ 2) ↔ far i c e ∨
        (atoms.map Prod.snd)[e.1]? = none)) (umax : List ℕ)
    (hty : ∀ a ∈ atoms, 0 ≤ a.1 ∧ a.1 < umax.length)
    (hroom : ∀ (i : ℕ) (c : ℤ × Vec ℝ), atoms[i]? = some c → ∀ (t m : ℕ), umax[t]? = some m →
      ∀ l : List (ℕ × (Fin 3 → ℤ)), l.Nodup → (∀ e ∈ l, NearBy L pbc (atoms.map Prod.snd) rcut c.2 e ∧
        far i c e ∧ (atoms[e.1]?).map Prod.fst = some (t : ℤ)) → l.length ≤ m) :
    ∃ N info out, NbrLists.make A (CStruct.make L atoms true) rcut pbc sort = .ok N ∧
      N.findInfo umax.sum = .ok info ∧
      envFind ⟨info.inum, info.numneigh.map (fun k : ℕ => (k : ℤ)), info.firstneigh, info.types,
        umax.map (fun m : ℕ => (m : ℤ))⟩ info.rel rcut rs = .ok out ∧
      ∀ (i : ℕ) (c : ℤ × Vec ℝ), atoms[i]? = some c → ∃ imgs : List (ℕ × (Fin 3 → ℤ)),
        (listedImages (CStruct.make L atoms true) rcut pbc N.lists)[i]? = some imgs ∧ imgs.Nodup ∧
        (∀ e, e ∈ imgs ↔ NearBy L pbc (atoms.map Prod.snd) rcut c.2 e ∧ far i c e) ∧
        (sort = true → imgs.Pairwise (fun e e' => ∀ p p', (atoms.map Prod.snd)[e.1]? = some p →
          (atoms.map Prod.snd)[e'.1]? = some p' →
          dist3 (imagePos L p e.2) c.2 ≤ dist3 (imagePos L p' e'.2) c.2)) ∧
        flatRow out umax.sum i = typeBlocks (0, 0) umax (imgs.map (imageBoth L atoms rcut rs c.2)) ∧
        RoomFor umax (imgs.map (imageBoth L atoms rcut rs c.2)) := by
  obtain ⟨N, h1, h2, _, I, h0, h4, h5, _, h6⟩ := nbr_exact_lists A L atoms rcut pbc sort hok hr
  have hIlen : I.length = atoms.length := by
    rw [← h2, ← List.length_map (f := List.length) (as := N.lists), h4, List.length_map]
  have hmem : ∀ (i : ℕ) (c : ℤ × Vec ℝ), atoms[i]? = some c → ∃ imgs, I[i]? = some imgs ∧ imgs.Nodup ∧
      (∀ e, e ∈ imgs ↔ NearBy L pbc (atoms.map Prod.snd) rcut c.2 e ∧ far i c e) ∧
      (sort = true → imgs.Pairwise (fun e e' => ∀ p p', (atoms.map Prod.snd)[e.1]? = some p →
          (atoms.map Prod.snd)[e'.1]? = some p' →
          dist3 (imagePos L p e.2) c.2 ≤ dist3 (imagePos L p' e'.2) c.2)) := by
    intro i c hc
    obtain ⟨imgs, g1, g2, g3, g4⟩ := h5 i c hc
    have hci : (atoms.map Prod.snd)[i]? = some c.2 := by rw [List.getElem?_map, hc]; rfl
    refine ⟨imgs, g1, g2, ?_, g4⟩
    intro e
    rw [g3]
    refine and_congr_right (fun hn => ?_)
    obtain ⟨_, p, hp, _⟩ := hn
    rw [hfar i c e hc, hp]
    simp
  -- the atom behind an image
  have hatom : ∀ (i : ℕ) (c : ℤ × Vec ℝ) (imgs : List (ℕ × (Fin 3 → ℤ))), atoms[i]? = some c →
      I[i]? = some imgs → ∀ e ∈ imgs, ∃ a, atoms[e.1]? = some a ∧ a ∈ atoms := by
    intro i c imgs hc hi e he
    obtain ⟨imgs', g1, _, g3, _⟩ := hmem i c hc
    rw [hi] at g1; cases g1
    obtain ⟨⟨_, p, hp, _⟩, _⟩ := (g3 e).1 he
    rw [List.getElem?_map] at hp
    obtain ⟨a, ha, _⟩ := Option.map_eq_some_iff.1 hp
    exact ⟨a, ha, List.mem_of_getElem? ha⟩
  set ty : ℕ → ℤ := fun k => ((atoms[k]?).map Prod.fst).getD 0 with hty'
  have hroomI : ∀ (i : ℕ) (c : ℤ × Vec ℝ) (imgs : List (ℕ × (Fin 3 → ℤ))), atoms[i]? = some c →
      I[i]? = some imgs → RoomFor umax (imgs.map (fun e => (ty e.1, ()))) := by
    intro i c imgs hc hi
    refine ⟨?_, ?_⟩
    · intro q hq
      obtain ⟨e, he, rfl⟩ := List.mem_map.1 hq
      obtain ⟨a, ha, ham⟩ := hatom i c imgs hc hi e he
      simp only [hty', ha, Option.map_some, Option.getD_some]
      exact hty a ham
    · intro t m hm
      obtain ⟨imgs', g1, g2, g3, _⟩ := hmem i c hc
      rw [hi] at g1; cases g1
      rw [List.countP_map, List.countP_eq_length_filter]
      refine hroom i c hc t m hm _ (g2.filter _) ?_
      intro e he
      rw [List.mem_filter] at he
      obtain ⟨a, ha, _⟩ := hatom i c imgs hc hi e he.1
      refine ⟨((g3 e).1 he.1).1, ((g3 e).1 he.1).2, ?_⟩
      have := he.2
      simp only [Function.comp, hty', ha, Option.map_some, Option.getD_some, decide_eq_true_eq] at this
      rw [ha, Option.map_some, this]
  have hcI : ∀ (i : ℕ) (imgs : List (ℕ × (Fin 3 → ℤ))), I[i]? = some imgs → ∃ c, atoms[i]? = some c := by
    intro i imgs hi
    have : i < atoms.length := by rw [← hIlen]; exact (List.getElem?_eq_some_iff.1 hi).1
    exact ⟨_, List.getElem?_eq_getElem this⟩
  have hlen : ∀ imgs ∈ I, imgs.length ≤ umax.sum := by
    intro imgs hm
    obtain ⟨i, hi⟩ := List.mem_iff_getElem?.1 hm
    obtain ⟨c, hc⟩ := hcI i imgs hi
    have := room_length umax _ (hroomI i c imgs hc hi)
    rwa [List.length_map] at this
  obtain ⟨info, f1, f2, _, f4, _, f5, f6⟩ := h6 umax.sum hlen
  set vec : ℕ → ℕ × (Fin 3 → ℤ) → Vec ℝ := fun i e =>
    match atoms[i]?, atoms[e.1]? with
    | some c, some a => imagePos L a.2 e.2 - c.2
    | _, _ => 0 with hvec
  set nbrs : ℕ → List (ℕ × Vec ℝ) := fun i => (I[i]?.getD []).map (fun e => (e.1, vec i e)) with hnbrs
  have hget : ∀ i < atoms.length, ∃ c imgs, atoms[i]? = some c ∧ I[i]? = some imgs ∧
      nbrs i = imgs.map (fun e => (e.1, vec i e)) := by
    intro i hi
    have hc : atoms[i]? = some atoms[i] := List.getElem?_eq_getElem hi
    obtain ⟨imgs, g1, _⟩ := hmem i _ hc
    refine ⟨_, imgs, hc, g1, ?_⟩
    simp only [hnbrs, g1, Option.getD_some]
  have hvecv : ∀ (i : ℕ) (e : ℕ × (Fin 3 → ℤ)) (c a : ℤ × Vec ℝ), atoms[i]? = some c →
      atoms[e.1]? = some a → vec i e = imagePos L a.2 e.2 - c.2 := by
    intro i e c a hc ha
    simp only [hvec, hc, ha]
  have henv := envFind_ok ⟨info.inum, info.numneigh.map (fun k : ℕ => (k : ℤ)), info.firstneigh, info.types,
        umax.map (fun m : ℕ => (m : ℤ))⟩ umax atoms.length nbrs info.rel rcut rs ty
    ⟨by simp only [f2], rfl, ?_⟩ ?_ ?_ ?_
  · refine ⟨N, info, _, h1, f1, henv, ?_⟩
    intro i c hc
    have hi : i < atoms.length := (List.getElem?_eq_some_iff.1 hc).1
    obtain ⟨imgs, g1, g2, g3, g4⟩ := hmem i c hc
    obtain ⟨c', imgs', hc', hi', hn⟩ := hget i hi
    rw [hc] at hc'; cases hc'
    rw [g1] at hi'; cases hi'
    have himg : imgs.map (imageBoth L atoms rcut rs c.2) = imgs.map (fun e =>
        (ty e.1, cEnvRow rcut rs (vec i e), cEnvDeriv rcut rs (vec i e))) := by
      refine List.map_congr_left ?_
      intro e he
      obtain ⟨a, ha, _⟩ := hatom i c imgs hc g1 e he
      simp only [hty', imageBoth, ha, Option.map_some, Option.getD_some, hvecv i e c a hc ha]
    refine ⟨imgs, h0 ▸ g1, g2, g3, g4, ?_, ?_⟩
    swap
    · rw [himg, ← roomFor_map (fun _ => ()), List.map_map]
      exact hroomI i c imgs hc g1
    rw [flatRow_flatMap (List.range atoms.length) _ umax.sum ?_ i i
      (List.getElem?_range hi), hn, List.map_map, himg]
    · rfl
    · intro k hk
      refine typeBlocks_length _ _ _ ?_
      obtain ⟨c', imgs', hc', hi', hn'⟩ := hget k (List.mem_range.1 hk)
      have := hroomI k c' imgs' hc' hi'
      rw [hn', List.map_map]
      rw [← roomFor_map (fun _ => ()), List.map_map]
      exact this
  · intro i hi
    obtain ⟨c, imgs, hc, hI, hn⟩ := hget i hi
    have hle := hlen imgs (List.mem_of_getElem? hI)
    obtain ⟨r1, r2⟩ := f6 i c imgs hc hI
    constructor
    · beta_reduce
      rw [f5, List.map_map, List.getElem?_map, hI, hn]
      simp
    · intro jj k hk
      beta_reduce at hk
      rw [hn, List.map_map, List.getElem?_map] at hk
      obtain ⟨e, he, rfl⟩ := Option.map_eq_some_iff.1 hk
      have hj : jj < imgs.length := (List.getElem?_eq_some_iff.1 he).1
      rw [← flatRow_get _ _ _ _ (by omega), r1, List.getElem?_append_left (by simpa using hj),
        List.getElem?_map, he]
      rfl
  · intro i hi e he
    obtain ⟨c, imgs, hc, hI, hn⟩ := hget i hi
    rw [hn] at he
    obtain ⟨x, hx, rfl⟩ := List.mem_map.1 he
    obtain ⟨a, ha, _⟩ := hatom i c imgs hc hI x hx
    simp only [f4, List.getElem?_map, ha, hty', Option.map_some, Option.getD_some]
  · intro i hi jj e he
    obtain ⟨c, imgs, hc, hI, hn⟩ := hget i hi
    have hle := hlen imgs (List.mem_of_getElem? hI)
    obtain ⟨r1, r2⟩ := f6 i c imgs hc hI
    rw [hn, List.getElem?_map] at he
    obtain ⟨x, hx, rfl⟩ := Option.map_eq_some_iff.1 he
    have hj : jj < imgs.length := (List.getElem?_eq_some_iff.1 hx).1
    obtain ⟨a, ha, _⟩ := hatom i c imgs hc hI x (List.mem_of_getElem? hx)
    have hrc : ∀ y ∈ imgs, (relCoords L (atoms.map Prod.snd) c.2 y).length = 3 := by
      intro y hy
      obtain ⟨b, hb, _⟩ := hatom i c imgs hc hI y hy
      simp [relCoords, List.getElem?_map, hb]
    have hval : ∀ r < 3, info.rel[(i * umax.sum + jj) * 3 + r]?
        = (relCoords L (atoms.map Prod.snd) c.2 x)[r]? := by
      intro r hr3
      have e1 : (i * umax.sum + jj) * 3 + r = i * (umax.sum * 3) + (jj * 3 + r) := by ring
      rw [e1, ← flatRow_get _ _ _ _ (by omega), r2, List.getElem?_append_left, flatMap_uniform_get _ _ 3 hrc _ _ x hx hr3]
      · rw [flatMap_uniform_length _ _ 3 hrc]; omega
    have hrel : relCoords L (atoms.map Prod.snd) c.2 x
        = [vec i x 0, vec i x 1, vec i x 2] := by
      simp only [relCoords, List.getElem?_map, ha, Option.map_some, hvecv i x c a hc ha]
      rfl
    refine ⟨?_, ?_, ?_⟩
    · have := hval 0 (by omega)
      rw [hrel] at this
      simpa using this
    · have := hval 1 (by omega)
      rw [hrel] at this
      simpa using this
    · have := hval 2 (by omega)
      rw [hrel] at this
      simpa using this
  · intro i hi
    obtain ⟨c, imgs, hc, hI, hn⟩ := hget i hi
    have := hroomI i c imgs hc hI
    rw [hn, List.map_map, ← roomFor_map (fun _ => ()), List.map_map]
    exact this

theorem env_core_far (A : ArgSort) (L : Fin 3 → Vec ℝ) (atoms : List (ℤ × Vec ℝ)) (rcut rs : ℝ)
    (pbc : Fin 3 → Bool) (sort : Bool) (hok : CellOk L atoms pbc) (hr : 0 < rcut)
    (far : ℕ → ℤ × Vec ℝ → ℕ × (Fin 3 → ℤ) → Prop)
    (hfar : ∀ (i : ℕ) (c : ℤ × Vec ℝ) (e : ℕ × (Fin 3 → ℤ)), atoms[i]? = some c →
      ((∀ p, (atoms.map Prod.snd)[e.1]? = some p → 1 / 1000 < dist3 (imagePos L p e.2) c.2 ^ 2) ↔ far i c e ∨
        (atoms.map Prod.snd)[e.1]? = none)) (umax : List ℕ)
    (hty : ∀ a ∈ atoms, 0 ≤ a.1 ∧ a.1 < umax.length)
    (hroom : ∀ (i : ℕ) (c : ℤ × Vec ℝ), atoms[i]? = some c → ∀ (t m : ℕ), umax[t]? = some m →
      ∀ l : List (ℕ × (Fin 3 → ℤ)), l.Nodup → (∀ e ∈ l, NearBy L pbc (atoms.map Prod.snd) rcut c.2 e ∧
        far i c e ∧ (atoms[e.1]?).map Prod.fst = some (t : ℤ)) → l.length ≤ m) :
    ∃ N info out, NbrLists.make A (CStruct.make L atoms true) rcut pbc sort = .ok N ∧
      N.findInfo umax.sum = .ok info ∧
      envFind ⟨info.inum, info.numneigh.map (fun k : ℕ => (k : ℤ)), info.firstneigh, info.types,
        umax.map (fun m : ℕ => (m : ℤ))⟩ info.rel rcut rs = .ok out ∧
      ∀ (i : ℕ) (c : ℤ × Vec ℝ), atoms[i]? = some c → ∃ imgs : List (ℕ × (Fin 3 → ℤ)), imgs.Nodup ∧
        (∀ e, e ∈ imgs ↔ NearBy L pbc (atoms.map Prod.snd) rcut c.2 e ∧ far i c e) ∧
        (sort = true → imgs.Pairwise (fun e e' => ∀ p p', (atoms.map Prod.snd)[e.1]? = some p →
          (atoms.map Prod.snd)[e'.1]? = some p' →
          dist3 (imagePos L p e.2) c.2 ≤ dist3 (imagePos L p' e'.2) c.2)) ∧
        flatRow out umax.sum i = typeBlocks (0, 0) umax (imgs.map (imageBoth L atoms rcut rs c.2)) ∧
        RoomFor umax (imgs.map (imageBoth L atoms rcut rs c.2)) := by
  obtain ⟨N, info, out, h1, h2, h3, h4⟩ := env_core_far_lists A L atoms rcut rs pbc sort hok hr far hfar umax hty hroom
  refine ⟨N, info, out, h1, h2, h3, ?_⟩
  intro i c hc
  obtain ⟨imgs, _, g⟩ := h4 i c hc
  exact ⟨imgs, g⟩

theorem env_core_lists (A : ArgSort) (L : Fin 3 → Vec ℝ) (atoms : List (ℤ × Vec ℝ)) (rcut rs : ℝ)
    (pbc : Fin 3 → Bool) (sort : Bool) (hok : CellOk L atoms pbc) (hr : 0 < rcut)
    (hap : ApartImages L (atoms.map Prod.snd)) (umax : List ℕ)
    (hty : ∀ a ∈ atoms, 0 ≤ a.1 ∧ a.1 < umax.length)
    (hroom : ∀ (i : ℕ) (c : ℤ × Vec ℝ), atoms[i]? = some c → ∀ (t m : ℕ), umax[t]? = some m →
      ∀ l : List (ℕ × (Fin 3 → ℤ)), l.Nodup → (∀ e ∈ l, NearBy L pbc (atoms.map Prod.snd) rcut c.2 e ∧
        e ≠ (i, 0) ∧ (atoms[e.1]?).map Prod.fst = some (t : ℤ)) → l.length ≤ m) :
    ∃ N info out, NbrLists.make A (CStruct.make L atoms true) rcut pbc sort = .ok N ∧
      N.findInfo umax.sum = .ok info ∧
      envFind ⟨info.inum, info.numneigh.map (fun k : ℕ => (k : ℤ)), info.firstneigh, info.types,
        umax.map (fun m : ℕ => (m : ℤ))⟩ info.rel rcut rs = .ok out ∧
      ∀ (i : ℕ) (c : ℤ × Vec ℝ), atoms[i]? = some c → ∃ imgs : List (ℕ × (Fin 3 → ℤ)),
        (listedImages (CStruct.make L atoms true) rcut pbc N.lists)[i]? = some imgs ∧ imgs.Nodup ∧
        (∀ e, e ∈ imgs ↔ NearBy L pbc (atoms.map Prod.snd) rcut c.2 e ∧ e ≠ (i, 0)) ∧
        (sort = true → imgs.Pairwise (fun e e' => ∀ p p', (atoms.map Prod.snd)[e.1]? = some p →
          (atoms.map Prod.snd)[e'.1]? = some p' →
          dist3 (imagePos L p e.2) c.2 ≤ dist3 (imagePos L p' e'.2) c.2)) ∧
        flatRow out umax.sum i = typeBlocks (0, 0) umax (imgs.map (imageBoth L atoms rcut rs c.2)) ∧
        RoomFor umax (imgs.map (imageBoth L atoms rcut rs c.2)) := by
  refine env_core_far_lists A L atoms rcut rs pbc sort hok hr (fun i _ e => e ≠ (i, 0)) ?_ umax hty hroom
  intro i c e hc
  have hci : (atoms.map Prod.snd)[i]? = some c.2 := by rw [List.getElem?_map, hc]; rfl
  constructor
  · intro k2
    left
    rintro rfl
    have := k2 c.2 hci
    rw [imagePos_zero, dist3_sq_comp] at this
    norm_num at this
  · rintro (k2 | k2) p hp
    · exact hap i e.1 c.2 p e.2 hci hp k2
    · rw [k2] at hp; cases hp

theorem env_core (A : ArgSort) (L : Fin 3 → Vec ℝ) (atoms : List (ℤ × Vec ℝ)) (rcut rs : ℝ)
    (pbc : Fin 3 → Bool) (sort : Bool) (hok : CellOk L atoms pbc) (hr : 0 < rcut)
    (hap : ApartImages L (atoms.map Prod.snd)) (umax : List ℕ)
    (hty : ∀ a ∈ atoms, 0 ≤ a.1 ∧ a.1 < umax.length)
    (hroom : ∀ (i : ℕ) (c : ℤ × Vec ℝ), atoms[i]? = some c → ∀ (t m : ℕ), umax[t]? = some m →
      ∀ l : List (ℕ × (Fin 3 → ℤ)), l.Nodup → (∀ e ∈ l, NearBy L pbc (atoms.map Prod.snd) rcut c.2 e ∧
        e ≠ (i, 0) ∧ (atoms[e.1]?).map Prod.fst = some (t : ℤ)) → l.length ≤ m) :
    ∃ N info out, NbrLists.make A (CStruct.make L atoms true) rcut pbc sort = .ok N ∧
      N.findInfo umax.sum = .ok info ∧
      envFind ⟨info.inum, info.numneigh.map (fun k : ℕ => (k : ℤ)), info.firstneigh, info.types,
        umax.map (fun m : ℕ => (m : ℤ))⟩ info.rel rcut rs = .ok out ∧
      ∀ (i : ℕ) (c : ℤ × Vec ℝ), atoms[i]? = some c → ∃ imgs : List (ℕ × (Fin 3 → ℤ)), imgs.Nodup ∧
        (∀ e, e ∈ imgs ↔ NearBy L pbc (atoms.map Prod.snd) rcut c.2 e ∧ e ≠ (i, 0)) ∧
        (sort = true → imgs.Pairwise (fun e e' => ∀ p p', (atoms.map Prod.snd)[e.1]? = some p →
          (atoms.map Prod.snd)[e'.1]? = some p' →
          dist3 (imagePos L p e.2) c.2 ≤ dist3 (imagePos L p' e'.2) c.2)) ∧
        flatRow out umax.sum i = typeBlocks (0, 0) umax (imgs.map (imageBoth L atoms rcut rs c.2)) ∧
        RoomFor umax (imgs.map (imageBoth L atoms rcut rs c.2)) := by
  obtain ⟨N, info, out, h1, h2, h3, h4⟩ := env_core_lists A L atoms rcut rs pbc sort hok hr hap umax hty hroom
  refine ⟨N, info, out, h1, h2, h3, ?_⟩
  intro i c hc
  obtain ⟨imgs, _, g⟩ := h4 i c hc
  exact ⟨imgs, g⟩

end MaterSDK
