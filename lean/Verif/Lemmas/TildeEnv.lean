import Verif.Lemmas.Labels
import Verif.Lemmas.EnvStructure
import Verif.Lemmas.EnvMatrixUse
import Verif.Lemmas.TildeRAux

/-! # Helper lemmas for C218 in `Props/Labels.lean` -/

namespace MaterSDK

open Classical

/-- The slots of the elements one after the other are the slots of the types, if the type of an atom is
the place of its element in the list. -/
theorem slots_blocks {α β : Type} (zero : α) (els : List ℤ) (hnd : els.Nodup) (width : ℤ → ℕ)
    (imgs : List β) (ty : β → ℤ) (val : β → α) (h : ∀ e ∈ imgs, ty e ∈ els) :
    (els.map (fun z => (z, width z))).flatMap (fun e : ℤ × ℕ =>
        (imgs.filter (fun x => decide (ty x = e.1))).map val
          ++ List.replicate (e.2 - imgs.countP (fun x => decide (ty x = e.1))) zero)
      = typeBlocks zero (els.map width) (imgs.map (fun x => (((els.idxOf (ty x) : ℕ) : ℤ), val x))) := by
  unfold typeBlocks
  have e1 : (els.map width).zipIdx = els.zipIdx.map (fun e => (width e.1, e.2)) := by
    rw [List.zipIdx_map]
    rfl
  have e2 : els.map (fun z => (z, width z)) = els.zipIdx.map (fun e => (e.1, width e.1)) := by
    conv_lhs => rw [← List.zipIdx_map_fst 0 els]
    rw [List.map_map]
    rfl
  rw [e1, e2, List.flatMap_map, List.flatMap_map]
  refine List.flatMap_congr ?_
  rintro ⟨z, k⟩ hz
  have hk := List.mk_mem_zipIdx_iff_getElem?.1 hz
  have hiff : ∀ x ∈ imgs, (ty x = z ↔ (((els.idxOf (ty x) : ℕ) : ℤ) = (k : ℤ))) := by
    intro x hx
    obtain ⟨hlt, hg⟩ := List.getElem?_eq_some_iff.1 hk
    constructor
    · intro e
      rw [e, ← hg, hnd.idxOf_getElem]
    · intro e
      have e' : els.idxOf (ty x) = k := by exact_mod_cast e
      have := List.getElem_idxOf (List.idxOf_lt_length_of_mem (h x hx))
      rw [← this, ← hg]
      simp only [e']
  have f1 : imgs.filter (fun x => decide (ty x = z))
      = imgs.filter (fun x => decide ((((els.idxOf (ty x) : ℕ) : ℤ) = (k : ℤ)))) := by
    refine List.filter_congr ?_
    intro x hx
    simp only [hiff x hx]
  simp only [List.countP_eq_length_filter, f1, List.filter_map, List.map_map, List.length_map]
  rfl

theorem cellOk_relabel {f : ℤ → ℤ} {L : Fin 3 → Vec ℝ} {atoms : List (ℤ × Vec ℝ)} {pbc : Fin 3 → Bool}
    (h : CellOk L atoms pbc) : CellOk L (relabel f atoms) pbc := by
  refine ⟨h.nonsing, by simpa [relabel] using h.nonempty, ?_, h.dir, h.perp⟩
  intro a ha
  obtain ⟨b, hb, rfl⟩ := List.mem_map.1 ha
  exact h.inCell b hb

theorem relabel_pos (f : ℤ → ℤ) (atoms : List (ℤ × Vec ℝ)) :
    (relabel f atoms).map Prod.snd = atoms.map Prod.snd := by
  unfold relabel
  rw [List.map_map]
  rfl

theorem relabel_get (f : ℤ → ℤ) (atoms : List (ℤ × Vec ℝ)) (i : ℕ) :
    (relabel f atoms)[i]? = (atoms[i]?).map (fun a => (f a.1, a.2)) := List.getElem?_map ..

/-- The same for exact arithmetic. -/
theorem nbr_relabel (A : ArgSort) (f : ℤ → ℤ) (L : Fin 3 → Vec ℝ) (atoms : List (ℤ × Vec ℝ)) (cart : Bool)
    (rcut : ℝ) (pbc : Fin 3 → Bool) (sort : Bool) :
    NbrLists.make A (CStruct.make L (relabel f atoms) cart) rcut pbc sort
      = (NbrLists.make A (CStruct.make L atoms cart) rcut pbc sort >>= fun N => .ok (N.relabel f)) := by
  have h := nbrD_relabel id A f L atoms cart rcut pbc sort
  rw [makeD_id, makeD_id] at h
  exact h

theorem listedImages_relabel (f : ℤ → ℤ) (L : Fin 3 → Vec ℝ) (atoms : List (ℤ × Vec ℝ)) (rcut : ℝ)
    (pbc : Fin 3 → Bool) (lists : List (List ℤ)) :
    listedImages (CStruct.make L (relabel f atoms) true) rcut pbc lists
      = listedImages (CStruct.make L atoms true) rcut pbc lists := by
  have e1 : (CStruct.make L (relabel f atoms) true).atoms.length = (CStruct.make L atoms true).atoms.length := by
    simp [CStruct.make, relabel]
  have e2 : oddScale (CStruct.make L (relabel f atoms) true) rcut pbc
      = oddScale (CStruct.make L atoms true) rcut pbc := rfl
  unfold listedImages imageAt
  rw [e1, e2]

/-- The rows of a `TildeR` table, centre by centre. -/
theorem tildeTable_rows {α : Type} (zero : α) (f : Vec ℝ → Vec ℝ → α) (cz : List ℤ) (nz : List (ℤ × ℕ))
    (L : Fin 3 → Vec ℝ) (atoms : List (ℤ × Vec ℝ)) (I : List (List (ℕ × (Fin 3 → ℤ))))
    (hI : I.length = atoms.length) (row : ℕ → List α)
    (h : ∀ (i : ℕ) (c : ℤ × Vec ℝ) (imgs : List (ℕ × (Fin 3 → ℤ))), atoms[i]? = some c → I[i]? = some imgs →
      nz.flatMap (slotsOf zero (fun q => f q c.2) (imgs.map (imageAtom L atoms))) = row i) :
    tildeTable zero f cz nz (crystalCentres L atoms I)
      = cz.flatMap (fun z => ((List.range atoms.length).filter
          (fun i => decide ((atoms[i]?).map Prod.fst = some z))).map row) := by
  unfold tildeTable
  refine List.flatMap_congr ?_
  intro z _
  have hs : crystalCentres L atoms I = (List.range atoms.length).map (fun i =>
      Centre.mk ((atoms[i]?).map Prod.fst |>.getD 0) ((atoms[i]?).map Prod.snd |>.getD 0)
        ((I[i]?.getD []).map (imageAtom L atoms))) := by
    unfold crystalCentres
    refine List.ext_getElem? ?_
    intro i
    rw [List.getElem?_map, List.getElem?_map]
    rcases Nat.lt_or_ge i atoms.length with hi | hi
    · have hi' : i < I.length := by omega
      rw [List.getElem?_range hi, List.getElem?_eq_getElem (by simp; omega), List.getElem_zip]
      simp [List.getElem?_eq_getElem hi, List.getElem?_eq_getElem hi']
    · rw [List.getElem?_eq_none (by simp; omega), List.getElem?_eq_none (by simpa using hi)]
      rfl
  rw [hs, List.filter_map, List.map_map]
  have hf : (List.range atoms.length).filter ((fun s : Centre => decide (s.z = z)) ∘ fun i =>
      Centre.mk ((atoms[i]?).map Prod.fst |>.getD 0) ((atoms[i]?).map Prod.snd |>.getD 0)
        ((I[i]?.getD []).map (imageAtom L atoms)))
      = (List.range atoms.length).filter (fun i => decide ((atoms[i]?).map Prod.fst = some z)) := by
    refine List.filter_congr ?_
    intro i hi
    rw [List.mem_range] at hi
    simp [List.getElem?_eq_getElem hi]
  rw [hf]
  refine List.map_congr_left ?_
  intro i hi
  have hi' := List.mem_range.1 (List.mem_filter.1 hi).1
  have hj : i < I.length := by omega
  have := h i _ _ (List.getElem?_eq_getElem hi') (List.getElem?_eq_getElem hj)
  rw [← this]
  simp [List.getElem?_eq_getElem hi', List.getElem?_eq_getElem hj]

end MaterSDK
