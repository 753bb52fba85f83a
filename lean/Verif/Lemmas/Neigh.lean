import Verif.Model.Neigh
import Verif.Lemmas.Except
import Verif.Lemmas.AC
import Verif.Props.Structure

/-! # Lemmas on neighbour tables -/

namespace MaterSDK

open Classical

theorem runningMax_foldl (l : List ℕ) (m : ℕ) :
    m ≤ l.foldl (fun m n => if n > m then n else m) m ∧
    (∀ x ∈ l, x ≤ l.foldl (fun m n => if n > m then n else m) m) ∧
    (l.foldl (fun m n => if n > m then n else m) m = m ∨
      l.foldl (fun m n => if n > m then n else m) m ∈ l) := by
  induction l generalizing m with
  | nil => simp
  | cons a l ih =>
    rw [List.foldl_cons]
    obtain ⟨h1, h2, h3⟩ := ih (if a > m then a else m)
    have hm : m ≤ (if a > m then a else m) := by split <;> omega
    have ha : a ≤ (if a > m then a else m) := by split <;> omega
    refine ⟨by omega, ?_, ?_⟩
    · intro x hx
      rcases List.mem_cons.1 hx with rfl | hx
      · omega
      · exact h2 x hx
    · rcases h3 with h3 | h3
      · by_cases h : a > m
        · right; rw [h3, if_pos h]; simp
        · left; rw [h3, if_neg h]
      · right; exact List.mem_cons_of_mem _ h3

theorem le_runningMax {l : List ℕ} {x : ℕ} (h : x ∈ l) : x ≤ runningMax l :=
  (runningMax_foldl l 0).2.1 x h

theorem runningMax_mem {l : List ℕ} (h : l ≠ []) : runningMax l ∈ l := by
  rcases (runningMax_foldl l 0).2.2 with h0 | h0
  · obtain ⟨a, ha⟩ := List.exists_mem_of_ne_nil l h
    have : a ≤ runningMax l := le_runningMax ha
    have h1 : runningMax l = 0 := h0
    have : a = runningMax l := by omega
    rw [← this]; exact ha
  · exact h0

theorem runningMax_le {l : List ℕ} {b : ℕ} (h : ∀ x ∈ l, x ≤ b) : runningMax l ≤ b := by
  by_cases hl : l = []
  · subst hl; simp [runningMax]
  · exact h _ (runningMax_mem hl)

theorem runningMax_nil : runningMax [] = 0 := rfl

/-- Taking as many elements of an ascending list as are below a bound is filtering. -/
theorem take_countP_sorted {α : Type} (f : α → ℝ) (r : ℝ) (l : List α)
    (h : l.Pairwise (fun a b => f a ≤ f b)) :
    l.take (l.countP (fun a => f a ≤ r)) = l.filter (fun a => f a ≤ r) := by
  induction l with
  | nil => rfl
  | cons a l ih =>
    rw [List.pairwise_cons] at h
    by_cases ha : f a ≤ r
    · rw [List.countP_cons_of_pos (by simpa using ha), List.filter_cons_of_pos (by simpa using ha),
        List.take_succ_cons, ih h.2]
    · have hn : ∀ b ∈ (a :: l), ¬ (decide (f b ≤ r) = true) := by
        intro b hb
        rcases List.mem_cons.1 hb with rfl | hb
        · simpa using ha
        · have := h.1 b hb
          simp only [decide_eq_true_eq]
          intro hc
          exact ha (le_trans this hc)
      rw [List.countP_eq_zero.2 hn, List.filter_eq_nil_iff.2 hn, List.take_zero]

theorem range_filterMap_get {α β : Type} (g : α → β) (l : List α) :
    (List.range l.length).filterMap (fun i => l[i]?.map g) = l.map g := by
  induction l with
  | nil => rfl
  | cons a l ih =>
    rw [List.length_cons, List.range_succ_eq_map, List.filterMap_cons]
    simp only [List.getElem?_cons_zero, Option.map_some, List.filterMap_map, Function.comp_def,
      List.getElem?_cons_succ, List.map_cons]
    rw [ih]

/-- The table entry of site `t` seen from a centre at `c`. -/
noncomputable def entryOf (c : Vec ℝ) (t : Site ℝ) : NbrEntry := (t.z, norm3 (t.pos - c), t.pos)

theorem filterMap_take_total {α β : Type} (f : α → Option β) (l : List α) (n : ℕ)
    (h : ∀ a ∈ l, (f a).isSome) : (l.take n).filterMap f = (l.filterMap f).take n := by
  induction l generalizing n with
  | nil => simp
  | cons a l ih =>
    cases n with
    | zero => simp
    | succ n =>
      obtain ⟨b, hb⟩ := Option.isSome_iff_exists.1 (h a (by simp))
      rw [List.take_succ_cons, List.filterMap_cons_some hb, List.filterMap_cons_some hb,
        List.take_succ_cons, ih n (fun x hx => h x (by simp [hx]))]

theorem nbrEntries_spec (A : ArgSort) (sites : List (Site ℝ)) (r : ℝ) (k : ℕ) (c : Site ℝ)
    (hk : sites[k]? = some c) :
    ∃ real, nbrEntries A (sites.map Site.pos) (sites.map Site.z) r k = .ok real ∧
      real.Perm ((sites.filter (fun t => norm3 (t.pos - c.pos) ≤ r)).map (entryOf c.pos)) ∧
      real.Pairwise (fun a b => a.2.1 ≤ b.2.1) := by
  set ds := distancesFrom (sites.map Site.pos) c.pos with hds
  have hdsl : ds.length = sites.length := by simp [hds, distancesFrom]
  have hds' : ds = (sites.map (entryOf c.pos)).map (fun e => e.2.1) := by
    simp [hds, distancesFrom, entryOf, Function.comp_def]
  set f : ℕ → Option NbrEntry := fun i => sites[i]?.map (entryOf c.pos) with hf
  set I := A.run ds with hI
  set E := I.filterMap f with hE
  have hIr : I.Perm (List.range sites.length) := by rw [hI, ← hdsl]; exact A.perm ds
  have hIs : ∀ i ∈ I, (f i).isSome := by
    intro i hi
    have : i < sites.length := List.mem_range.1 (hIr.mem_iff.1 hi)
    simp [hf, this]
  have hEp : E.Perm (sites.map (entryOf c.pos)) := by
    rw [← range_filterMap_get]
    exact hIr.filterMap f
  have hEd : E.map (fun e => e.2.1) = I.map (fun i => ds[i]?.getD 0) := by
    rw [hE]
    clear_value I
    clear hE hEp hIr hI
    induction I with
    | nil => rfl
    | cons i I ih =>
      obtain ⟨b, hb⟩ := Option.isSome_iff_exists.1 (hIs i (by simp))
      rw [List.filterMap_cons_some hb, List.map_cons, List.map_cons, ih (fun x hx => hIs x (by simp [hx]))]
      congr 1
      rw [hds', List.getElem?_map, List.getElem?_map]
      simp only [hf] at hb
      rw [hb]
      rfl
  have hEs : E.Pairwise (fun a b => a.2.1 ≤ b.2.1) := by
    have := A.sorted ds
    rw [← hI, ← hEd, List.pairwise_map] at this
    exact this
  have hnum : ds.countP (fun d => d ≤ r) = E.countP (fun e => e.2.1 ≤ r) := by
    rw [hds', List.countP_map, hEp.countP_eq]
    rfl
  refine ⟨E.filter (fun e => e.2.1 ≤ r), ?_, ?_, ?_⟩
  · unfold nbrEntries
    rw [pyGet_eq_ok.2 (by rw [List.getElem?_map, hk]; rfl), ok_bind]
    simp only [← hds, ← hI]
    rw [hnum, ← take_countP_sorted _ _ _ hEs, hE, ← filterMap_take_total f I _ hIs, ← hE]
    rw [mapM_eq_ok]
    have hsub : ∀ i ∈ I.take (E.countP (fun e => decide (e.2.1 ≤ r))), (f i).isSome :=
      fun i hi => hIs i (List.mem_of_mem_take hi)
    generalize I.take (E.countP (fun e => decide (e.2.1 ≤ r))) = J at hsub
    induction J with
    | nil => exact .nil
    | cons i J ih =>
      obtain ⟨b, hb⟩ := Option.isSome_iff_exists.1 (hsub i (by simp))
      rw [List.filterMap_cons_some hb]
      refine .cons ?_ (ih (fun x hx => hsub x (by simp [hx])))
      simp only [hf, Option.map_eq_some_iff] at hb
      obtain ⟨t, ht, rfl⟩ := hb
      rw [pyGet_eq_ok.2 (show (sites.map Site.z)[i]? = some t.z by rw [List.getElem?_map, ht]; rfl), ok_bind,
        pyGet_eq_ok.2 (show ds[i]? = some (norm3 (t.pos - c.pos)) by
          rw [hds', List.getElem?_map, List.getElem?_map, ht]; rfl), ok_bind,
        pyGet_eq_ok.2 (show (sites.map Site.pos)[i]? = some t.pos by rw [List.getElem?_map, ht]; rfl), ok_bind]
      rfl
  · refine (hEp.filter _).trans ?_
    rw [List.filter_map]
    apply List.Perm.of_eq
    rfl
  · exact hEs.filter _

end MaterSDK
