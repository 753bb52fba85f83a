import Verif.Model.Structure

/-! # Stable sorting by a key -/

namespace MaterSDK

variable {α : Type}

theorem orderedInsert_filter {r : α → α → Prop} [DecidableRel r] [IsTrans α r] (p : α → Bool) (a : α)
    {l : List α} (h : l.Pairwise r) :
    (l.orderedInsert r a).filter p =
      if p a then (l.filter p).orderedInsert r a else l.filter p := by
  induction l with
  | nil => cases hp : p a <;> simp [hp]
  | cons b l ih =>
    rw [List.pairwise_cons] at h
    by_cases hab : r a b
    · rw [List.orderedInsert_cons_of_le _ _ hab]
      cases hpa : p a
      · simp [hpa]
      · rw [List.filter_cons_of_pos hpa, if_pos rfl]
        have : ∀ c ∈ (b :: l).filter p, r a c := by
          intro c hc
          rcases List.mem_cons.1 (List.mem_filter.1 hc).1 with rfl | hc'
          · exact hab
          · exact _root_.trans hab (h.1 c hc')
        cases hl : (b :: l).filter p with
        | nil => rfl
        | cons c cs => rw [List.orderedInsert_cons_of_le]; exact this c (by rw [hl]; simp)
    · rw [List.orderedInsert_of_not_le _ _ hab]
      cases hpb : p b
      · rw [List.filter_cons_of_neg (by simp [hpb]), List.filter_cons_of_neg (by simp [hpb]), ih h.2]
      · rw [List.filter_cons_of_pos hpb, List.filter_cons_of_pos hpb, ih h.2]
        cases hpa : p a
        · rfl
        · rw [if_pos rfl, if_pos rfl, List.orderedInsert_of_not_le _ _ hab]

instance keyRel_trans (key : α → Nat) : IsTrans α (fun a b => key a ≤ key b) :=
  ⟨fun _ _ _ h1 h2 => le_trans h1 h2⟩

instance keyRel_total (key : α → Nat) : Std.Total (fun a b : α => key a ≤ key b) :=
  ⟨fun a b => le_total (key a) (key b)⟩

theorem sortByKey_pairwise (key : α → Nat) (l : List α) :
    (sortByKey key l).Pairwise (fun a b => key a ≤ key b) :=
  List.pairwise_insertionSort _ l

theorem sortByKey_perm (key : α → Nat) (l : List α) : (sortByKey key l).Perm l :=
  List.perm_insertionSort _ l

theorem sortByKey_of_sorted (key : α → Nat) {l : List α}
    (h : l.Pairwise (fun a b => key a ≤ key b)) : sortByKey key l = l :=
  h.insertionSort_eq

theorem sortByKey_filter (key : α → Nat) (p : α → Bool) (l : List α) :
    (sortByKey key l).filter p = sortByKey key (l.filter p) := by
  induction l with
  | nil => rfl
  | cons a l ih =>
    show ((sortByKey key l).orderedInsert _ a).filter p = _
    rw [orderedInsert_filter p a (sortByKey_pairwise key l), ih]
    cases hp : p a
    · rw [List.filter_cons_of_neg (by simp [hp])]; rfl
    · rw [List.filter_cons_of_pos hp]; rfl

theorem sortByKey_stable (key : α → Nat) (k : Nat) (l : List α) :
    (sortByKey key l).filter (fun a => key a = k) = l.filter (fun a => key a = k) := by
  rw [sortByKey_filter]
  apply sortByKey_of_sorted
  rw [List.pairwise_iff_getElem]
  intro i j hi hj _
  have h1 := (List.mem_filter.1 (List.getElem_mem hi)).2
  have h2 := (List.mem_filter.1 (List.getElem_mem hj)).2
  simp only [decide_eq_true_eq] at h1 h2
  omega

theorem sortByKey_map {β : Type} (key : α → Nat) (f : β → α) (l : List β) :
    sortByKey key (l.map f) = (sortByKey (fun b => key (f b)) l).map f := by
  exact (List.map_insertionSort (fun b c => key (f b) ≤ key (f c)) (fun a b => key a ≤ key b) f l
    (fun _ _ _ _ => Iff.rfl)).symm

/-- Positions at which `p` holds, in order, read off the elements satisfying `p`. -/
theorem range_filter_map_get (p : α → Bool) (l : List α) :
    ((List.range l.length).filter (fun k => (l[k]?).any p)).map (fun k => l[k]?)
      = (l.filter p).map some := by
  induction l with
  | nil => rfl
  | cons a l ih =>
    rw [List.length_cons, List.range_succ_eq_map, List.filter_cons, List.filter_map, List.filter_cons]
    have e : (fun k => ((a :: l)[k]?).any p) ∘ Nat.succ = fun k => (l[k]?).any p := by
      funext k; simp
    rw [e]
    cases hp : p a
    · simp [hp, List.map_map, Function.comp_def, ih]
    · simp [hp, List.map_map, Function.comp_def, ih]

end MaterSDK
