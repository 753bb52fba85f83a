import Verif.Props.Averages

/-! # Exactly when no neighbour is paired with itself: C78 -/

namespace MaterSDK

private theorem flatMap_append_length {α β : Type} (f g : α → List β) : ∀ l : List α,
    (l.flatMap (fun a => f a ++ g a)).length = (l.flatMap f).length + (l.flatMap g).length
  | [] => rfl
  | a :: l => by
    have := flatMap_append_length f g l
    simp only [List.flatMap_cons, List.length_append] at this ⊢
    omega

/-- C78, the exact condition for equal elements: there is one row for every pair of distinct neighbours with a suitable
angle, and no other row, iff the tolerance does not reach the angle 0 or there is no bond at all. -/
theorem C78_same_iff (A : ArgSort) (s S : Struct ℝ) (hL : s.lattice.det ≠ 0) (hsep : Separated s)
    (hne : s.sites ≠ []) (r : ℝ) (hr : 0 ≤ r) (sc : Fin 3 → ℤ) (m : Fin 3 → ℕ)
    (h : ∀ i, sc i = 2 * (m i : ℤ) + 1) (hS : s.makeSupercell sc true = .ok S) (z1 z2 : ℕ)
    (hz2 : 0 < z2) (std eps : ℝ) :
    ∃ table rows, neighborTable A s r sc = .ok table ∧ angleBonds table z1 z2 z2 std eps = .ok rows ∧
      (rows.Perm ((s.sites.filter (fun c => c.z = z1)).flatMap (fun c =>
        (distinctPairs (nbrsOf S c.pos r z2)).flatMap (fun x =>
          angleRow std eps c.pos x.1.pos x.2.pos))) ↔ eps ≤ |std| ∨ bondLengths s S r z1 z2 = []) := by
  obtain ⟨table, rows, h1, h2, -, h4⟩ :=
    angleBonds_perm A s S hL hsep hne r hr sc m h hS z1 z2 z2 hz2 hz2 std eps
  refine ⟨table, rows, h1, h2, ?_, ?_⟩
  · intro hp
    by_contra hcon
    rw [not_or, not_le] at hcon
    obtain ⟨he, hb⟩ := hcon
    have hl := hp.length_eq.symm.trans (h4 rfl).length_eq
    rw [flatMap_append_length] at hl
    have h0 : ((s.sites.filter (fun c => c.z = z1)).flatMap (fun c => (nbrsOf S c.pos r z2).flatMap (fun t =>
        angleRow std eps c.pos t.pos t.pos))) = [] := List.length_eq_zero_iff.1 (by omega)
    obtain ⟨d, hd⟩ := List.exists_mem_of_ne_nil _ hb
    obtain ⟨c, hc, hd⟩ := List.mem_flatMap.1 hd
    obtain ⟨t, ht, rfl⟩ := List.mem_map.1 hd
    have := List.flatMap_eq_nil_iff.1 (List.flatMap_eq_nil_iff.1 h0 c hc) t ht
    unfold angleRow at this
    rw [if_pos (by rw [angleAt_self (nbrsOf_ne ht), zero_sub, abs_neg]; exact he)] at this
    cases this
  · intro hor
    refine (h4 rfl).trans (List.Perm.of_eq (List.flatMap_congr (fun c hc => ?_)))
    refine List.append_right_eq_self.2 (List.flatMap_eq_nil_iff.2 ?_)
    intro t ht
    rcases hor with he | hb
    · unfold angleRow
      rw [if_neg]
      rw [angleAt_self (nbrsOf_ne ht), zero_sub, abs_neg]
      exact not_lt.2 he
    · have : dist3 t.pos c.pos ∈ bondLengths s S r z1 z2 :=
        List.mem_flatMap.2 ⟨c, hc, List.mem_map.2 ⟨t, ht, rfl⟩⟩
      rw [hb] at this
      cases this

/-- The cell with one bond and tolerance 1 about the angle 0: the rows are not those of distinct pairs. -/
example (A : ArgSort) : ∃ table rows, neighborTable A originCell 1 ![1, 1, 1] = .ok table ∧
    angleBonds table 3 14 14 0 1 = .ok rows ∧
    ¬ rows.Perm ((originCell.sites.filter (fun c => c.z = 3)).flatMap (fun c =>
        (distinctPairs (nbrsOf originSuper c.pos 1 14)).flatMap (fun x => angleRow 0 1 c.pos x.1.pos x.2.pos))) := by
  have hb : bondLengths originCell originSuper 1 3 14 = [1] := by
    simp [bondLengths, originCell, originSuper, nbrsOf, dist3, Fin.sum_univ_three]
  obtain ⟨table, rows, h1, h2, h3⟩ := C78_same_iff A originCell originSuper
    (by simp [originCell, Matrix.det_diagonal]) originCell_separated (by simp [originCell]) 1
    (by norm_num) ![1, 1, 1] ![0, 0, 0] (by decide) originCell_supercell 3 14 (by norm_num) 0 1
  refine ⟨table, rows, h1, h2, ?_⟩
  rw [h3, hb]
  norm_num

end MaterSDK
