import Verif.Props.MtpLevel
import Mathlib.Data.List.Permutation
import Mathlib.Data.List.Dedup

/-!
# C101: how often a combination is listed
-/

namespace MaterSDK

/-- The different ways to write a combination with levels that do not decrease. -/
def levelOrders (s : List (ℕ × ℕ)) : List (List (ℕ × ℕ)) :=
  s.permutations.dedup.filter (fun l => decide (l.Pairwise (fun a b => 2 + 4 * a.1 + a.2 ≤ 2 + 4 * b.1 + b.2)))

theorem mem_levelOrders {s l : List (ℕ × ℕ)} :
    l ∈ levelOrders s ↔ l.Perm s ∧ l.Pairwise (fun a b => mtpLevel a ≤ mtpLevel b) := by
  unfold levelOrders
  rw [List.mem_filter, List.mem_dedup, List.mem_permutations, decide_eq_true_iff]
  rfl

theorem levelOrders_nodup (s : List (ℕ × ℕ)) : (levelOrders s).Nodup :=
  (List.nodup_dedup _).filter _

/-- The recursion of `get_all_schemes4lev` without the sort: moments in the order they are chosen. -/
def schemesSeq : ℕ → ℕ → ℕ → ℕ → List (List (ℕ × ℕ))
  | 0, _, _, _ => []
  | depth + 1, aim, startMu, startNu =>
    if aim = 0 then [[]]
    else (List.range aim).flatMap (fun mu => (List.range aim).flatMap (fun nu =>
      if mtpLevel (mu, nu) < mtpLevel (startMu, startNu) then []
      else if mtpLevel (mu, nu) ≤ aim then
        (schemesSeq depth (aim - mtpLevel (mu, nu)) mu nu).map (fun c => (mu, nu) :: c)
      else []))

theorem schemes_rel (S : NuSort) (depth aim m n : ℕ) :
    List.Forall₂ (fun c d => c.Perm d) (schemesAux S depth aim m n) (schemesSeq depth aim m n) := by
  induction depth generalizing aim m n with
  | zero => simp [schemesAux, schemesSeq]
  | succ depth ih =>
    rw [schemesAux, schemesSeq]
    split
    · exact List.Forall₂.cons (List.Perm.refl _) List.Forall₂.nil
    · refine forall₂_flatMap _ _ _ (fun mu _ => forall₂_flatMap _ _ _ (fun nu _ => ?_))
      split
      · exact List.Forall₂.nil
      · split
        · rw [List.forall₂_map_left_iff, List.forall₂_map_right_iff]
          refine (ih _ _ _).imp ?_
          intro c d h
          exact (S.perm _).trans ((List.perm_append_singleton _ _).trans (h.cons _))
        · exact List.Forall₂.nil

theorem countP_forall₂ {α β : Type} {R : α → β → Prop} {P : α → Bool} {Q : β → Bool}
    (hPQ : ∀ a b, R a b → P a = Q b) {l : List α} {r : List β} (h : List.Forall₂ R l r) : l.countP P = r.countP Q := by
  induction h with
  | nil => rfl
  | cons hab _ ih => rw [List.countP_cons, List.countP_cons, ih, hPQ _ _ hab]

theorem mem_schemesSeq {depth aim m n : ℕ} (ha : aim ≠ 0) {c : List (ℕ × ℕ)} :
    c ∈ schemesSeq (depth + 1) aim m n ↔ ∃ p : ℕ × ℕ, p.1 < aim ∧ p.2 < aim ∧
      mtpLevel (m, n) ≤ mtpLevel p ∧ mtpLevel p ≤ aim ∧
      ∃ c' ∈ schemesSeq depth (aim - mtpLevel p) p.1 p.2, p :: c' = c := by
  rw [schemesSeq, if_neg ha]
  simp only [List.mem_flatMap, List.mem_range]
  constructor
  · rintro ⟨mu, h1, nu, h2, h⟩
    split at h
    · simp at h
    · next h3 =>
      split at h
      · next h4 =>
        obtain ⟨c', hc', rfl⟩ := List.mem_map.1 h
        exact ⟨(mu, nu), h1, h2, not_lt.1 h3, h4, c', hc', rfl⟩
      · simp at h
  · rintro ⟨⟨mu, nu⟩, h1, h2, h3, h4, c', hc', rfl⟩
    refine ⟨mu, h1, nu, h2, ?_⟩
    rw [if_neg (not_lt.2 h3), if_pos h4]
    exact List.mem_map.2 ⟨c', hc', rfl⟩

theorem mem_schemesSeq_iff {depth aim m n : ℕ} (hd : aim < depth) {c : List (ℕ × ℕ)} :
    c ∈ schemesSeq depth aim m n ↔ levelSum c = aim ∧ (∀ p ∈ c, mtpLevel (m, n) ≤ mtpLevel p) ∧
      c.Pairwise (fun a b => mtpLevel a ≤ mtpLevel b) := by
  induction depth generalizing aim m n c with
  | zero => omega
  | succ depth ih =>
    by_cases ha : aim = 0
    · subst ha
      simp only [schemesSeq, if_true, List.mem_singleton]
      constructor
      · rintro rfl; exact ⟨rfl, by simp, by simp⟩
      · rintro ⟨h, _⟩; exact levelSum_eq_zero h
    · rw [mem_schemesSeq ha]
      constructor
      · rintro ⟨p, _, _, h3, h4, c', hc', rfl⟩
        have h2p := two_le_mtpLevel p
        obtain ⟨k1, k2, k3⟩ := (ih (by omega)).1 hc'
        refine ⟨?_, ?_, List.pairwise_cons.2 ⟨k2, k3⟩⟩
        · unfold levelSum at k1 ⊢
          rw [List.map_cons, List.sum_cons, k1]
          omega
        · intro q hq
          rcases List.mem_cons.1 hq with rfl | hq
          · exact h3
          · exact h3.trans (k2 q hq)
      · rintro ⟨h1, h2, h3⟩
        cases c with
        | nil => exact absurd h1.symm ha
        | cons p c' =>
          have hl : mtpLevel p + levelSum c' = aim := by
            rw [← h1]
            unfold levelSum
            rw [List.map_cons, List.sum_cons]
          have h2p := two_le_mtpLevel p
          obtain ⟨k1, k2⟩ := List.pairwise_cons.1 h3
          refine ⟨p, ?_, ?_, h2 p (by simp), by omega, c', (ih (by omega)).2 ⟨by omega, k1, k2⟩, rfl⟩
          · have : mtpLevel p ≤ aim := by omega
            unfold mtpLevel at this; omega
          · have : mtpLevel p ≤ aim := by omega
            unfold mtpLevel at this; omega

theorem schemesSeq_nodup (depth aim m n : ℕ) : (schemesSeq depth aim m n).Nodup := by
  induction depth generalizing aim m n with
  | zero => simp [schemesSeq]
  | succ depth ih =>
    rw [schemesSeq]
    split
    · simp
    · have hhead : ∀ mu nu c, c ∈ ((if mtpLevel (mu, nu) < mtpLevel (m, n) then []
          else if mtpLevel (mu, nu) ≤ aim then
            (schemesSeq depth (aim - mtpLevel (mu, nu)) mu nu).map (fun c => (mu, nu) :: c)
          else []) : List (List (ℕ × ℕ))) → c.head? = some (mu, nu) := by
        intro mu nu c hc
        split at hc
        · simp at hc
        · split at hc
          · obtain ⟨c', _, rfl⟩ := List.mem_map.1 hc
            rfl
          · simp at hc
      rw [List.nodup_flatMap]
      refine ⟨fun mu _ => ?_, ?_⟩
      · rw [List.nodup_flatMap]
        refine ⟨fun nu _ => ?_, ?_⟩
        · split
          · simp
          · split
            · exact (ih _ _ _).map (fun a b h => (List.cons.inj h).2)
            · simp
        · refine List.nodup_range.imp ?_
          intro nu nu' hne c h1 h2
          have := (hhead mu nu c h1).symm.trans (hhead mu nu' c h2)
          simp at this
          exact hne this
      · refine List.nodup_range.imp ?_
        intro mu mu' hne c h1 h2
        obtain ⟨nu, _, h1⟩ := List.mem_flatMap.1 h1
        obtain ⟨nu', _, h2⟩ := List.mem_flatMap.1 h2
        have := (hhead mu nu c h1).symm.trans (hhead mu' nu' c h2)
        simp at this
        exact hne this.1

theorem schemes_count (S : NuSort) (s : List (ℕ × ℕ)) :
    (allSchemes S (levelSum s) 0 0).countP (fun c => decide (c.Perm s)) = (levelOrders s).length := by
  unfold allSchemes
  rw [countP_forall₂ (Q := fun c => decide (c.Perm s)) ?_ (schemes_rel S _ _ _ _), List.countP_eq_length_filter]
  · refine List.Perm.length_eq ((List.perm_ext_iff_of_nodup ((schemesSeq_nodup _ _ _ _).filter _)
      (levelOrders_nodup s)).2 ?_)
    intro c
    rw [List.mem_filter, mem_schemesSeq_iff (by omega), mem_levelOrders, decide_eq_true_iff]
    constructor
    · rintro ⟨⟨_, _, h⟩, hp⟩; exact ⟨hp, h⟩
    · rintro ⟨hp, h⟩
      refine ⟨⟨levelSum_perm hp, ?_, h⟩, hp⟩
      intro p _
      unfold mtpLevel
      omega
  · intro a b h
    exact decide_eq_decide.2 ⟨fun h' => h.symm.trans h', fun h' => h.trans h'⟩

theorem sum_eq_of_single {α : Type} (l : List α) (f : α → ℕ) (x0 : α) (hl : l.Nodup) (hx : x0 ∈ l)
    (h0 : ∀ x ∈ l, x ≠ x0 → f x = 0) : (l.map f).sum = f x0 := by
  induction l with
  | nil => simp at hx
  | cons a l ih =>
    rw [List.map_cons, List.sum_cons]
    have hn := List.nodup_cons.1 hl
    rcases List.mem_cons.1 hx with rfl | hx
    · have : (l.map f).sum = 0 := by
        rw [List.sum_eq_zero_iff]
        intro y hy
        obtain ⟨x, hx', rfl⟩ := List.mem_map.1 hy
        exact h0 x (by simp [hx']) (by rintro rfl; exact hn.1 hx')
      omega
    · rw [h0 a (by simp) (by rintro rfl; exact hn.1 hx), zero_add]
      exact ih hn.2 hx (fun x hx => h0 x (by simp [hx]))

/-- C101, how often a combination is listed, whatever `std::sort` does: as often as it can be written with levels
that do not decrease. -/
theorem C101_multiplicity (S : NuSort) (maxLevel : ℤ) (s : List (ℕ × ℕ)) (h : ∃ c ∈ mtpBuild S maxLevel, c.Perm s) :
    (mtpBuild S maxLevel).countP (fun c => decide (c.Perm s)) = (levelOrders s).length := by
  obtain ⟨c0, hc0, hp0⟩ := h
  obtain ⟨ii, hii, hc1, hc2⟩ := mem_mtpBuild.1 hc0
  have hsound := schemesAux_sound hc1
  have hlev : levelSum s = ii := by rw [← levelSum_perm hp0]; exact hsound.1
  have hkept := (kept_perm_iff hp0).1 ((mtpKept_iff hsound.2.2).1 hc2)
  unfold mtpBuild contractedCombs
  rw [List.countP_flatMap, sum_eq_of_single _ _ (levelSum s) List.nodup_range (by rw [List.mem_range]; omega)]
  · rw [← schemes_count S s]
    simp only [Function.comp]
    rw [List.countP_filter]
    refine List.countP_congr ?_
    intro c hc
    rw [Bool.and_eq_true, decide_eq_true_iff]
    refine ⟨fun h => h.1, fun hp => ⟨hp, ?_⟩⟩
    rw [mtpKept_iff (schemesAux_sound hc).2.2]
    exact (kept_perm_iff hp).2 hkept
  · intro jj _ hjj
    simp only [Function.comp]
    rw [List.countP_eq_zero]
    intro c hc hp
    have hp' := of_decide_eq_true hp
    rw [List.mem_filter] at hc
    have := (schemesAux_sound hc.1).1
    rw [levelSum_perm hp'] at this
    exact hjj this.symm

theorem exists_levelSorted (r : List (ℕ × ℕ)) :
    ∃ r' : List (ℕ × ℕ), r'.Perm r ∧ r'.Pairwise (fun a b => mtpLevel a ≤ mtpLevel b) := by
  refine ⟨r.mergeSort (fun a b => decide (mtpLevel a ≤ mtpLevel b)), List.mergeSort_perm _ _, ?_⟩
  refine (List.pairwise_mergeSort (le := fun a b => decide (mtpLevel a ≤ mtpLevel b)) ?_ ?_ r).imp ?_
  · intro a b c h1 h2
    rw [decide_eq_true_iff] at h1 h2 ⊢
    exact h1.trans h2
  · intro a b
    rw [Bool.or_eq_true, decide_eq_true_iff, decide_eq_true_iff]
    exact le_total _ _
  · intro a b h
    exact of_decide_eq_true h

/-- Two different moments of equal level can be written in either order. -/
theorem two_levelOrders {s : List (ℕ × ℕ)} {p q : ℕ × ℕ} (hp : p ∈ s) (hq : q ∈ s) (hne : p ≠ q)
    (hl : mtpLevel p = mtpLevel q) : 2 ≤ (levelOrders s).length := by
  set r := (s.erase p).erase q with hr
  have hq' : q ∈ s.erase p := (List.mem_erase_of_ne (Ne.symm hne)).2 hq
  have hperm : s.Perm (p :: q :: r) := (List.perm_cons_erase hp).trans ((List.perm_cons_erase hq').cons p)
  obtain ⟨a, ha, hsa⟩ := exists_levelSorted (r.filter (fun x => decide (mtpLevel x ≤ mtpLevel p)))
  obtain ⟨b, hb, hsb⟩ := exists_levelSorted (r.filter (fun x => !decide (mtpLevel x ≤ mtpLevel p)))
  have hab : (a ++ b).Perm r := (ha.append hb).trans (List.filter_append_perm _ _)
  have hla : ∀ x ∈ a, mtpLevel x ≤ mtpLevel p := fun x hx =>
    of_decide_eq_true (List.mem_filter.1 (ha.mem_iff.1 hx)).2
  have hlb : ∀ x ∈ b, mtpLevel p < mtpLevel x := by
    intro x hx
    have := (List.mem_filter.1 (hb.mem_iff.1 hx)).2
    simpa using this
  have key : ∀ x y : ℕ × ℕ, mtpLevel x = mtpLevel p → mtpLevel y = mtpLevel p → s.Perm (x :: y :: r) →
      a ++ (x :: y :: b) ∈ levelOrders s := by
    intro x y hx hy hs
    rw [mem_levelOrders]
    constructor
    · refine List.Perm.trans ?_ hs.symm
      refine List.perm_middle.trans (List.Perm.cons _ ?_)
      exact List.perm_middle.trans (hab.cons _)
    · rw [List.pairwise_append]
      refine ⟨hsa, ?_, ?_⟩
      · rw [List.pairwise_cons, List.pairwise_cons]
        refine ⟨?_, ?_, hsb⟩
        · intro z hz
          rcases List.mem_cons.1 hz with rfl | hz
          · omega
          · have := hlb z hz; omega
        · intro z hz
          have := hlb z hz; omega
      · intro z hz w hw
        have h1 := hla z hz
        rcases List.mem_cons.1 hw with rfl | hw
        · omega
        · rcases List.mem_cons.1 hw with rfl | hw
          · omega
          · have := hlb w hw; omega
  have h1 := key p q rfl hl.symm hperm
  have h2 := key q p hl.symm rfl (hperm.trans (List.Perm.swap _ _ _))
  have hdiff : a ++ (p :: q :: b) ≠ a ++ (q :: p :: b) := by
    intro h
    have := List.append_cancel_left h
    exact hne (List.cons.inj this).1
  have hsub : [a ++ (p :: q :: b), a ++ (q :: p :: b)] ⊆ levelOrders s := by
    intro x hx
    simp only [List.mem_cons, List.not_mem_nil, or_false] at hx
    rcases hx with rfl | rfl
    · exact h1
    · exact h2
  have := (List.subperm_of_subset (by simp [hne]) hsub).length_le
  simpa using this

/-- C101: a listed combination is listed once exactly if it has no two different moments of equal level. -/
theorem C101_once_iff (S : NuSort) (maxLevel : ℤ) (s : List (ℕ × ℕ)) (h : ∃ c ∈ mtpBuild S maxLevel, c.Perm s) :
    (mtpBuild S maxLevel).countP (fun c => decide (c.Perm s)) = 1 ↔
      ∀ p ∈ s, ∀ q ∈ s, 4 * p.1 + p.2 = 4 * q.1 + q.2 → p = q := by
  constructor
  · intro h1 p hp q hq hl
    by_contra hne
    have := two_levelOrders hp hq hne (by unfold mtpLevel; omega)
    rw [← C101_multiplicity S maxLevel s h] at this
    omega
  · intro hinj
    refine le_antisymm (mtpBuild_unique maxLevel s ?_) ?_
    · intro p hp q hq hl
      exact hinj p hp q hq (by unfold mtpLevel at hl; omega)
    · obtain ⟨c, hc, hp⟩ := h
      exact List.countP_pos_iff.2 ⟨c, hc, by simpa using hp⟩

example (S : NuSort) : (mtpBuild S 18).countP (fun c => decide (c.Perm [(0, 4), (0, 4), (1, 0)])) ≠ 1 := by
  have h : ∃ c ∈ mtpBuild S 18, c.Perm [(0, 4), (0, 4), (1, 0)] := by
    rw [C100_combinations_complete]
    refine ⟨by simp, by decide, Or.inl ?_⟩
    exact ⟨(0, 4), by simp, by decide⟩
  rw [ne_eq, C101_once_iff S 18 _ h]
  intro h'
  exact absurd (h' (0, 4) (by simp) (1, 0) (by simp) (by decide)) (by decide)

end MaterSDK
