import Verif.Lemmas.Neigh
import Verif.Spec.Neigh
import Mathlib.Algebra.Order.Chebyshev
import Mathlib.Algebra.BigOperators.Fin
import Mathlib.Tactic.NormNum
import Mathlib.Tactic.IntervalCases

/-! # Helper lemmas for `Props/Neigh.lean` -/

set_option linter.unusedSectionVars false

namespace MaterSDK
theorem norm3_eq_dist3 (p q : Vec ℝ) : norm3 (p - q) = dist3 p q := by
  simp [norm3, dist3, Fin.sum_univ_three]

theorem dist3_nonneg (p q : Vec ℝ) : 0 ≤ dist3 p q := Real.sqrt_nonneg _

theorem dist3_self (p : Vec ℝ) : dist3 p p = 0 := by simp [dist3]

theorem dist3_eq_zero {p q : Vec ℝ} : dist3 p q = 0 ↔ p = q := by
  constructor
  · intro h
    unfold dist3 at h
    rw [Real.sqrt_eq_zero (Finset.sum_nonneg (fun i _ => sq_nonneg _)),
      Finset.sum_eq_zero_iff_of_nonneg (fun i _ => sq_nonneg _)] at h
    funext i
    have := h i (Finset.mem_univ i)
    have := pow_eq_zero_iff (two_ne_zero) |>.1 this
    linarith
  · rintro rfl; exact dist3_self p

theorem dist3_pos {p q : Vec ℝ} : 0 < dist3 p q ↔ p ≠ q := by
  rw [lt_iff_le_and_ne, ne_eq, ne_eq, eq_comm (a := (0 : ℝ)), dist3_eq_zero]
  simp [dist3_nonneg]

/-- Key indices and sorted primitive sites, index by index. -/
theorem keys_sites (s : Struct ℝ) (sc : Fin 3 → ℤ) (m : Fin 3 → ℕ)
    (h : ∀ i, sc i = 2 * (m i : ℤ) + 1) :
    ∃ (keys : List ℕ) (S : Struct ℝ), s.getKeyIdxs sc = .ok keys ∧ s.makeSupercell sc true = .ok S ∧
      keys.Pairwise (· < ·) ∧
      List.Forall₂ (fun c k => ∃ c', S.sites[k]? = some c' ∧ c'.z = c.z ∧ c'.pos = c.pos)
        s.reformat_.sites keys := by
  obtain ⟨keys, S, h1, h2, h3, h5, h6, h4⟩ := C13_key_idxs s sc m h
  refine ⟨keys, S, h1, h2, h3, ?_⟩
  generalize s.reformat_.sites = cs at h4
  clear h1 h2 h3 h5 h6
  induction cs generalizing keys with
  | nil =>
    cases keys with
    | nil => exact .nil
    | cons a as => simp at h4
  | cons c cs ih =>
    cases keys with
    | nil => simp at h4
    | cons k ks =>
      simp only [List.map_cons, List.cons.injEq] at h4
      refine .cons ?_ (ih ks h4.2)
      have h5 := h4.1
      rw [Option.map_eq_some_iff] at h5
      obtain ⟨c', h6, h7⟩ := h5
      simp only [Site.seen, Prod.mk.injEq] at h7
      exact ⟨c', h6, h7.1, h7.2⟩

theorem forall₂_mapM_ok {α β γ : Type} {R : α → γ → Prop} {f : β → Except PyErr γ} {Q : α → β → Prop}
    {as : List α} {bs : List β} (h : List.Forall₂ Q as bs)
    (hf : ∀ a b, Q a b → ∃ c, f b = .ok c ∧ R a c) :
    ∃ cs, bs.mapM f = .ok cs ∧ List.Forall₂ R as cs := by
  induction h with
  | nil => exact ⟨[], rfl, .nil⟩
  | cons h1 _ ih =>
    obtain ⟨cs, h2, h3⟩ := ih
    obtain ⟨c, h4, h5⟩ := hf _ _ h1
    refine ⟨c :: cs, ?_, .cons h5 h3⟩
    rw [List.mapM_cons, h4, ok_bind, h2, ok_bind]
    rfl

theorem entryOf_eq (c : Vec ℝ) : entryOf c = fun t => (t.z, dist3 t.pos c, t.pos) := by
  funext t
  simp [entryOf, norm3_eq_dist3]

theorem within_eq (S : Struct ℝ) (c : Vec ℝ) (r : ℝ) :
    S.sites.filter (fun t => norm3 (t.pos - c) ≤ r) = within S c r := by
  unfold within
  simp only [norm3_eq_dist3]

theorem forall₂_map_right' {α β γ : Type} {R : α → γ → Prop} (f : β → γ) {as : List α} {bs : List β}
    (h : List.Forall₂ (fun a b => R a (f b)) as bs) : List.Forall₂ R as (bs.map f) :=
  List.forall₂_map_right_iff.2 h

theorem neighborTable_spec (A : ArgSort) (s : Struct ℝ) (r : ℝ) (sc : Fin 3 → ℤ) (m : Fin 3 → ℕ)
    (h : ∀ i, sc i = 2 * (m i : ℤ) + 1) :
    ∃ (S : Struct ℝ) (table : List (List NbrEntry)) (W : ℕ),
      s.makeSupercell sc true = .ok S ∧ neighborTable A s r sc = .ok table ∧
      List.Forall₂ (fun c row => ∃ (real : List NbrEntry) (k : ℕ),
          row = real ++ List.replicate k zeroEntry ∧ row.length = W ∧
          real.Perm ((within S c.pos r).map (fun t => (t.z, dist3 t.pos c.pos, t.pos))) ∧
          real.Pairwise (fun a b => a.2.1 ≤ b.2.1)) s.reformat_.sites table ∧
      (s.sites ≠ [] → ∃ c ∈ s.sites, (within S c.pos r).length = W) := by
  obtain ⟨keys, S, h1, h2, _, h3⟩ := keys_sites s sc m h
  obtain ⟨rows, h4, h5⟩ := forall₂_mapM_ok
    (f := nbrEntries A (S.sites.map Site.pos) (S.sites.map Site.z) r)
    (R := fun c real => real.Perm ((within S c.pos r).map (fun t => (t.z, dist3 t.pos c.pos, t.pos))) ∧
      real.Pairwise (fun a b => a.2.1 ≤ b.2.1)) h3 (by
    rintro c k ⟨c', hc', hz, hp⟩
    obtain ⟨real, g1, g2, g3⟩ := nbrEntries_spec A S.sites r k c' hc'
    rw [within_eq, entryOf_eq, hp] at g2
    exact ⟨real, g1, g2, g3⟩)
  have hlen : ∀ (c : Vec ℝ) (row : List NbrEntry), (row.Perm ((within S c r).map (fun t => (t.z, dist3 t.pos c, t.pos)))) →
      row.length = (within S c r).length := by
    intro c row hp
    rw [hp.length_eq, List.length_map]
  refine ⟨S, rows.map (fun r => (r ++ List.replicate ((S.sites.map Site.z).length - r.length)
    zeroEntry).take (runningMax (rows.map List.length))), runningMax (rows.map List.length), h2, ?_, ?_, ?_⟩
  · unfold neighborTable
    rw [h2, ok_bind, h1, ok_bind]
    unfold keyNeighsInfo
    rw [h4, ok_bind]
    rfl
  · apply forall₂_map_right'
    have h6 : ∀ row ∈ rows, row.length ≤ runningMax (rows.map List.length) := fun row hr =>
      le_runningMax (List.mem_map_of_mem hr)
    have h7 : List.Forall₂ (fun (c : Site ℝ) (row : List NbrEntry) => row.length ≤ S.sites.length)
        s.reformat_.sites rows := by
      refine h5.imp ?_
      intro c row hr
      rw [hlen _ _ hr.1]
      exact List.length_filter_le _ _
    have h8 : runningMax (rows.map List.length) ≤ S.sites.length := by
      apply runningMax_le
      intro x hx
      obtain ⟨row, hr, rfl⟩ := List.mem_map.1 hx
      obtain ⟨i, hi, rfl⟩ := List.mem_iff_getElem.1 hr
      have hi' : i < s.reformat_.sites.length := by rw [h7.length_eq]; exact hi
      exact h7.get hi' hi
    rw [List.forall₂_iff_get] at h5 ⊢
    refine ⟨h5.1, fun i hi hi' => ?_⟩
    obtain ⟨g1, g2⟩ := h5.2 i hi hi'
    have g3 := h6 _ (List.get_mem rows ⟨i, hi'⟩)
    generalize rows.get ⟨i, hi'⟩ = real at g1 g2 g3
    refine ⟨real, runningMax (rows.map List.length) - real.length, ?_, ?_, g1, g2⟩
    · rw [List.length_map, List.take_append, List.take_of_length_le g3, List.take_replicate]
      congr 2
      omega
    · rw [List.length_take, List.length_append, List.length_replicate, List.length_map]
      omega
  · intro hne
    have hrl : rows.length = s.sites.length := by
      rw [← h5.length_eq]
      exact (sortByKey_perm _ _).length_eq
    have hrne : rows.map List.length ≠ [] := by
      intro h0
      rw [List.map_eq_nil_iff] at h0
      rw [h0] at hrl
      exact hne (List.length_eq_zero_iff.1 hrl.symm)
    obtain ⟨row, hr, he⟩ := List.mem_map.1 (runningMax_mem hrne)
    obtain ⟨i, hi, rfl⟩ := List.mem_iff_getElem.1 hr
    have hi' : i < s.reformat_.sites.length := by rw [h5.length_eq]; exact hi
    refine ⟨s.reformat_.sites[i], ?_, ?_⟩
    · exact (sortByKey_perm _ _).mem_iff.1 (List.getElem_mem hi')
    · rw [← he]
      exact (hlen _ _ (h5.get hi' hi).1).symm

theorem cross_dot (L : Matrix (Fin 3) (Fin 3) ℝ) (c : Fin 3 → ℝ) (i : Fin 3) :
    ∑ j, (∑ k, c k • L k) j * crossProduct (L (i + 1)) (L (i + 2)) j = c i * L.det := by
  have e1 : (1 : Fin 3) + 1 = 2 := rfl
  have e2 : (1 : Fin 3) + 2 = 0 := rfl
  have e3 : (2 : Fin 3) + 1 = 0 := rfl
  have e4 : (2 : Fin 3) + 2 = 1 := rfl
  fin_cases i <;>
    simp [Fin.sum_univ_three, cross_apply, Matrix.det_fin_three, e1, e2, e3, e4] <;> ring

theorem cauchy3 (v w : Vec ℝ) : |∑ j, v j * w j| ≤ dist3 v 0 * dist3 w 0 := by
  have h := Finset.sum_mul_sq_le_sq_mul_sq Finset.univ v w
  unfold dist3
  rw [← Real.sqrt_mul (Finset.sum_nonneg (fun i _ => sq_nonneg _)), ← Real.sqrt_sq_eq_abs]
  apply Real.sqrt_le_sqrt
  simpa using h

theorem coeff_bound (L : Matrix (Fin 3) (Fin 3) ℝ) (hL : L.det ≠ 0) (c : Fin 3 → ℝ) (i : Fin 3) :
    0 < planeDist L i ∧ |c i| * planeDist L i ≤ dist3 (∑ k, c k • L k) 0 := by
  have hd : 0 < |L.det| := abs_pos.2 hL
  have hx : ∀ c : Fin 3 → ℝ, |c i| * |L.det|
      ≤ dist3 (∑ k, c k • L k) 0 * dist3 (crossProduct (L (i + 1)) (L (i + 2))) 0 := by
    intro c
    rw [← abs_mul, ← cross_dot]
    exact cauchy3 _ _
  have hc : 0 < dist3 (crossProduct (L (i + 1)) (L (i + 2))) 0 := by
    rw [dist3_pos]
    intro h0
    have := hx (fun _ => 1)
    rw [h0, dist3_self, mul_zero] at this
    simp at this
    exact absurd this hL
  unfold planeDist
  refine ⟨div_pos hd hc, ?_⟩
  rw [← mul_div_assoc, div_le_iff₀ hc]
  exact hx c

theorem countP_strict_self (S : Struct ℝ) (c : Site ℝ) (r : ℝ) (hr : 0 < r)
    (hnd : (S.sites.map Site.pos).Nodup) (hc : c ∈ S.sites) :
    S.sites.countP (fun t => dist3 t.pos c.pos < r) = othersCloser S c.pos r + 1 := by
  unfold othersCloser
  obtain ⟨pre, post, hs⟩ := List.append_of_mem hc
  rw [hs] at hnd ⊢
  rw [List.map_append, List.map_cons, List.nodup_middle, List.nodup_cons] at hnd
  have hne : ∀ l : List (Site ℝ), (∀ t ∈ l, t.pos ≠ c.pos) →
      l.countP (fun t => dist3 t.pos c.pos < r)
        = l.countP (fun t => 0 < dist3 t.pos c.pos ∧ dist3 t.pos c.pos < r) := by
    intro l hl
    apply List.countP_congr
    intro t ht
    have := dist3_pos.2 (hl t ht)
    simp [this]
  have hpre : ∀ t ∈ pre, t.pos ≠ c.pos := by
    intro t ht he
    exact hnd.1 (by rw [← he]; exact List.mem_append_left _ (List.mem_map_of_mem ht))
  have hpost : ∀ t ∈ post, t.pos ≠ c.pos := by
    intro t ht he
    exact hnd.1 (by rw [← he]; exact List.mem_append_right _ (List.mem_map_of_mem ht))
  rw [List.countP_append, List.countP_append, List.countP_cons, List.countP_cons, hne pre hpre,
    hne post hpost]
  simp [dist3_self, hr]
  omega

theorem centre_mem (s S : Struct ℝ) (sc : Fin 3 → ℤ) (m : Fin 3 → ℕ)
    (h : ∀ i, sc i = 2 * (m i : ℤ) + 1) (hS : s.makeSupercell sc true = .ok S) (c : Site ℝ)
    (hc : c ∈ s.sites) : ∃ c' ∈ S.sites, c'.z = c.z ∧ c'.pos = c.pos := by
  obtain ⟨keys, S', h1, h2, _, h3⟩ := keys_sites s sc m h
  rw [hS] at h2
  cases h2
  have hc' : c ∈ s.reformat_.sites := (sortByKey_perm _ _).mem_iff.2 hc
  obtain ⟨i, hi, rfl⟩ := List.mem_iff_getElem.1 hc'
  have hik : i < keys.length := by rw [← h3.length_eq]; exact hi
  obtain ⟨c', e1, e2, e3⟩ := h3.get hi hik
  exact ⟨c', List.mem_of_getElem? e1, e2, e3⟩

theorem maxNum_spec (s S : Struct ℝ) (r : ℝ) (sc : Fin 3 → ℤ) (m : Fin 3 → ℕ)
    (h : ∀ i, sc i = 2 * (m i : ℤ) + 1) (hS : s.makeSupercell sc true = .ok S) (hne : s.sites ≠ []) :
    ∃ M : ℕ, maxNumNbrsReal s r sc = .ok ((M : ℤ) - 1) ∧
      (∀ c ∈ s.sites, S.sites.countP (fun t => dist3 t.pos c.pos < r) ≤ M) ∧
      (∃ c ∈ s.sites, S.sites.countP (fun t => dist3 t.pos c.pos < r) = M) := by
  obtain ⟨keys, S', h1, h2, _, h3⟩ := keys_sites s sc m h
  rw [hS] at h2
  cases h2
  obtain ⟨counts, h4, h5⟩ := forall₂_mapM_ok
    (f := fun k => do
      let c ← pyGet (S.sites.map Site.pos) k
      return (distancesFrom (S.sites.map Site.pos) c).countP (fun d => decide (d < r)))
    (R := fun c n => n = S.sites.countP (fun t => dist3 t.pos c.pos < r)) h3 (by
    rintro c k ⟨c', hc', hz, hp⟩
    refine ⟨_, ?_, rfl⟩
    rw [pyGet_eq_ok.2 (show (S.sites.map Site.pos)[k]? = some c.pos by
      rw [List.getElem?_map, hc', ← hp]; rfl), ok_bind]
    show Except.ok _ = _
    congr 1
    unfold distancesFrom
    rw [List.map_map, List.countP_map]
    apply List.countP_congr
    intro t _
    simp [norm3_eq_dist3])
  have hget : ∀ c ∈ s.sites, S.sites.countP (fun t => dist3 t.pos c.pos < r) ∈ counts := by
    intro c hc
    have hc' : c ∈ s.reformat_.sites := (sortByKey_perm _ _).mem_iff.2 hc
    obtain ⟨i, hi, rfl⟩ := List.mem_iff_getElem.1 hc'
    have hi' : i < counts.length := by rw [← h5.length_eq]; exact hi
    have := h5.get hi hi'
    simp only [List.get_eq_getElem] at this
    rw [← this]
    exact List.getElem_mem hi'
  refine ⟨runningMax counts, ?_, fun c hc => le_runningMax (hget c hc), ?_⟩
  · unfold maxNumNbrsReal
    rw [h1, ok_bind, hS, ok_bind]
    simp only
    rw [h4, ok_bind]
    rfl
  · have hcl : counts ≠ [] := by
      obtain ⟨c, hc⟩ := List.exists_mem_of_ne_nil _ hne
      exact List.ne_nil_of_mem (hget c hc)
    obtain ⟨i, hi, he⟩ := List.mem_iff_getElem.1 (runningMax_mem hcl)
    have hi' : i < s.reformat_.sites.length := by rw [h5.length_eq]; exact hi
    have := h5.get hi' hi
    simp only [List.get_eq_getElem] at this
    exact ⟨s.reformat_.sites[i], (sortByKey_perm _ _).mem_iff.1 (List.getElem_mem hi'), by
      rw [← this, he]⟩

/-- One atom in a cubic cell of edge 1. -/
noncomputable def cubicCell : Struct ℝ := ⟨1, [⟨14, 0, none⟩]⟩

theorem cubic_supercell : cubicCell.makeSupercell ![3, 1, 1] true =
    .ok ⟨Matrix.diagonal (fun i => ((![3, 1, 1] : Fin 3 → ℤ) i : ℝ)) * 1,
      [⟨14, 0, none⟩, ⟨14, ![-1, 0, 0], none⟩, ⟨14, ![1, 0, 0], none⟩]⟩ := by
  rw [makeSupercell_odd cubicCell ![1, 0, 0] (by decide)]
  have hsh : shiftsZ ![1, 0, 0] = [0, ![-1, 0, 0], ![1, 0, 0]] := by decide
  have hsites : superSites cubicCell ![1, 0, 0]
      = [⟨14, 0, none⟩, ⟨14, ![-1, 0, 0], none⟩, ⟨14, ![1, 0, 0], none⟩] := by
    unfold superSites
    rw [hsh]
    simp only [cubicCell, List.flatMap_cons, List.flatMap_nil, List.map_cons, List.map_nil,
      List.cons_append, List.nil_append, List.cons.injEq, Site.mk.injEq, true_and, and_true]
    refine ⟨?_, ?_, ?_⟩
    · funext j; simp
    · funext j; fin_cases j <;> simp [Fin.sum_univ_three]
    · funext j; fin_cases j <;> simp [Fin.sum_univ_three]
  simp only [if_true, Struct.reformat_, hsites]
  rw [sortByKey_of_sorted]
  · rfl
  · simp

theorem cubic_dist : dist3 (0 : Vec ℝ) 0 = 0 ∧ dist3 ![-1, 0, 0] 0 = 1 ∧ dist3 ![1, 0, 0] 0 = 1 := by
  refine ⟨dist3_self 0, ?_, ?_⟩ <;> simp [dist3, Fin.sum_univ_three]

theorem marks_set (sites : List (Site ℝ)) (hnd : (sites.map Site.pos).Nodup) (k : ℕ) (c : Site ℝ)
    (hk : sites[k]? = some c) (p : Site ℝ → Bool) :
    (sites.map p).set k false = sites.map (fun t => p t && decide (t.pos ≠ c.pos)) := by
  apply List.ext_getElem?
  intro i
  rw [List.getElem?_set, List.getElem?_map, List.getElem?_map]
  obtain ⟨hkl, hkc⟩ := List.getElem?_eq_some_iff.1 hk
  by_cases hik : k = i
  · subst hik
    rw [if_pos rfl, if_pos (by simpa using hkl), hk]
    simp
  · rw [if_neg hik]
    cases hi : sites[i]? with
    | none => rfl
    | some t =>
      obtain ⟨hil, hit⟩ := List.getElem?_eq_some_iff.1 hi
      have hne : t.pos ≠ c.pos := by
        intro he
        have h1 : (sites.map Site.pos)[i]'(by simpa using hil) = (sites.map Site.pos)[k]'(by simpa using hkl) := by
          rw [List.getElem_map, List.getElem_map, hit, hkc, he]
        exact hik ((hnd.getElem_inj_iff).1 h1).symm
      simp [hne]

theorem elementCount_spec (S : Struct ℝ) (r : ℝ) (k e : ℕ) (c : Site ℝ)
    (hnd : (S.sites.map Site.pos).Nodup) (hk : S.sites[k]? = some c) :
    elementCount (S.sites.map Site.pos) (S.sites.map Site.z) r k e = .ok (othersCloserOf S c.pos r e) := by
  unfold elementCount
  rw [pyGet_eq_ok.2 (show (S.sites.map Site.pos)[k]? = some c.pos by rw [List.getElem?_map, hk]; rfl), ok_bind]
  have hz : List.zipWith (fun z d => decide (z = e) && decide (d < r)) (S.sites.map Site.z)
      (distancesFrom (S.sites.map Site.pos) c.pos)
      = S.sites.map (fun t => decide (t.z = e) && decide (dist3 t.pos c.pos < r)) := by
    unfold distancesFrom
    rw [List.map_map, List.zipWith_map, List.zipWith_self]
    simp [norm3_eq_dist3]
  simp only [hz]
  rw [marks_set S.sites hnd k c hk]
  show Except.ok _ = _
  congr 1
  rw [List.countP_map]
  unfold othersCloserOf
  apply List.countP_congr
  intro t _
  simp only [Function.comp, Bool.and_eq_true, decide_eq_true_eq, dist3_pos]
  tauto

theorem othersCloserOf_le (S : Struct ℝ) (p : Vec ℝ) (r : ℝ) (e : ℕ) :
    othersCloserOf S p r e ≤ othersCloser S p r := by
  unfold othersCloserOf othersCloser
  apply List.countP_mono_left
  intro t _ h
  simp only [decide_eq_true_eq] at h ⊢
  exact h.2

theorem othersCloser_sum (S : Struct ℝ) (p : Vec ℝ) (r : ℝ) (els : List ℕ)
    (hel : ∀ t ∈ S.sites, t.z ∈ els) :
    othersCloser S p r ≤ (els.map (fun e => othersCloserOf S p r e)).sum := by
  unfold othersCloser othersCloserOf
  generalize S.sites = l at hel
  induction l with
  | nil => simp
  | cons t l ih =>
    have h1 := ih (fun u hu => hel u (by simp [hu]))
    simp only [List.countP_cons]
    have hsum : ∀ (f g : ℕ → ℕ) (L : List ℕ), (L.map (fun e => f e + g e)).sum
        = (L.map f).sum + (L.map g).sum := by
      intro f g L
      induction L with
      | nil => rfl
      | cons a L ih => simp only [List.map_cons, List.sum_cons, ih]; omega
    rw [hsum]
    apply Nat.add_le_add h1
    split
    · rename_i hc
      simp only [decide_eq_true_eq] at hc
      have hm : t.z ∈ els := hel t (by simp)
      have : (if (decide (t.z = t.z ∧ 0 < dist3 t.pos p ∧ dist3 t.pos p < r)) = true then 1 else 0)
          ≤ (els.map (fun e => if (decide (t.z = e ∧ 0 < dist3 t.pos p ∧ dist3 t.pos p < r)) = true then 1 else 0)).sum :=
        List.single_le_sum (by simp) _ (List.mem_map.2 ⟨t.z, hm, rfl⟩)
      simpa [hc] using this
    · exact Nat.zero_le _

theorem maxElement_spec (s S : Struct ℝ) (r : ℝ) (els : List ℕ) (sc : Fin 3 → ℤ) (m : Fin 3 → ℕ)
    (h : ∀ i, sc i = 2 * (m i : ℤ) + 1) (hS : s.makeSupercell sc true = .ok S)
    (hne : s.sites ≠ []) (hnd : (S.sites.map Site.pos).Nodup) :
    ∃ f : ℕ → ℕ, maxNumNbrsRealElement s r els sc = .ok ((counterKeys els).map (fun e => (e, f e))) ∧
      ∀ e, (∀ c ∈ s.sites, othersCloserOf S c.pos r e ≤ f e) ∧
        (∃ c ∈ s.sites, othersCloserOf S c.pos r e = f e) := by
  obtain ⟨keys, S', h1, h2, _, h3⟩ := keys_sites s sc m h
  rw [hS] at h2
  cases h2
  have hcounts : ∀ e, keys.mapM (fun k => elementCount (S.sites.map Site.pos) (S.sites.map Site.z) r k e)
      = .ok (s.reformat_.sites.map (fun c => othersCloserOf S c.pos r e)) := by
    intro e
    obtain ⟨counts, h4, h5⟩ := forall₂_mapM_ok
      (f := fun k => elementCount (S.sites.map Site.pos) (S.sites.map Site.z) r k e)
      (R := fun c n => othersCloserOf S c.pos r e = n) h3 (by
      rintro c k ⟨c', hc', hz, hp⟩
      refine ⟨_, ?_, rfl⟩
      rw [elementCount_spec S r k e c' hnd hc', hp])
    rw [h4]
    congr 1
    have := List.forall₂_map_left_iff (f := fun c : Site ℝ => othersCloserOf S c.pos r e)
      (R := fun a b => a = b) |>.2 h5
    exact (List.forall₂_eq_eq_eq ▸ this : _ = counts).symm
  refine ⟨fun e => runningMax (s.reformat_.sites.map (fun c => othersCloserOf S c.pos r e)), ?_, ?_⟩
  · unfold maxNumNbrsRealElement
    rw [h1, ok_bind, hS, ok_bind]
    simp only
    rw [mapM_eq_ok, List.forall₂_map_right_iff, List.forall₂_same]
    intro e _
    rw [hcounts e, ok_bind]
    rfl
  · intro e
    have hmem : ∀ c, c ∈ s.reformat_.sites ↔ c ∈ s.sites := fun c => (sortByKey_perm _ _).mem_iff
    constructor
    · intro c hc
      exact le_runningMax (List.mem_map.2 ⟨c, (hmem c).2 hc, rfl⟩)
    · have hne' : s.reformat_.sites.map (fun c => othersCloserOf S c.pos r e) ≠ [] := by
        obtain ⟨c, hc⟩ := List.exists_mem_of_ne_nil _ hne
        exact List.ne_nil_of_mem (List.mem_map.2 ⟨c, (hmem c).2 hc, rfl⟩)
      obtain ⟨c, hc, he⟩ := List.mem_map.1 (runningMax_mem hne')
      exact ⟨c, (hmem c).1 hc, he⟩

end MaterSDK
