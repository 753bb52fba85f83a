import Verif.Props.Report
import Verif.Props.Kpoints

/-! # C68, C70: exactly when they hold -/

namespace MaterSDK

/-! ## C68 -/

/-- C68, the CBM: the claim holds for a run exactly if the bands of the next k-point within 0.001 of the edge
have the same spins and numbers as the other bands of the k-point of the edge within 0.001. -/
theorem C68_cbm_iff (np125 : Bool) (f : RunFiles) (t : EigenTable) (ht : eigenEnergies np125 f = .ok t)
    (c : Edge) (l : List Edge) (h : getCbm np125 f = .ok (some (c :: l))) (v : ℚ) (hv : c.energy = some v) :
    (∀ x : Edge, x ∈ l ↔ ∃ s b e, t.At s (c.kpt - 1) b e ∧ |e - v| < 1 / 1000 ∧
      (some s, b + 1) ≠ (c.spin, c.band) ∧ x = ⟨some v, c.kpt, b + 1, some s⟩) ↔
    ∀ s b, (∃ e, t.At s c.kpt b e ∧ b < npWidth t.up ∧ |e - v| < 1 / 1000) ↔
      ((some s, b + 1) ≠ (c.spin, c.band) ∧ ∃ e, t.At s (c.kpt - 1) b e ∧ |e - v| < 1 / 1000) := by
  have hx := C68_cbm_partial np125 f t ht c l h v hv
  constructor
  · intro hc s b
    have h1 := (hx ⟨some v, c.kpt, b + 1, some s⟩).symm.trans (hc ⟨some v, c.kpt, b + 1, some s⟩)
    constructor
    · rintro ⟨e, he, hb, hd⟩
      obtain ⟨s', b', e', h2, h3, h4, h5⟩ := h1.1 ⟨s, b, e, he, hb, hd, rfl⟩
      simp only [Edge.mk.injEq, Option.some.injEq, true_and, Nat.add_right_cancel_iff] at h5
      obtain ⟨rfl, rfl⟩ := h5
      exact ⟨h4, e', h2, h3⟩
    · rintro ⟨hne, e, he, hd⟩
      obtain ⟨s', b', e', h2, h3, h4, h5⟩ := h1.2 ⟨s, b, e, he, hd, hne, rfl⟩
      simp only [Edge.mk.injEq, Option.some.injEq, true_and, Nat.add_right_cancel_iff] at h5
      obtain ⟨rfl, rfl⟩ := h5
      exact ⟨e', h2, h3, h4⟩
  · intro hc x
    rw [hx x]
    constructor
    · rintro ⟨s, b, e, he, hb, hd, rfl⟩
      obtain ⟨hne, e', he', hd'⟩ := (hc s b).1 ⟨e, he, hb, hd⟩
      exact ⟨s, b, e', he', hd', hne, rfl⟩
    · rintro ⟨s, b, e, he, hd, hne, rfl⟩
      obtain ⟨e', he', hb', hd'⟩ := (hc s b).2 ⟨hne, e, he, hd⟩
      exact ⟨s, b, e', he', hb', hd', rfl⟩

/-- C68, the VBM: the claim holds for a run exactly if no lowest band of the next k-point is within 0.001 of
the edge, and the higher ones within 0.001 have the spins of, and numbers one more than, the other bands of
the k-point of the edge within 0.001. -/
theorem C68_vbm_iff (np125 : Bool) (f : RunFiles) (t : EigenTable) (ht : eigenEnergies np125 f = .ok t)
    (c : Edge) (l : List Edge) (h : getVbm np125 f = .ok (some (c :: l))) (v : ℚ) (hv : c.energy = some v) :
    (∀ x : Edge, x ∈ l ↔ ∃ s b e, t.At s (c.kpt - 1) b e ∧ |e - v| < 1 / 1000 ∧
      (some s, b + 1) ≠ (c.spin, c.band) ∧ x = ⟨some v, c.kpt, b + 1, some s⟩) ↔
    (∀ s e, t.At s c.kpt 0 e → 0 < npWidth t.up → 1 / 1000 ≤ |e - v|) ∧
    ∀ s b, (∃ e, t.At s c.kpt (b + 1) e ∧ b + 1 < npWidth t.up ∧ |e - v| < 1 / 1000) ↔
      ((some s, b + 1) ≠ (c.spin, c.band) ∧ ∃ e, t.At s (c.kpt - 1) b e ∧ |e - v| < 1 / 1000) := by
  have hx := C68_vbm_partial np125 f t ht c l h v hv
  constructor
  · intro hc
    constructor
    · intro s e he hw
      by_contra hd
      obtain ⟨s', b', e', _, _, _, h5⟩ := (hc _).1 ((hx ⟨some v, c.kpt, 0, some s⟩).2
        ⟨s, 0, e, he, hw, not_le.1 hd, rfl⟩)
      simp at h5
    intro s b
    have h1 := (hx ⟨some v, c.kpt, b + 1, some s⟩).symm.trans (hc ⟨some v, c.kpt, b + 1, some s⟩)
    constructor
    · rintro ⟨e, he, hb, hd⟩
      obtain ⟨s', b', e', h2, h3, h4, h5⟩ := h1.1 ⟨s, b + 1, e, he, hb, hd, rfl⟩
      simp only [Edge.mk.injEq, Option.some.injEq, true_and, Nat.add_right_cancel_iff] at h5
      obtain ⟨rfl, rfl⟩ := h5
      exact ⟨h4, e', h2, h3⟩
    · rintro ⟨hne, e, he, hd⟩
      obtain ⟨s', b', e', h2, h3, h4, h5⟩ := h1.2 ⟨s, b, e, he, hd, hne, rfl⟩
      simp only [Edge.mk.injEq, Option.some.injEq, true_and] at h5
      obtain ⟨h5, rfl⟩ := h5
      subst h5
      exact ⟨e', h2, h3, h4⟩
  · rintro ⟨h0, hc⟩ x
    rw [hx x]
    constructor
    · rintro ⟨s, b, e, he, hb, hd, rfl⟩
      cases b with
      | zero => exact absurd (h0 s e he hb) (not_le.2 hd)
      | succ b =>
        obtain ⟨hne, e', he', hd'⟩ := (hc s b).1 ⟨e, he, hb, hd⟩
        exact ⟨s, b, e', he', hd', hne, rfl⟩
    · rintro ⟨s, b, e, he, hd, hne, rfl⟩
      obtain ⟨e', he', hb', hd'⟩ := (hc s b).2 ⟨hne, e, he, hd⟩
      exact ⟨s, b + 1, e', he', hb', hd', rfl⟩

/-! ## C70 -/

/-- `s'` is `s` with every atom stored at some periodic image. -/
def StoredImages (s s' : Struct ℝ) : Prop :=
  s'.lattice = s.lattice ∧ List.Forall₂ (fun t t' : Site ℝ => t'.z = t.z ∧ t'.mag = t.mag ∧
    ∃ n : Fin 3 → ℤ, t'.pos = t.pos + ∑ k, (n k : ℝ) • s.lattice k) s.sites s'.sites

theorem storedImages_refl (s : Struct ℝ) : StoredImages s s :=
  ⟨rfl, List.forall₂_same.2 fun t _ => ⟨rfl, rfl, 0, by simp⟩⟩

/-- C70: a structure of two or more atoms can always be stored so that a direction does not count as vacuum,
however large the gap. -/
theorem C70_hidden (s : Struct ℝ) (a b : Site ℝ) (rest : List (Site ℝ)) (hs : s.sites = a :: b :: rest)
    (i : Fin 3) (hi : s.lattice i i ≠ 0) :
    ∃ s', StoredImages s s' ∧ ∃ v : Fin 3 → Bool, s'.judgeVacuum = .ok [v 0, v 1, v 2] ∧ v i = false := by
  obtain ⟨n, hn⟩ : ∃ n : ℤ, norm3 (s.lattice i) - 10 ≤ b.pos i + n * s.lattice i i - a.pos i := by
    obtain ⟨m, hm⟩ := exists_nat_ge ((norm3 (s.lattice i) - 10 - b.pos i + a.pos i) / |s.lattice i i|)
    rw [div_le_iff₀ (abs_pos.2 hi)] at hm
    rcases abs_cases (s.lattice i i) with ⟨h, _⟩ | ⟨h, _⟩
    · exact ⟨m, by rw [h] at hm; push_cast; linarith⟩
    · exact ⟨-m, by rw [h] at hm; push_cast; linarith⟩
  obtain ⟨b', hb'⟩ : ∃ b' : Site ℝ, b' = { b with pos := b.pos + (n : ℝ) • s.lattice i } := ⟨_, rfl⟩
  refine ⟨⟨s.lattice, a :: b' :: rest⟩, ⟨rfl, ?_⟩, ?_⟩
  · rw [hs]
    refine .cons ⟨rfl, rfl, 0, by simp⟩ (.cons ⟨by rw [hb'], by rw [hb'], Pi.single i n, ?_⟩
      (List.forall₂_same.2 fun t _ => ⟨rfl, rfl, 0, by simp⟩))
    rw [hb', Finset.sum_eq_single i]
    · simp
    · intro k _ hk
      simp [hk]
    · simp
  · obtain ⟨v, h1, h2⟩ := (C70_meaning ⟨s.lattice, a :: b' :: rest⟩).2 (by simp)
    refine ⟨v, h1, ?_⟩
    rw [← Bool.not_eq_true, h2 i]
    intro hw
    have := hw b' (by simp) a (by simp)
    rw [hb'] at this
    simp only [Pi.add_apply, Pi.smul_apply, smul_eq_mul] at this
    linarith

/-- C70: exactly when the answer does not depend on the stored images (for a cell whose vectors have a
component along their own axis): for a single atom, and for structures which show no vacuum however they are
stored. -/
theorem C70_images_iff (s : Struct ℝ) (hs : s.sites ≠ []) (hl : ∀ i, s.lattice i i ≠ 0) :
    (∀ s', StoredImages s s' → s'.judgeVacuum = s.judgeVacuum) ↔
      (s.sites.length = 1 ∨ ∀ s', StoredImages s s' → s'.judgeVacuum = .ok [false, false, false]) := by
  constructor
  · intro h
    match hm : s.sites with
    | [] => exact absurd hm hs
    | [a] => exact Or.inl rfl
    | a :: b :: rest =>
      right
      obtain ⟨w, hw, -⟩ := (C70_meaning s).2 hs
      have hf : ∀ i, w i = false := by
        intro i
        obtain ⟨s', hi, v, hv, hvi⟩ := C70_hidden s a b rest hm i (hl i)
        have := h s' hi
        rw [hv, hw] at this
        have := Except.ok.inj this
        simp only [List.cons.injEq, and_true] at this
        obtain ⟨e0, e1, e2⟩ := this
        fin_cases i
        · exact e0 ▸ hvi
        · exact e1 ▸ hvi
        · exact e2 ▸ hvi
      intro s' hi
      rw [h s' hi, hw, hf 0, hf 1, hf 2]
  · rintro (h1 | h) s' hi
    · obtain ⟨a, ha⟩ := List.length_eq_one_iff.1 h1
      obtain ⟨hlat, hsites⟩ := hi
      rw [ha] at hsites
      obtain ⟨b, hb⟩ : ∃ b, s'.sites = [b] := List.length_eq_one_iff.1 hsites.length_eq.symm
      obtain ⟨v, hv, hv'⟩ := (C70_meaning s).2 hs
      obtain ⟨w, hw, hw'⟩ := (C70_meaning s').2 (by simp [hb])
      have : ∀ i, w i = v i := by
        intro i
        rw [Bool.eq_iff_iff, hw' i, hv' i, hlat]
        simp [WithinRange, ha, hb]
      rw [hv, hw, this 0, this 1, this 2]
    · rw [h s' hi, h s (storedImages_refl s)]

/-- Two atoms whose second can be stored so that no direction counts as vacuum. -/
example : (twoLayers 0 1).sites ≠ [] ∧ ∀ i, (twoLayers 0 1).lattice i i ≠ 0 := by
  refine ⟨by simp [twoLayers], fun i => by simp [twoLayers]⟩

end MaterSDK
