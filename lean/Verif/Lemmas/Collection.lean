import Verif.Spec.Collection
import Verif.Lemmas.DatasetAux
import Verif.Lemmas.StructureAux

/-!
# Lemmas about slices and collections
-/

namespace MaterSDK

/-- Arithmetic progressions going up. -/
theorem progression_up (a b step : ℤ) (hs : 0 < step) :
    let l := (List.range (sliceLen a b step).toNat).map
      (fun (k : ℕ) => a + k * step)
    l.Pairwise (· < ·) ∧ ∀ i, i ∈ l ↔ a ≤ i ∧ i < b ∧ step ∣ i - a := by
  intro l
  have hlen : sliceLen a b step = if a < b then (b - a - 1) / step + 1 else 0 := by
    unfold sliceLen; rw [if_neg (by omega)]
  constructor
  · refine List.Pairwise.map _ ?_ List.pairwise_lt_range
    intro x y hxy
    have : (x : ℤ) < y := by exact_mod_cast hxy
    nlinarith
  · intro i
    simp only [l, hlen, List.mem_map, List.mem_range]
    constructor
    · rintro ⟨k, hk, rfl⟩
      split at hk
      · have h0 : 0 ≤ (b - a - 1) / step := Int.ediv_nonneg (by omega) hs.le
        have hk' : (k : ℤ) ≤ (b - a - 1) / step := by omega
        have h1 := (Int.le_ediv_iff_mul_le hs).1 hk'
        have h2 : 0 ≤ (k : ℤ) * step := mul_nonneg (by omega) hs.le
        exact ⟨by omega, by omega, ⟨k, by ring⟩⟩
      · simp at hk
    · rintro ⟨h1, h2, q, hq⟩
      have hq0 : 0 ≤ q := by
        by_contra hc
        have : q ≤ -1 := by omega
        nlinarith
      refine ⟨q.toNat, ?_, ?_⟩
      · rw [if_pos (by omega)]
        have : q ≤ (b - a - 1) / step := (Int.le_ediv_iff_mul_le hs).2 (by nlinarith)
        omega
      · rw [Int.toNat_of_nonneg hq0]
        linarith [mul_comm step q]

/-- Arithmetic progressions going down. -/
theorem progression_down (a b step : ℤ) (hs : step < 0) :
    let l := (List.range (sliceLen a b step).toNat).map
      (fun (k : ℕ) => a + k * step)
    l.Pairwise (· > ·) ∧ ∀ i, i ∈ l ↔ i ≤ a ∧ b < i ∧ step ∣ i - a := by
  intro l
  have hs' : 0 < -step := by omega
  have hlen : sliceLen a b step = if b < a then (a - b - 1) / (-step) + 1 else 0 := by
    unfold sliceLen; rw [if_pos hs]
  constructor
  · refine List.Pairwise.map _ ?_ List.pairwise_lt_range
    intro x y hxy
    have : (x : ℤ) < y := by exact_mod_cast hxy
    show a + (x : ℤ) * step > a + y * step
    nlinarith
  · intro i
    simp only [l, hlen, List.mem_map, List.mem_range]
    constructor
    · rintro ⟨k, hk, rfl⟩
      split at hk
      · have h0 : 0 ≤ (a - b - 1) / (-step) := Int.ediv_nonneg (by omega) hs'.le
        have hk' : (k : ℤ) ≤ (a - b - 1) / (-step) := by omega
        have h1 := (Int.le_ediv_iff_mul_le hs').1 hk'
        have h2 : 0 ≤ (k : ℤ) * (-step) := mul_nonneg (by omega) hs'.le
        have h3 : (k : ℤ) * -step = -(k * step) := by ring
        exact ⟨by omega, by omega, ⟨k, by ring⟩⟩
      · simp at hk
    · rintro ⟨h1, h2, q, hq⟩
      have hq0 : 0 ≤ q := by
        by_contra hc
        have : q ≤ -1 := by omega
        nlinarith
      refine ⟨q.toNat, ?_, ?_⟩
      · rw [if_pos (by omega)]
        have : q ≤ (a - b - 1) / (-step) := (Int.le_ediv_iff_mul_le hs').2 (by nlinarith)
        omega
      · rw [Int.toNat_of_nonneg hq0]
        linarith [mul_comm step q]

theorem adjust_start_up (n : ℕ) (step a : ℤ) (hs : 0 < step) (i : ℤ) (hi : i < n) :
    (adjustBound n step a ≤ i ∧ step ∣ i - adjustBound n step a) ↔
      ((if a < 0 then max 0 (a + n) else a) ≤ i ∧ step ∣ i - (if a < 0 then max 0 (a + n) else a)) := by
  unfold adjustBound
  by_cases h1 : a < 0
  · rw [if_pos h1, if_pos h1]
    by_cases h2 : a + n < 0
    · rw [if_pos h2, if_neg (by omega), max_eq_left h2.le]
    · rw [if_neg h2, max_eq_right (by omega)]
  · rw [if_neg h1, if_neg h1]
    by_cases h2 : (n : ℤ) ≤ a
    · rw [if_pos h2, if_neg (by omega)]
      constructor
      · rintro ⟨h3, _⟩; omega
      · rintro ⟨h3, _⟩; omega
    · rw [if_neg h2]

theorem adjust_stop_up (n : ℕ) (step b : ℤ) (hs : 0 < step) (i : ℤ) (h0 : 0 ≤ i) (hi : i < n) :
    i < adjustBound n step b ↔ (if b < 0 then i < b + n else i < b) := by
  unfold adjustBound
  by_cases h1 : b < 0
  · rw [if_pos h1, if_pos h1]
    by_cases h2 : b + n < 0
    · rw [if_pos h2, if_neg (by omega)]; omega
    · rw [if_neg h2]
  · rw [if_neg h1, if_neg h1]
    by_cases h2 : (n : ℤ) ≤ b
    · rw [if_pos h2, if_neg (by omega)]; omega
    · rw [if_neg h2]

theorem adjust_start_down (n : ℕ) (step a : ℤ) (hs : step < 0) (i : ℤ) (h0 : 0 ≤ i) :
    (i ≤ adjustBound n step a ∧ step ∣ i - adjustBound n step a) ↔
      (i ≤ (if a < 0 then a + n else min a (n - 1)) ∧
        step ∣ i - (if a < 0 then a + n else min a (n - 1))) := by
  unfold adjustBound
  by_cases h1 : a < 0
  · rw [if_pos h1, if_pos h1]
    by_cases h2 : a + n < 0
    · rw [if_pos h2, if_pos hs]
      constructor
      · rintro ⟨h3, _⟩; omega
      · rintro ⟨h3, _⟩; omega
    · rw [if_neg h2]
  · rw [if_neg h1, if_neg h1]
    by_cases h2 : (n : ℤ) ≤ a
    · rw [if_pos h2, if_pos hs, min_eq_right (by omega)]
    · rw [if_neg h2, min_eq_left (by omega)]

theorem adjust_stop_down (n : ℕ) (step b : ℤ) (hs : step < 0) (i : ℤ) (h0 : 0 ≤ i) (hi : i < n) :
    adjustBound n step b < i ↔ (if b < 0 then b + n < i else b < i) := by
  unfold adjustBound
  by_cases h1 : b < 0
  · rw [if_pos h1, if_pos h1]
    by_cases h2 : b + n < 0
    · rw [if_pos h2, if_pos hs]; omega
    · rw [if_neg h2]
  · rw [if_neg h1, if_neg h1]
    by_cases h2 : (n : ℤ) ≤ b
    · rw [if_pos h2, if_pos hs]; omega
    · rw [if_neg h2]

theorem adjust_range_up (n : ℕ) (step b : ℤ) (hs : 0 < step) :
    0 ≤ adjustBound n step b ∧ adjustBound n step b ≤ n := by
  unfold adjustBound
  split_ifs <;> omega

theorem adjust_range_down (n : ℕ) (step b : ℤ) (hs : step < 0) :
    -1 ≤ adjustBound n step b ∧ adjustBound n step b ≤ n - 1 := by
  unfold adjustBound
  split_ifs <;> omega

/-- The indices computed are those a slice selects. -/
theorem sliceIndices_selects (s : PySliceObj) (n : ℕ) (h : s.step ≠ some 0) :
    ∃ idx, sliceIndices s n = .ok idx ∧ Selects s n idx := by
  have hst : s.step.getD 1 ≠ 0 := by
    intro h0
    cases hs : s.step with
    | none => rw [hs] at h0; simp at h0
    | some k =>
      rw [hs] at h0
      simp only [Option.getD_some] at h0
      exact h (by rw [hs, h0])
  unfold sliceIndices
  simp only
  rw [if_neg hst]
  refine ⟨_, rfl, ?_⟩
  unfold Selects
  generalize s.step.getD 1 = step at *
  simp only
  by_cases hpos : 0 < step
  · rw [if_pos hpos]
    obtain ⟨hp, hm⟩ := progression_up
      (sliceStart s n step) (sliceStop s n step) step hpos
    refine ⟨hp, fun i => (hm i).trans ?_⟩
    unfold sliceLow BeforeStop sliceStart sliceStop
    cases hA : s.start with
    | none =>
      cases hB : s.stop with
      | none =>
        simp only [if_neg (by omega : ¬ step < 0)]
        exact ⟨fun ⟨h1, h2, h3⟩ => ⟨h1, h2, h1, trivial, h3⟩, fun ⟨h1, h2, _, _, h3⟩ => ⟨h1, h2, h3⟩⟩
      | some b =>
        simp only [if_neg (by omega : ¬ step < 0)]
        constructor
        · rintro ⟨h1, h2, h3⟩
          have := adjust_range_up n step b hpos
          exact ⟨h1, by omega, h1, (adjust_stop_up n step b hpos i h1 (by omega)).1 h2, h3⟩
        · rintro ⟨h1, h2, _, h3, h4⟩
          exact ⟨h1, (adjust_stop_up n step b hpos i h1 h2).2 h3, h4⟩
    | some a =>
      have ha := adjust_range_up n step a hpos
      cases hB : s.stop with
      | none =>
        simp only [if_neg (by omega : ¬ step < 0)]
        constructor
        · rintro ⟨h1, h2, h3⟩
          obtain ⟨h4, h5⟩ := (adjust_start_up n step a hpos i h2).1 ⟨h1, h3⟩
          exact ⟨by omega, h2, h4, trivial, h5⟩
        · rintro ⟨h1, h2, h3, _, h4⟩
          obtain ⟨h5, h6⟩ := (adjust_start_up n step a hpos i h2).2 ⟨h3, h4⟩
          exact ⟨h5, h2, h6⟩
      | some b =>
        have hb := adjust_range_up n step b hpos
        simp only
        constructor
        · rintro ⟨h1, h2, h3⟩
          obtain ⟨h4, h5⟩ := (adjust_start_up n step a hpos i (by omega)).1 ⟨h1, h3⟩
          exact ⟨by omega, by omega, h4, (adjust_stop_up n step b hpos i (by omega) (by omega)).1 h2, h5⟩
        · rintro ⟨h1, h2, h3, h4, h5⟩
          obtain ⟨h6, h7⟩ := (adjust_start_up n step a hpos i h2).2 ⟨h3, h5⟩
          exact ⟨h6, (adjust_stop_up n step b hpos i h1 h2).2 h4, h7⟩
  · have hneg : step < 0 := by omega
    rw [if_neg hpos]
    obtain ⟨hp, hm⟩ := progression_down
      (sliceStart s n step) (sliceStop s n step) step hneg
    refine ⟨hp, fun i => (hm i).trans ?_⟩
    unfold sliceHigh AboveStop sliceStart sliceStop
    cases hA : s.start with
    | none =>
      cases hB : s.stop with
      | none =>
        simp only [if_pos hneg]
        exact ⟨fun ⟨h1, h2, h3⟩ => ⟨by omega, by omega, h1, trivial, h3⟩,
          fun ⟨h1, _, h2, _, h3⟩ => ⟨h2, by omega, h3⟩⟩
      | some b =>
        have hb := adjust_range_down n step b hneg
        simp only [if_pos hneg]
        constructor
        · rintro ⟨h1, h2, h3⟩
          exact ⟨by omega, by omega, h1, (adjust_stop_down n step b hneg i (by omega) (by omega)).1 h2, h3⟩
        · rintro ⟨h1, h2, h3, h4, h5⟩
          exact ⟨h3, (adjust_stop_down n step b hneg i h1 h2).2 h4, h5⟩
    | some a =>
      have ha := adjust_range_down n step a hneg
      cases hB : s.stop with
      | none =>
        simp only [if_pos hneg]
        constructor
        · rintro ⟨h1, h2, h3⟩
          obtain ⟨h4, h5⟩ := (adjust_start_down n step a hneg i (by omega)).1 ⟨h1, h3⟩
          exact ⟨by omega, by omega, h4, trivial, h5⟩
        · rintro ⟨h1, h2, h3, _, h4⟩
          obtain ⟨h5, h6⟩ := (adjust_start_down n step a hneg i h1).2 ⟨h3, h4⟩
          exact ⟨h5, by omega, h6⟩
      | some b =>
        have hb := adjust_range_down n step b hneg
        simp only
        constructor
        · rintro ⟨h1, h2, h3⟩
          obtain ⟨h4, h5⟩ := (adjust_start_down n step a hneg i (by omega)).1 ⟨h1, h3⟩
          exact ⟨by omega, by omega, h4,
            (adjust_stop_down n step b hneg i (by omega) (by omega)).1 h2, h5⟩
        · rintro ⟨h1, h2, h3, h4, h5⟩
          obtain ⟨h6, h7⟩ := (adjust_start_down n step a hneg i h1).2 ⟨h3, h5⟩
          exact ⟨h6, (adjust_stop_down n step b hneg i h1 h2).2 h4, h7⟩

theorem Selects.range {s : PySliceObj} {n : ℕ} {idx : List ℤ} (h : Selects s n idx) :
    ∀ i ∈ idx, 0 ≤ i ∧ i < (n : ℤ) := by
  intro i hi
  unfold Selects at h
  simp only at h
  split at h
  · exact ⟨((h.2 i).1 hi).1, ((h.2 i).1 hi).2.1⟩
  · exact ⟨((h.2 i).1 hi).1, ((h.2 i).1 hi).2.1⟩

theorem mkColl_cons (f : StructV) (fs : List StructV) (etot ep ek : List ℚ) (v : List (List ℚ)) :
    mkColl (f :: fs) etot ep ek v = .ok ⟨f :: fs, etot, ep, ek, v,
      counterKeys (f.sites.map SiteObj.number),
      (counterKeys (f.sites.map SiteObj.number)).map
        (fun z => (z, (f.sites.filter (fun t => t.number = z)).length)), f.sites.length⟩ := rfl

theorem mkColl_nil (etot ep ek : List ℚ) (v : List (List ℚ)) :
    mkColl [] etot ep ek v = .error .indexError := rfl

theorem mkColl_ok {fs : List StructV} {etot ep ek : List ℚ} {v : List (List ℚ)} {c : CollObj}
    (h : mkColl fs etot ep ek v = .ok c) : ∃ f, fs[0]? = some f ∧
      c = ⟨fs, etot, ep, ek, v, counterKeys (f.sites.map SiteObj.number),
        (counterKeys (f.sites.map SiteObj.number)).map
          (fun z => (z, (f.sites.filter (fun t => t.number = z)).length)), f.sites.length⟩ := by
  cases fs with
  | nil => cases h
  | cons f fs => exact ⟨f, rfl, (Except.ok.inj h).symm⟩

/-- Slicing is selecting the sliced indices. -/
theorem getSlice_eq (c : CollObj) (ha : c.Aligned) (s : PySliceObj) (idx : List ℤ)
    (hi : sliceIndices s c.frames.length = .ok idx) (hr : ∀ i ∈ idx, 0 ≤ i ∧ i < (c.frames.length : ℤ)) :
    ∃ fr e1 e2 e3 v, idx.mapM (pyGetI c.frames) = .ok fr ∧ idx.mapM (pyGetI c.etot) = .ok e1 ∧
      idx.mapM (pyGetI c.ep) = .ok e2 ∧ idx.mapM (pyGetI c.ek) = .ok e3 ∧
      idx.mapM (pyGetI c.virial) = .ok v ∧ c.getSlice s = mkColl fr e1 e2 e3 v ∧
      (∀ (k : ℕ) (i : ℤ), idx[k]? = some i → fr[k]? = c.frames[i.toNat]? ∧ e1[k]? = c.etot[i.toNat]? ∧
        e2[k]? = c.ep[i.toNat]? ∧ e3[k]? = c.ek[i.toNat]? ∧ v[k]? = c.virial[i.toNat]?) ∧
      fr.length = idx.length ∧ e1.length = idx.length ∧ e2.length = idx.length ∧
      e3.length = idx.length ∧ v.length = idx.length := by
  obtain ⟨h1, h2, h3, h4⟩ := ha
  obtain ⟨fr, hf, hfl, hfg⟩ := select_ok c.frames idx hr
  obtain ⟨e1, he1, l1, hg1⟩ := select_ok c.etot idx (by rw [h1]; exact hr)
  obtain ⟨e2, he2, l2, hg2⟩ := select_ok c.ep idx (by rw [h2]; exact hr)
  obtain ⟨e3, he3, l3, hg3⟩ := select_ok c.ek idx (by rw [h3]; exact hr)
  obtain ⟨e4, he4, l4, hg4⟩ := select_ok c.virial idx (by rw [h4]; exact hr)
  refine ⟨fr, e1, e2, e3, e4, hf, he1, he2, he3, he4, ?_,
    fun k i hk => ⟨hfg k i hk, hg1 k i hk, hg2 k i hk, hg3 k i hk, hg4 k i hk⟩, hfl, l1, l2, l3, l4⟩
  unfold CollObj.getSlice sliceGet
  rw [h1, h2, h3, h4, hi]
  simp only [ok_bind, hf, he1, he2, he3, he4]

theorem pyGetI_err {α : Type} (l : List α) (i : ℤ) : (∃ x, pyGetI l i = .ok x ∧ x ∈ l) ∨
    pyGetI l i = .error .indexError := by
  unfold pyGetI pyGet
  simp only
  generalize (if i < 0 then i + (l.length : ℤ) else i) = j
  split
  · exact .inr rfl
  · split
    · rename_i a h
      exact .inl ⟨a, rfl, List.mem_of_getElem? h⟩
    · exact .inr rfl

theorem mkCollOfStruct_err (s : StructV) :
    mkCollOfStruct s = .error (if s.sites = [] then .indexError else .attributeError) := by
  unfold mkCollOfStruct
  cases h : s.sites with
  | nil => rfl
  | cons t ts =>
    rw [if_neg (by simp)]
    have h1 : siteGetAttr (chars% "species") = .ok () := by decide
    have h2 : siteGetAttr (chars% "sites") = .error .attributeError := by decide
    show (do siteGetAttr (chars% "species"); siteGetAttr (chars% "sites"); siteGetAttr (chars% "num_sites")) = _
    rw [h1, ok_bind, h2]
    rfl

end MaterSDK
