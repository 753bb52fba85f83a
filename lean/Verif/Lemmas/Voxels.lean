import Verif.Spec.Voxels
import Verif.Lemmas.CellList
import Mathlib.Data.List.Sort
import Mathlib.Tactic.Linarith
import Mathlib.Tactic.FieldSimp
import Mathlib.Tactic.Ring

/-! # Helper lemmas for the voxels -/

namespace MaterSDK

theorem Voxels.index_range (V : Voxels) (hy : 1 ≤ V.ny) (hz : 1 ≤ V.nz) (loc : Vec ℚ) :
    (0 ≤ (V.index loc).1 ∧ (V.index loc).1 < V.ny) ∧ 0 ≤ (V.index loc).2 ∧ (V.index loc).2 < V.nz := by
  simp only [Voxels.index]
  omega

theorem Voxels.make_ok {vsy vsz miny minz : ℚ} {box : Fin 3 → Vec ℚ} {periodic : Bool} {V : Voxels}
    (h : Voxels.make vsy vsz miny minz box periodic = .ok V) :
    periodic = true ∧ box 0 0 ≠ 0 ∧ box 1 1 ≠ 0 ∧ box 2 2 ≠ 0 ∧ vsy ≠ 0 ∧ vsz ≠ 0 ∧
      V.ny = ⌊box 1 1 / vsy + 1 / 2⌋ ∧ V.nz = ⌊box 2 2 / vsz + 1 / 2⌋ ∧ V.sizeY = box 2 2 / V.nz ∧
      V.sizeZ = vsz ∧ V.box = box ∧ V.periodic = true ∧ 0 ≤ V.ny ∧ 0 ≤ V.nz ∧
      V.bins = List.replicate V.ny.toNat (List.replicate V.nz.toNat []) := by
  unfold Voxels.make at h
  split at h
  · cases h
  rename_i h1
  push Not at h1
  split at h
  · cases h
  rename_i h2
  have h2' : periodic = true := by simpa using h2
  simp only at h
  split at h
  · cases h
  rename_i h3
  have := Except.ok.inj h
  subst this
  exact ⟨h2', h1.1, h1.2.1, h1.2.2.1, h1.2.2.2.1, h1.2.2.2.2, rfl, rfl, rfl, rfl, rfl, h2', (by omega : 0 ≤ ⌊box 1 1 / vsy + 1 / 2⌋),
    (by omega : 0 ≤ ⌊box 2 2 / vsz + 1 / 2⌋), rfl⟩

theorem Voxels.make_shape {vsy vsz miny minz : ℚ} {box : Fin 3 → Vec ℚ} {periodic : Bool} {V : Voxels}
    (h : Voxels.make vsy vsz miny minz box periodic = .ok V) : V.Shape ∧ ∀ i j, V.bin i j = [] := by
  obtain ⟨-, -, -, -, -, -, -, -, -, -, -, -, h1, h2, h3⟩ := Voxels.make_ok h
  refine ⟨⟨?_, ?_⟩, ?_⟩
  · rw [h3]; simp [h1]
  · intro row hr
    rw [h3] at hr
    rw [(List.mem_replicate.1 hr).2]
    simp [h2]
  · intro i j
    unfold Voxels.bin
    rw [h3, List.getElem?_replicate]
    split
    · simp only [Option.getD_some, List.getElem?_replicate]
      split <;> rfl
    · rfl

theorem Voxels.bin_get {V : Voxels} (hs : V.Shape) {i j : ℕ} (hi : (i : ℤ) < V.ny) (hj : (j : ℤ) < V.nz) :
    ∃ row, V.bins[i]? = some row ∧ row[j]? = some (V.bin i j) ∧ row ∈ V.bins ∧ j < row.length := by
  have hi' : i < V.bins.length := by have := hs.1; omega
  have hrow := hs.2 _ (List.getElem_mem hi')
  have hj' : j < (V.bins[i]).length := by omega
  refine ⟨V.bins[i], List.getElem?_eq_getElem hi', ?_, List.getElem_mem hi', hj'⟩
  unfold Voxels.bin
  rw [List.getElem?_eq_getElem hi', Option.getD_some, List.getElem?_eq_getElem hj', Option.getD_some]

theorem Voxels.insert_ok {V : Voxels} (hs : V.Shape) (hy : 1 ≤ V.ny) (hz : 1 ≤ V.nz) (p : ℤ × Vec ℚ) :
    ∃ bins, V.insert p = .ok { V with bins := bins } ∧ Voxels.Shape { V with bins := bins } ∧
      ∀ i j : ℕ, Voxels.bin { V with bins := bins } i j =
        V.bin i j ++ if V.index p.2 = ((i : ℤ), (j : ℤ)) then [(p.2 0, p.1)] else [] := by
  obtain ⟨⟨a0, a1⟩, b0, b1⟩ := V.index_range hy hz p.2
  obtain ⟨a, ha⟩ := Int.eq_ofNat_of_zero_le a0
  obtain ⟨b, hb⟩ := Int.eq_ofNat_of_zero_le b0
  obtain ⟨row, r1, r2, r3, r4⟩ := Voxels.bin_get hs (i := a) (j := b) (by omega) (by omega)
  have hal : a < V.bins.length := (List.getElem?_eq_some_iff.1 r1).1
  refine ⟨V.bins.set a (row.set b (V.bin a b ++ [(p.2 0, p.1)])), ?_, ⟨?_, ?_⟩, ?_⟩
  · unfold Voxels.insert
    simp only [ha, hb]
    rw [cGet_nat r1, ok_bind, cGet_nat r2, ok_bind, cSet_ok ⟨by omega, by exact_mod_cast r4⟩, ok_bind,
      cSet_ok ⟨by omega, by exact_mod_cast hal⟩, ok_bind]
    rfl
  · simpa using hs.1
  · intro row' hr
    simp only at hr
    rcases List.mem_or_eq_of_mem_set hr with h | h
    · exact hs.2 _ h
    · rw [h, List.length_set]; exact hs.2 _ r3
  · intro i j
    have e : V.index p.2 = ((a : ℤ), (b : ℤ)) := Prod.ext ha hb
    rw [e]
    unfold Voxels.bin
    simp only [List.getElem?_set]
    by_cases hai : a = i
    · subst hai
      simp only [hal, if_true, Option.getD_some, List.getElem?_set, r1]
      by_cases hbj : b = j
      · subst hbj
        simp only [r4, Option.getD_some, r2, if_pos]
      · simp [hbj]
    · simp [hai]

/-- Inserting a list of particles. -/
theorem Voxels.fill_ok {V : Voxels} (hs : V.Shape) (hy : 1 ≤ V.ny) (hz : 1 ≤ V.nz) (ps : List (ℤ × Vec ℚ)) :
    ∃ bins, ps.foldlM Voxels.insert V = .ok { V with bins := bins } ∧ Voxels.Shape { V with bins := bins } ∧
      ∀ i j : ℕ, Voxels.bin { V with bins := bins } i j =
        V.bin i j ++ (ps.filter (fun p => decide (V.index p.2 = ((i : ℤ), (j : ℤ))))).map
          (fun p => (p.2 0, p.1)) := by
  induction ps generalizing V with
  | nil => exact ⟨V.bins, rfl, hs, fun i j => by simp⟩
  | cons p ps ih =>
    obtain ⟨bins, h1, h2, h3⟩ := Voxels.insert_ok hs hy hz p
    obtain ⟨bins', g1, g2, g3⟩ := ih (V := { V with bins := bins }) h2 hy hz
    refine ⟨bins', ?_, g2, ?_⟩
    · rw [List.foldlM_cons, h1, ok_bind, g1]
    · intro i j
      rw [g3 i j, h3 i j, List.append_assoc]
      congr 1
      by_cases hc : V.index p.2 = ((i : ℤ), (j : ℤ))
      · rw [if_pos hc, List.filter_cons_of_pos (by simpa using hc)]
        rfl
      · rw [if_neg hc, List.filter_cons_of_neg (by simpa using hc)]
        rfl

/-! ### Sorting -/

theorem pairLe_total (a b : ℚ × ℤ) : pairLe a b ∨ pairLe b a := by
  simp only [pairLe, decide_eq_true_eq]
  rcases lt_trichotomy a.1 b.1 with h | h | h
  · exact Or.inl (Or.inl h)
  · rcases le_total a.2 b.2 with h' | h'
    · exact Or.inl (Or.inr ⟨h, h'⟩)
    · exact Or.inr (Or.inr ⟨h.symm, h'⟩)
  · exact Or.inr (Or.inl h)

theorem pairLe_trans (a b c : ℚ × ℤ) (h : pairLe a b) (h' : pairLe b c) : pairLe a c := by
  simp only [pairLe, decide_eq_true_eq] at *
  rcases h with h | ⟨h, g⟩ <;> rcases h' with h' | ⟨h', g'⟩
  · exact Or.inl (h.trans h')
  · exact Or.inl (h' ▸ h)
  · exact Or.inl (h ▸ h')
  · exact Or.inr ⟨h.trans h', g.trans g'⟩

theorem Voxels.sort_bin (V : Voxels) (i j : ℕ) :
    V.sortItems.bin i j = (V.bin i j).insertionSort (fun a b => pairLe a b) := by
  unfold Voxels.bin Voxels.sortItems
  simp only [List.getElem?_map]
  rcases V.bins[i]? with _ | row
  · simp
  · simp only [Option.map_some, Option.getD_some, List.getElem?_map]
    rcases row[j]? with _ | bin
    · simp
    · simp

theorem Voxels.sort_shape {V : Voxels} (hs : V.Shape) : V.sortItems.Shape := by
  refine ⟨by simpa [Voxels.sortItems] using hs.1, ?_⟩
  intro row hr
  simp only [Voxels.sortItems, List.mem_map] at hr
  obtain ⟨r, h1, rfl⟩ := hr
  simpa [Voxels.sortItems] using hs.2 _ h1

theorem sorted_pairs (l : List (ℚ × ℤ)) :
    (l.insertionSort (fun a b => pairLe a b)).Pairwise (fun a b => pairLe a b) := by
  have : Std.Total (fun a b : ℚ × ℤ => (pairLe a b : Prop)) := ⟨pairLe_total⟩
  have : IsTrans (ℚ × ℤ) (fun a b => (pairLe a b : Prop)) := ⟨pairLe_trans⟩
  exact List.pairwise_insertionSort _ l

/-! ### Binary search -/

theorem lowerLoop_spec (bin : List (ℚ × ℤ)) (x : ℚ) (hb : bin.Pairwise (fun a b => a.1 ≤ b.1)) :
    ∀ (n : ℕ) (lower upper : ℤ), 0 ≤ lower → lower ≤ upper → upper ≤ bin.length → (upper - lower).toNat ≤ n →
      ∃ k : ℕ, lowerLoop bin x n lower upper = .ok (k : ℤ) ∧ lower ≤ k ∧ (k : ℤ) ≤ upper ∧
        ∀ (e : ℕ) (p : ℚ × ℤ), lower ≤ e → (e : ℤ) < upper → bin[e]? = some p → (p.1 < x ↔ e < k) := by
  intro n
  induction n with
  | zero =>
    intro lower upper h0 h1 h2 h3
    obtain ⟨k, rfl⟩ := Int.eq_ofNat_of_zero_le h0
    exact ⟨k, by simp only [lowerLoop]; rw [if_neg (by omega)], by omega, by omega, by omega⟩
  | succ n ih =>
    intro lower upper h0 h1 h2 h3
    by_cases hlt : lower < upper
    · have hm : (lower + upper).tdiv 2 = (lower + upper) / 2 := Int.tdiv_eq_ediv_of_nonneg (by omega)
      obtain ⟨m, hmm⟩ := Int.eq_ofNat_of_zero_le (show 0 ≤ (lower + upper) / 2 by omega)
      have hml : m < bin.length := by omega
      have hg : cGet bin (m : ℤ) = .ok bin[m] := cGet_nat (List.getElem?_eq_getElem hml)
      have hmono : ∀ (e f : ℕ) (p q : ℚ × ℤ), e ≤ f → bin[e]? = some p → bin[f]? = some q → p.1 ≤ q.1 := by
        intro e f p q hef he hf
        obtain ⟨a1, a2⟩ := List.getElem?_eq_some_iff.1 he
        obtain ⟨b1, b2⟩ := List.getElem?_eq_some_iff.1 hf
        rcases Nat.lt_or_ge e f with h | h
        · rw [← a2, ← b2]
          exact List.pairwise_iff_getElem.1 hb e f a1 b1 h
        · have : e = f := by omega
          subst this
          rw [← a2, ← b2]
      simp only [lowerLoop]
      rw [if_pos hlt, hm, hmm, hg, ok_bind]
      by_cases hx : bin[m].1 < x
      · rw [if_pos hx]
        obtain ⟨k, k1, k2, k3, k4⟩ := ih (m + 1) upper (by omega) (by omega) h2 (by omega)
        refine ⟨k, k1, by omega, k3, ?_⟩
        intro e p e1 e2 he
        by_cases hem : e ≤ m
        · have := hmono e m p _ hem he (List.getElem?_eq_getElem hml)
          exact ⟨fun _ => by omega, fun _ => this.trans_lt hx⟩
        · exact k4 e p (by omega) e2 he
      · rw [if_neg hx]
        obtain ⟨k, k1, k2, k3, k4⟩ := ih lower m h0 (by omega) (by omega) (by omega)
        refine ⟨k, k1, k2, by omega, ?_⟩
        intro e p e1 e2 he
        by_cases hem : m ≤ e
        · have := hmono m e _ p hem (List.getElem?_eq_getElem hml) he
          exact ⟨fun h => absurd (this.trans_lt h) hx, fun h => by omega⟩
        · exact k4 e p e1 (by omega) he
    · simp only [lowerLoop]
      rw [if_neg hlt]
      obtain ⟨k, rfl⟩ := Int.eq_ofNat_of_zero_le h0
      exact ⟨k, rfl, by omega, by omega, by omega⟩

theorem upperLoop_spec (bin : List (ℚ × ℤ)) (x : ℚ) (hb : bin.Pairwise (fun a b => a.1 ≤ b.1)) :
    ∀ (n : ℕ) (lower upper : ℤ), 0 ≤ lower → lower ≤ upper → upper ≤ bin.length → (upper - lower).toNat ≤ n →
      ∃ k : ℕ, upperLoop bin x n lower upper = .ok (k : ℤ) ∧ lower ≤ k ∧ (k : ℤ) ≤ upper ∧
        ∀ (e : ℕ) (p : ℚ × ℤ), lower ≤ e → (e : ℤ) < upper → bin[e]? = some p → (p.1 ≤ x ↔ e < k) := by
  intro n
  induction n with
  | zero =>
    intro lower upper h0 h1 h2 h3
    obtain ⟨k, rfl⟩ := Int.eq_ofNat_of_zero_le h0
    refine ⟨k, ?_, by omega, by omega, by omega⟩
    simp only [upperLoop]
    rw [if_neg (by omega)]
    congr 1
    omega
  | succ n ih =>
    intro lower upper h0 h1 h2 h3
    by_cases hlt : lower < upper
    · have hm : (lower + upper).tdiv 2 = (lower + upper) / 2 := Int.tdiv_eq_ediv_of_nonneg (by omega)
      obtain ⟨m, hmm⟩ := Int.eq_ofNat_of_zero_le (show 0 ≤ (lower + upper) / 2 by omega)
      have hml : m < bin.length := by omega
      have hg : cGet bin (m : ℤ) = .ok bin[m] := cGet_nat (List.getElem?_eq_getElem hml)
      have hmono : ∀ (e f : ℕ) (p q : ℚ × ℤ), e ≤ f → bin[e]? = some p → bin[f]? = some q → p.1 ≤ q.1 := by
        intro e f p q hef he hf
        obtain ⟨a1, a2⟩ := List.getElem?_eq_some_iff.1 he
        obtain ⟨b1, b2⟩ := List.getElem?_eq_some_iff.1 hf
        rcases Nat.lt_or_ge e f with h | h
        · rw [← a2, ← b2]
          exact List.pairwise_iff_getElem.1 hb e f a1 b1 h
        · have : e = f := by omega
          subst this
          rw [← a2, ← b2]
      simp only [upperLoop]
      rw [if_pos hlt, hm, hmm, hg, ok_bind]
      by_cases hx : bin[m].1 > x
      · rw [if_pos hx]
        obtain ⟨k, k1, k2, k3, k4⟩ := ih lower m h0 (by omega) (by omega) (by omega)
        refine ⟨k, k1, k2, by omega, ?_⟩
        intro e p e1 e2 he
        by_cases hem : m ≤ e
        · have := hmono m e _ p hem (List.getElem?_eq_getElem hml) he
          exact ⟨fun h => absurd (this.trans h) (not_le.2 hx), fun h => by omega⟩
        · exact k4 e p e1 (by omega) he
      · rw [if_neg hx]
        obtain ⟨k, k1, k2, k3, k4⟩ := ih (m + 1) upper (by omega) (by omega) h2 (by omega)
        refine ⟨k, k1, by omega, k3, ?_⟩
        intro e p e1 e2 he
        by_cases hem : e ≤ m
        · have := hmono e m p _ hem he (List.getElem?_eq_getElem hml)
          exact ⟨fun _ => by omega, fun _ => this.trans (not_lt.1 hx)⟩
        · exact k4 e p (by omega) e2 he
    · simp only [upperLoop]
      rw [if_neg hlt]
      obtain ⟨k, rfl⟩ := Int.eq_ofNat_of_zero_le (show 0 ≤ upper by omega)
      exact ⟨k, rfl, by omega, by omega, by omega⟩

theorem sorted_first (l : List (ℚ × ℤ)) :
    (l.insertionSort (fun a b => pairLe a b)).Pairwise (fun a b => a.1 ≤ b.1) := by
  refine (sorted_pairs l).imp ?_
  intro a b h
  simp only [pairLe, decide_eq_true_eq] at h
  rcases h with h | h
  · exact h.le
  · exact h.1.le

/-! ### Wrapping -/

theorem wrap_one {L y : ℚ} (hL : 0 < L) : 0 ≤ y - L * ⌊y * (1 / L)⌋ ∧ y - L * ⌊y * (1 / L)⌋ < L := by
  have h1 := Int.floor_le (y * (1 / L))
  have h2 := Int.lt_floor_add_one (y * (1 / L))
  have e : L * (y * (1 / L)) = y := by field_simp
  constructor
  · nlinarith
  · nlinarith

theorem Voxels.wrapped_image (V : Voxels) (hp : V.periodic = true) (h1 : V.box 1 1 ≠ 0) (h2 : V.box 2 2 ≠ 0)
    (h01 : V.box 0 1 = 0) (h02 : V.box 0 2 = 0) (h12 : V.box 1 2 = 0) (loc : Vec ℚ) (t : Fin 3 → ℤ) :
    V.wrapped (fun p => loc p + t 0 * V.box 0 p + t 1 * V.box 1 p + t 2 * V.box 2 p) = V.wrapped loc := by
  unfold Voxels.wrapped
  rw [if_neg (by simp [hp]), if_neg (by simp [hp])]
  simp only [h01, h02, h12, mul_zero, add_zero]
  have e1 : (loc 2 + t 2 * V.box 2 2) * (1 / V.box 2 2) = loc 2 * (1 / V.box 2 2) + (t 2 : ℤ) := by
    field_simp
  rw [e1, Int.floor_add_intCast]
  have e2 : ∀ s : ℚ, (loc 1 + t 1 * V.box 1 1 + t 2 * V.box 2 1 - V.box 2 1 * (s + t 2)) =
      (loc 1 - V.box 2 1 * s) + t 1 * V.box 1 1 := by intro s; ring
  push_cast
  rw [e2]
  have e3 : ((loc 1 - V.box 2 1 * ⌊loc 2 * (1 / V.box 2 2)⌋) + t 1 * V.box 1 1) * (1 / V.box 1 1) =
      (loc 1 - V.box 2 1 * ⌊loc 2 * (1 / V.box 2 2)⌋) * (1 / V.box 1 1) + (t 1 : ℤ) := by
    field_simp
  rw [e3, Int.floor_add_intCast]
  push_cast
  refine Prod.ext ?_ ?_ <;> simp only <;> ring

theorem floor_div_cell {L n y : ℚ} {i : ℤ} (hL : 0 < L) (hn : 0 < n) (hi : ⌊y / (L / n)⌋ = i) :
    i * (L / n) ≤ y ∧ y < (i + 1) * (L / n) := by
  have hc : 0 < L / n := div_pos hL hn
  rw [Int.floor_eq_iff] at hi
  exact ⟨(le_div_iff₀ hc).1 hi.1, (div_lt_iff₀ hc).1 hi.2⟩

theorem clamp_floor {L y : ℚ} {n : ℤ} (hL : 0 < L) (hn : 1 ≤ n) (h0 : 0 ≤ y) (h1 : y < L) :
    max 0 (min (n - 1) ⌊y / (L / n)⌋) = ⌊y / (L / n)⌋ := by
  have hn' : (0 : ℚ) < n := by exact_mod_cast (by omega : 0 < n)
  have hc : 0 < L / n := div_pos hL hn'
  have a : 0 ≤ ⌊y / (L / n)⌋ := Int.floor_nonneg.2 (div_nonneg h0 hc.le)
  have b : ⌊y / (L / n)⌋ < n := by
    rw [Int.floor_lt, div_lt_iff₀ hc]
    rw [mul_div_cancel₀ _ hn'.ne']
    exact h1
  omega

end MaterSDK
