import Verif.Lemmas.Averages
import Verif.Lemmas.Supercell
import Verif.Lemmas.Except

/-! # Lemmas on mean-square displacements and adjacency matrices -/

namespace MaterSDK

open Classical Matrix

/-! ## Mean-square displacement -/

theorem poolMap_large {α β : Type} {cpus : ℕ} (h : 3 ≤ cpus) (f : α → Except PyErr β)
    (tasks : List α) : poolMap cpus f tasks = tasks.mapM f := by
  rw [poolMap, if_neg (by omega)]

theorem poolMap_small {α β : Type} {cpus : ℕ} (h : cpus ≤ 2) (f : α → Except PyErr β)
    (tasks : List α) : poolMap cpus f tasks = .error .valueError := by
  rw [poolMap, if_pos (by omega)]

theorem poolMap_ok {α β : Type} {cpus : ℕ} {f : α → Except PyErr β}
    {tasks : List α} {vals : List β} (h : poolMap cpus f tasks = .ok vals) :
    List.Forall₂ (fun t v => f t = .ok v) tasks vals := by
  unfold poolMap at h
  split at h
  · cases h
  · exact mapM_eq_ok.1 h

theorem consecutiveFrames_get {α : Type} (frames : List α) (k : ℕ) (p : α × α) :
    (consecutiveFrames frames)[k]? = some p ↔ frames[k]? = some p.1 ∧ frames[k + 1]? = some p.2 := by
  unfold consecutiveFrames
  rw [List.getElem?_zip_eq_some, List.getElem?_tail]

theorem consecutiveFrames_length {α : Type} (frames : List α) :
    (consecutiveFrames frames).length = frames.length - 1 := by
  unfold consecutiveFrames
  rw [List.length_zip, List.length_tail]
  omega

theorem forall₂_getElem? {α β : Type} {R : α → β → Prop} {as : List α} {bs : List β}
    (h : List.Forall₂ R as bs) (k : ℕ) (b : β) (hb : bs[k]? = some b) :
    ∃ a, as[k]? = some a ∧ R a b := by
  induction h generalizing k with
  | nil => simp at hb
  | cons h _ ih =>
    cases k with
    | zero =>
      rw [List.getElem?_cons_zero] at hb
      obtain rfl := Option.some.inj hb
      exact ⟨_, List.getElem?_cons_zero, h⟩
    | succ k =>
      rw [List.getElem?_cons_succ] at hb
      obtain ⟨a, ha, hR⟩ := ih k hb
      exact ⟨a, by rw [List.getElem?_cons_succ]; exact ha, hR⟩

theorem forall₂_getElem?' {α β : Type} {R : α → β → Prop} {as : List α} {bs : List β}
    (h : List.Forall₂ R as bs) (k : ℕ) (a : α) (ha : as[k]? = some a) :
    ∃ b, bs[k]? = some b ∧ R a b := forall₂_getElem? h.flip k a ha

theorem sqNorm_nonneg (v : Vec ℝ) : 0 ≤ v 0 ^ 2 + v 1 ^ 2 + v 2 ^ 2 := by positivity

theorem meanSquare_nonneg {rel : List (Vec ℝ)} {x : ℝ} (h : meanSquare rel = some x) : 0 ≤ x := by
  unfold meanSquare at h
  split at h
  · cases h
  · obtain rfl := Option.some.inj h
    refine div_nonneg (List.sum_nonneg ?_) (by positivity)
    intro y hy
    obtain ⟨v, _, rfl⟩ := List.mem_map.1 hy
    exact sqNorm_nonneg v

theorem dist3_sq (p q : Vec ℝ) :
    dist3 p q ^ 2 = (p - q) 0 ^ 2 + (p - q) 1 ^ 2 + (p - q) 2 ^ 2 := by
  rw [← norm3_eq_dist3, norm3_sq]

theorem npSubRows_same {a b : List (Vec ℝ)} (h : a.length = b.length) :
    npSubRows a b = .ok (List.zipWith (· - ·) a b) := by
  unfold npSubRows
  rw [if_pos h]

theorem npSubRows_error {a b : List (Vec ℝ)} (h : a.length ≠ b.length) (ha : a.length ≠ 1)
    (hb : b.length ≠ 1) : npSubRows a b = .error .valueError := by
  unfold npSubRows
  rw [if_neg h]
  match a, b, ha, hb with
  | [], [], _, _ => exact absurd rfl h
  | [], _ :: [], _, hb => exact absurd rfl hb
  | [], _ :: _ :: _, _, _ => rfl
  | _ :: [], _, ha, _ => exact absurd rfl ha
  | _ :: _ :: _, [], _, _ => rfl
  | _ :: _ :: _, _ :: [], _, hb => exact absurd rfl hb
  | _ :: _ :: _, _ :: _ :: _, _, _ => rfl

/-- Mean of the squared distances of corresponding atoms. -/
theorem meanSquare_zip {a b : List (Vec ℝ)} (h : a.length = b.length) (hne : b ≠ []) :
    meanSquare (List.zipWith (· - ·) b a)
      = some ((List.zipWith (fun p q => dist3 q p ^ 2) a b).sum / b.length) := by
  have hlen : (List.zipWith (· - ·) b a : List (Vec ℝ)).length = b.length := by
    rw [List.length_zipWith, h, Nat.min_self]
  rw [meanSquare, if_neg, hlen, List.map_zipWith]
  · congr 3
    rw [List.zipWith_comm]
    congr 1
    funext p q
    exact (dist3_sq q p).symm
  · intro h0
    rw [h0] at hlen
    exact hne (List.length_eq_zero_iff.1 hlen.symm)

theorem calcMsdS_same {s1 s2 : Struct ℝ} (h : s1.sites.length = s2.sites.length)
    (hne : s2.sites ≠ []) :
    calcMsdS s1 s2 = .ok (some ((List.zipWith (fun t u : Site ℝ => dist3 u.pos t.pos ^ 2)
      s1.sites s2.sites).sum / s2.sites.length)) := by
  have hne1 : s1.sites ≠ [] := by
    intro h0
    rw [h0] at h
    exact hne (List.length_eq_zero_iff.1 h.symm)
  rw [calcMsdS, if_neg (by simp [hne, hne1]), npSubRows_same (by simp [h]), ok_bind,
    meanSquare_zip (by simp [h]) (by simpa using hne)]
  simp only [List.length_map, List.zipWith_map]
  rfl

theorem subCentroid_ok {s : Struct ℝ} (h : s.sites ≠ []) :
    subCentroid s = .ok (s.sites.map (fun t => t.pos - s.getCentroid)) := by
  rw [subCentroid, if_neg h]

theorem calcMsdSubCentroidS_same {s1 s2 : Struct ℝ} (h : s1.sites.length = s2.sites.length)
    (hne : s2.sites ≠ []) :
    calcMsdSubCentroidS s1 s2 = .ok (some ((List.zipWith (fun t u : Site ℝ =>
      dist3 (u.pos - s2.getCentroid) (t.pos - s1.getCentroid) ^ 2)
      s1.sites s2.sites).sum / s2.sites.length)) := by
  have hne1 : s1.sites ≠ [] := by
    intro h0
    rw [h0] at h
    exact hne (List.length_eq_zero_iff.1 h.symm)
  rw [calcMsdSubCentroidS, subCentroid_ok hne, ok_bind, subCentroid_ok hne1, ok_bind,
    npSubRows_same (by simp [h]), ok_bind, meanSquare_zip (by simp [h]) (by simpa using hne)]
  simp only [List.length_map, List.zipWith_map]
  rfl

theorem getCentroid_moved (s : Struct ℝ) (v : Vec ℝ) (h : s.sites ≠ []) :
    (s.moved v).getCentroid = s.getCentroid + v := by
  funext j
  have hn : (s.sites.length : ℝ) ≠ 0 := by
    rw [Nat.cast_ne_zero]
    exact fun h0 => h (List.length_eq_zero_iff.1 h0)
  simp only [Struct.getCentroid, Struct.moved, List.map_map, List.length_map, Pi.add_apply,
    Function.comp_def]
  have : ∀ l : List (Site ℝ), (l.map (fun t => t.pos j + v j)).sum
      = (l.map (fun t => t.pos j)).sum + l.length * v j := by
    intro l
    induction l with
    | nil => simp
    | cons t l ih => simp only [List.map_cons, List.sum_cons, ih, List.length_cons]; push_cast; ring
  rw [this]
  field_simp

theorem subCentroid_moved (s : Struct ℝ) (v : Vec ℝ) : subCentroid (s.moved v) = subCentroid s := by
  by_cases h : s.sites = []
  · simp [subCentroid, Struct.moved, h]
  · rw [subCentroid_ok h, subCentroid_ok (by simpa [Struct.moved] using h), getCentroid_moved s v h]
    simp only [Struct.moved, List.map_map, Function.comp_def]
    congr 2
    funext t
    abel

theorem consecutiveFrames_forall₂ {α β : Type} {R : α → β → Prop} {l : List α} {l' : List β}
    (h : List.Forall₂ R l l') :
    List.Forall₂ (fun p p' => R p.1 p'.1 ∧ R p.2 p'.2) (consecutiveFrames l)
      (consecutiveFrames l') := by
  induction h with
  | nil => exact List.Forall₂.nil
  | cons h h' ih =>
    cases h' with
    | nil => exact List.Forall₂.nil
    | cons h1 h2 => exact List.Forall₂.cons ⟨h, h1⟩ ih

theorem mapM_forall₂_congr {α α' β : Type} {R : α → α' → Prop} (f : α → Except PyErr β)
    (g : α' → Except PyErr β) (hfg : ∀ a a', R a a' → g a' = f a) {l : List α} {l' : List α'}
    (h : List.Forall₂ R l l') : l'.mapM g = l.mapM f := by
  induction h with
  | nil => rfl
  | cons h _ ih => rw [List.mapM_cons, List.mapM_cons, hfg _ _ h, ih]

/-! ## Adjacency -/

theorem halfShift_odd (m : ℕ) : halfShift (2 * (m : ℤ) + 1) = m := by
  unfold halfShift
  omega

/-- A shift with integer coefficients as a vector. -/
def realShift (t : Fin 3 → ℤ) : Vec ℝ := fun i => (t i : ℝ)

theorem fracShifts_box (sc : Fin 3 → ℤ) :
    fracShifts sc = (boxZ (fun i => halfShift (sc i))).map realShift := by
  unfold fracShifts boxZ symRange
  simp only [List.map_flatMap, List.flatMap_map, List.map_map, Function.comp_def]
  congr 1
  funext a
  congr 1
  funext b
  congr 1
  funext c
  funext i
  fin_cases i <;> simp [realShift]

theorem fracShifts_length (sc : Fin 3 → ℤ) : (fracShifts sc).length
    = (2 * halfShift (sc 0) + 1) * (2 * halfShift (sc 1) + 1) * (2 * halfShift (sc 2) + 1) := by
  rw [fracShifts_box, List.length_map, boxZ_length]

theorem broadcastShifts_odd (sc : Fin 3 → ℤ) (m : Fin 3 → ℕ) (h : ∀ i, sc i = 2 * (m i : ℤ) + 1) :
    broadcastShifts sc = .ok ((boxZ m).map realShift) := by
  have hm : (fun i => halfShift (sc i)) = m := by
    funext i
    rw [h i, halfShift_odd]
  unfold broadcastShifts
  rw [if_pos, fracShifts_box, hm]
  rw [fracShifts_length]
  have e : ∀ i, halfShift (sc i) = m i := fun i => congrFun hm i
  rw [e, e, e, h, h, h]
  have : (2 * (m 0 : ℤ) + 1) * (2 * (m 1 : ℤ) + 1) * (2 * (m 2 : ℤ) + 1)
      = (((2 * m 0 + 1) * (2 * m 1 + 1) * (2 * m 2 + 1) : ℕ) : ℤ) := by push_cast; ring
  rw [this, Int.toNat_natCast]

theorem vecMul_realShift (L : Matrix (Fin 3) (Fin 3) ℝ) (n : Fin 3 → ℤ) :
    realShift n ᵥ* L = latticePoint L n := by
  funext j
  simp [vecMul, dotProduct, latticePoint, realShift, Finset.sum_apply]

theorem shifted_diff (L : Matrix (Fin 3) (Fin 3) ℝ) (hL : L.det ≠ 0) (p q : Vec ℝ) (n : Fin 3 → ℤ) :
    Lᵀ *ᵥ ((q ᵥ* L⁻¹ - realShift n) - p ᵥ* L⁻¹) = (q - latticePoint L n) - p := by
  have hu : IsUnit L.det := isUnit_iff_ne_zero.2 hL
  rw [mulVec_transpose, sub_vecMul, sub_vecMul, vecMul_vecMul, vecMul_vecMul,
    nonsing_inv_mul _ hu, vecMul_one, vecMul_one, vecMul_realShift]

theorem countWithin_box (L : Matrix (Fin 3) (Fin 3) ℝ) (hL : L.det ≠ 0) (m : Fin 3 → ℕ) (rcut : ℝ)
    (p q : Vec ℝ) : countWithin L ((boxZ m).map realShift) rcut p q
      = (boxZ m).countP (fun n => dist3 (q - latticePoint L n) p ≤ rcut) := by
  unfold countWithin
  rw [List.countP_map]
  congr 1
  funext n
  simp only [Function.comp_apply]
  rw [shifted_diff L hL, norm3_eq_dist3]

theorem latticePoint_neg (L : Matrix (Fin 3) (Fin 3) ℝ) (n : Fin 3 → ℤ) :
    latticePoint L (-n) = - latticePoint L n := by
  simp [latticePoint]

theorem latticePoint_zero (L : Matrix (Fin 3) (Fin 3) ℝ) : latticePoint L 0 = 0 := by
  simp [latticePoint]

theorem latticePoint_one (n : Fin 3 → ℤ) : latticePoint 1 n = fun i => (n i : ℝ) := by
  funext j
  simp [latticePoint, Finset.sum_apply, Matrix.one_apply]

theorem latticePoint_sub (L : Matrix (Fin 3) (Fin 3) ℝ) (n n' : Fin 3 → ℤ) :
    latticePoint L (n - n') = latticePoint L n - latticePoint L n' := by
  simp [latticePoint, sub_smul, Finset.sum_sub_distrib]

theorem mem_boxShifts (m : Fin 3 → ℕ) (n : Fin 3 → ℤ) : n ∈ boxShifts m ↔ ∀ i, |n i| ≤ m i := by
  simp only [boxShifts, Fintype.mem_piFinset, Finset.mem_Icc, abs_le]

theorem boxZ_countP (m : Fin 3 → ℕ) (P : (Fin 3 → ℤ) → Prop) [DecidablePred P] :
    (boxZ m).countP (fun n => decide (P n)) = ((boxShifts m).filter P).card := by
  rw [List.countP_eq_length_filter]
  have hnd : ((boxZ m).filter (fun n => decide (P n))).Nodup := (boxZ_nodup m).filter _
  rw [← List.toFinset_card_of_nodup hnd]
  congr 1
  ext n
  rw [List.mem_toFinset, List.mem_filter, Finset.mem_filter, mem_boxZ, mem_boxShifts,
    decide_eq_true_eq]

theorem dist3_comm (p q : Vec ℝ) : dist3 p q = dist3 q p := by
  unfold dist3
  congr 1
  refine Finset.sum_congr rfl (fun i _ => ?_)
  ring

theorem dist3_shift (p q v : Vec ℝ) : dist3 (p + v) (q + v) = dist3 p q := by
  simp [dist3]

theorem card_images_flip (L : Matrix (Fin 3) (Fin 3) ℝ) (m : Fin 3 → ℕ) (rcut : ℝ) (p q : Vec ℝ) :
    ((boxShifts m).filter (fun n => dist3 (q - latticePoint L n) p ≤ rcut)).card
      = ((boxShifts m).filter (fun n => dist3 (q + latticePoint L n) p ≤ rcut)).card := by
  refine Finset.card_bij (fun n _ => -n) ?_ ?_ ?_
  · intro n hn
    rw [Finset.mem_filter, mem_boxShifts] at hn ⊢
    refine ⟨fun i => by rw [Pi.neg_apply, abs_neg]; exact hn.1 i, ?_⟩
    rw [latticePoint_neg, ← sub_eq_add_neg]
    exact hn.2
  · intro a _ b _ hab
    exact neg_injective hab
  · intro n hn
    rw [Finset.mem_filter, mem_boxShifts] at hn
    refine ⟨-n, ?_, neg_neg n⟩
    rw [Finset.mem_filter, mem_boxShifts]
    refine ⟨fun i => by rw [Pi.neg_apply, abs_neg]; exact hn.1 i, ?_⟩
    rw [latticePoint_neg, sub_neg_eq_add]
    exact hn.2

theorem card_images_comm (L : Matrix (Fin 3) (Fin 3) ℝ) (m : Fin 3 → ℕ) (rcut : ℝ) (p q : Vec ℝ) :
    ((boxShifts m).filter (fun n => dist3 (q - latticePoint L n) p ≤ rcut)).card
      = ((boxShifts m).filter (fun n => dist3 (p + latticePoint L n) q ≤ rcut)).card := by
  congr 1
  refine Finset.filter_congr (fun n _ => ?_)
  rw [← dist3_shift (q - latticePoint L n) p (latticePoint L n), sub_add_cancel, dist3_comm]

theorem countWithin_images (L : Matrix (Fin 3) (Fin 3) ℝ) (hL : L.det ≠ 0) (m : Fin 3 → ℕ) (rcut : ℝ)
    (p q : Vec ℝ) : countWithin L ((boxZ m).map realShift) rcut p q = imageCount L m rcut p q := by
  rw [countWithin_box L hL, boxZ_countP, card_images_flip]
  rfl

theorem imageCount_comm (L : Matrix (Fin 3) (Fin 3) ℝ) (m : Fin 3 → ℕ) (rcut : ℝ) (p q : Vec ℝ) :
    imageCount L m rcut p q = imageCount L m rcut q p := by
  rw [imageCount, ← card_images_flip, card_images_comm]
  rfl

theorem norm3_add_le (u v : Vec ℝ) : norm3 (u + v) ≤ norm3 u + norm3 v := by
  have h0 : 0 ≤ norm3 u + norm3 v := add_nonneg (norm3_nonneg u) (norm3_nonneg v)
  have hd : u ⬝ᵥ v ≤ norm3 u * norm3 v :=
    le_of_abs_le (abs_le_of_sq_le_sq (dot_sq_le u v) (mul_nonneg (norm3_nonneg u) (norm3_nonneg v)))
  refine le_of_abs_le (abs_le_of_sq_le_sq ?_ h0)
  rw [norm3_sq, add_sq, norm3_sq u, norm3_sq v]
  simp only [dotProduct, Fin.sum_univ_three] at hd
  simp only [Pi.add_apply]
  nlinarith

theorem dist3_triangle (a b c : Vec ℝ) : dist3 a c ≤ dist3 a b + dist3 b c := by
  rw [← norm3_eq_dist3, ← norm3_eq_dist3, ← norm3_eq_dist3]
  have := norm3_add_le (a - b) (b - c)
  rwa [sub_add_sub_cancel] at this

/-- The entries of the adjacency matrix. -/
theorem adjacentMatrix_entries (s : Struct ℝ) (rcut : ℝ) (sc : Fin 3 → ℤ) (M : List (List ℤ))
    (h : adjacentMatrix s rcut sc = .ok M) :
    ∃ shifts, broadcastShifts sc = .ok shifts ∧ M.length = s.sites.length ∧
      (∀ row ∈ M, row.length = s.sites.length) ∧
      ∀ (i j : ℕ) (t u : Site ℝ), s.sites[i]? = some t → s.sites[j]? = some u →
        matEntry M i j = some ((if i ≤ j then (countWithin s.lattice shifts rcut t.pos u.pos : ℤ)
          else countWithin s.lattice shifts rcut u.pos t.pos) - (if i = j then 1 else 0)) := by
  unfold adjacentMatrix at h
  split at h
  · cases h
  · split at h
    · cases h
    · obtain ⟨shifts, h1, h⟩ := bind_eq_ok.1 h
      obtain rfl := Except.ok.inj h
      refine ⟨shifts, h1, by simp, ?_, ?_⟩
      · intro row hrow
        obtain ⟨x, _, rfl⟩ := List.mem_map.1 hrow
        simp
      · intro i j t u ht hu
        simp [matEntry, ht, hu]

theorem adjacentMatrix_odd (s : Struct ℝ) (hne : s.sites ≠ []) (rcut : ℝ) (sc : Fin 3 → ℤ)
    (m : Fin 3 → ℕ) (h : ∀ i, sc i = 2 * (m i : ℤ) + 1) : ∃ M, adjacentMatrix s rcut sc = .ok M := by
  unfold adjacentMatrix
  rw [if_neg, if_neg hne, broadcastShifts_odd sc m h, ok_bind]
  · exact ⟨_, rfl⟩
  · rw [not_not]
    intro i
    have h0 : 0 < sc i := by rw [h i]; omega
    refine ⟨h0, ?_⟩
    have : (sc i : ℚ) ≠ 0 := by exact_mod_cast h0.ne'
    exact div_ne_zero this (by norm_num)

/-- A cubic cell of edge 1 with one atom. -/
noncomputable def liCube : Struct ℝ := ⟨1, [⟨3, 0, none⟩]⟩

theorem liCube_count (rcut : ℝ) (hr : 0 ≤ rcut) (m : Fin 3 → ℕ) :
    imageCount liCube.lattice m rcut 0 0
      = ((boxShifts m).filter (fun n => ((n 0 ^ 2 + n 1 ^ 2 + n 2 ^ 2 : ℤ) : ℝ) ≤ rcut ^ 2)).card := by
  unfold imageCount
  congr 1
  refine Finset.filter_congr (fun n _ => ?_)
  have : latticePoint liCube.lattice n = fun i => (n i : ℝ) := by
    funext j
    simp [latticePoint, liCube, Finset.sum_apply, Matrix.one_apply]
  rw [zero_add, this, dist3, Real.sqrt_le_left hr]
  simp [Fin.sum_univ_three]

end MaterSDK
