import Verif.Lemmas.Supercell
import Verif.Lemmas.Dict
import Verif.Spec.Structure
import Mathlib.Data.List.Dedup
import Mathlib.Algebra.Order.Floor.Ring
import Mathlib.Data.List.Count

/-! # Helper lemmas for `Props/Structure.lean` -/

set_option linter.unusedSectionVars false

namespace MaterSDK
variable {K : Type} [Field K]

section
variable [CharZero K] [DecidableEq K]

end

theorem superSites_prefix (s : Struct K) (m : Fin 3 → Nat) :
    ∃ B, superSites s m = s.sites.map (fun u => ⟨u.z, u.pos, none⟩) ++ B := by
  unfold superSites shiftsZ
  rw [List.flatMap_cons]
  refine ⟨(List.filter (fun t => decide (t ≠ 0)) (boxZ m)).flatMap (fun t => s.sites.map (fun u =>
    ⟨u.z, u.pos + ∑ i, (t i : K) • s.lattice i, none⟩)), ?_⟩
  congr 1
  apply List.map_congr_left
  intro u _
  simp

theorem sortedIndexes_perm (sites : List (Site K)) :
    (sortedIndexes sites).Perm (List.range sites.length) := by
  unfold sortedIndexes
  refine ((sortByKey_perm _ _).map _).trans ?_
  rw [List.zipIdx_map_snd]
  simp [List.range_eq_range']

theorem pyDictGet_idxOf (P : List Nat) (i : Nat) (h : i ∈ P) :
    pyDictGet (P.map (fun i => (i, P.idxOf i))) i = .ok (P.idxOf i) := by
  unfold pyDictGet
  cases hf : (P.map (fun i => (i, P.idxOf i))).reverse.find? (fun p => p.1 = i) with
  | none =>
    rw [List.find?_eq_none] at hf
    have := hf (i, P.idxOf i) (by simp; exact h)
    simp at this
  | some p =>
    have h1 := List.find?_some hf
    have h2 := List.mem_of_find?_eq_some hf
    simp only [List.mem_reverse, List.mem_map] at h2
    obtain ⟨j, _, rfl⟩ := h2
    simp only [decide_eq_true_eq] at h1
    subst h1
    rfl

theorem keys_eq_filter (P : List Nat) (N n : Nat) (hP : P.Perm (List.range N)) (hn : n ≤ N) :
    sortByKey id ((List.range n).map P.idxOf)
      = (List.range N).filter (fun k => (P[k]?).any (fun i => i < n)) := by
  have hnd : P.Nodup := hP.nodup_iff.2 List.nodup_range
  have hlen : P.length = N := by rw [hP.length_eq]; simp
  have hmem : ∀ i, i ∈ P ↔ i < N := by intro i; rw [hP.mem_iff]; simp
  have hperm : (sortByKey id ((List.range n).map P.idxOf)).Perm
      ((List.range N).filter (fun k => (P[k]?).any (fun i => i < n))) := by
    refine (sortByKey_perm _ _).trans ?_
    rw [List.perm_ext_iff_of_nodup]
    · intro k
      simp only [List.mem_map, List.mem_range, List.mem_filter]
      constructor
      · rintro ⟨i, hi, rfl⟩
        have hiP : i ∈ P := (hmem i).2 (by omega)
        have hk := List.idxOf_lt_length_of_mem hiP
        refine ⟨by omega, ?_⟩
        rw [List.getElem?_eq_getElem hk, List.getElem_idxOf]
        simpa using hi
      · rintro ⟨hk, hp⟩
        have hk' : k < P.length := by omega
        rw [List.getElem?_eq_getElem hk'] at hp
        simp only [Option.any_some, decide_eq_true_eq] at hp
        exact ⟨P[k], hp, hnd.idxOf_getElem k hk'⟩
    · apply List.Nodup.map_on _ List.nodup_range
      intro x hx y hy hxy
      have hx' : x ∈ P := (hmem x).2 (by have := List.mem_range.1 hx; omega)
      have hy' : y ∈ P := (hmem y).2 (by have := List.mem_range.1 hy; omega)
      exact (List.idxOf_inj hx').1 hxy
    · exact List.nodup_range.filter _
  refine List.Perm.eq_of_pairwise (le := fun a b : Nat => a ≤ b) ?_ ?_ ?_ hperm
  · intro a b _ _ h1 h2; omega
  · exact sortByKey_pairwise id _
  · exact (List.pairwise_le_range (n := N)).filter _

theorem removeSites_beyond {α : Type} (l : List α) (idxs : List Nat) (h : ∀ i ∈ idxs, l.length ≤ i) :
    removeSites l idxs = l := by
  unfold removeSites
  rw [List.filter_eq_self.2, List.zipIdx_map_fst]
  rintro ⟨a, i⟩ hp
  have := List.snd_lt_of_mem_zipIdx hp
  simp only [decide_eq_true_eq] at this ⊢
  intro hi
  have := h i hi
  omega

theorem removeSites_length_le {α : Type} (l : List α) (idxs : List Nat) :
    (removeSites l idxs).length ≤ l.length := by
  unfold removeSites
  rw [List.length_map]
  exact (List.length_filter_le _ _).trans (by simp)

theorem removeSites_length_lt {α : Type} (l : List α) (idxs : List Nat) {i : Nat} (hi : i ∈ idxs)
    (hl : i < l.length) : (removeSites l idxs).length < l.length := by
  unfold removeSites
  rw [List.length_map]
  have : (l.zipIdx.filter (fun p => decide (p.2 ∉ idxs))).length < l.zipIdx.length := by
    apply List.length_filter_lt_length_iff_exists.2
    exact ⟨(l[i], i), by rw [List.mem_zipIdx_iff_getElem?]; simp [hl], by simpa using hi⟩
  simpa using this

theorem removeSites_vacancies (l : List (Site K)) :
    removeSites l ((l.zipIdx.filter (fun p => p.1.z = 0)).map Prod.snd) = l.filter (fun t => t.z ≠ 0) := by
  unfold removeSites
  have e : l.zipIdx.filter (fun p => decide (p.2 ∉ (l.zipIdx.filter (fun p => p.1.z = 0)).map Prod.snd))
      = l.zipIdx.filter (fun p => decide (p.1.z ≠ 0)) := by
    apply List.filter_congr
    rintro ⟨t, i⟩ hp
    have hp' := hp
    rw [List.mem_zipIdx_iff_getElem?] at hp
    simp only [decide_eq_decide, ne_eq, not_iff_not, List.mem_map, List.mem_filter, decide_eq_true_eq]
    constructor
    · rintro ⟨⟨t', i'⟩, ⟨h1, h2⟩, h3⟩
      simp only at h3 h2
      subst h3
      rw [List.mem_zipIdx_iff_getElem?] at h1
      simp only at h1 hp
      rw [hp] at h1
      cases h1
      exact h2
    · intro h
      exact ⟨(t, i), ⟨hp', h⟩, rfl⟩
  rw [e]
  have := List.filter_map (p := fun t : Site K => decide (t.z ≠ 0)) (f := Prod.fst) (l := l.zipIdx)
  rw [List.zipIdx_map_fst] at this
  rw [this]
  rfl

/-- Repeated removal only shrinks the list. -/
theorem foldl_removeSites_length {α : Type} (n : List Nat) (l : List α) (idxs : List Nat) :
    (n.foldl (fun acc _ => removeSites acc idxs) l).length ≤ l.length := by
  induction n generalizing l with
  | nil => exact le_refl _
  | cons a n ih => exact (ih _).trans (removeSites_length_le _ _)

theorem foldl_removeSites_fix {α : Type} (n : List Nat) (l : List α) (idxs : List Nat)
    (h : removeSites l idxs = l) : n.foldl (fun acc _ => removeSites acc idxs) l = l := by
  induction n with
  | nil => rfl
  | cons a n ih => rw [List.foldl_cons, h, ih]

theorem vacIdx_length (l : List (Site K)) :
    ((l.zipIdx.filter (fun p => p.1.z = 0)).map Prod.snd).length = (l.filter (fun t => t.z = 0)).length := by
  have := List.filter_map (p := fun t : Site K => decide (t.z = 0)) (f := Prod.fst) (l := l.zipIdx)
  rw [List.zipIdx_map_fst] at this
  rw [this, List.length_map, List.length_map]
  rfl

theorem counterKeys_foldl {α : Type} [DecidableEq α] (l acc : List α) (h : acc.Nodup) :
    (l.foldl (fun acc a => if a ∈ acc then acc else acc ++ [a]) acc).Nodup ∧
    ∀ a, a ∈ l.foldl (fun acc a => if a ∈ acc then acc else acc ++ [a]) acc ↔ a ∈ acc ∨ a ∈ l := by
  induction l generalizing acc with
  | nil => simpa using h
  | cons b l ih =>
    rw [List.foldl_cons]
    by_cases hb : b ∈ acc
    · rw [if_pos hb]
      refine ⟨(ih acc h).1, fun a => ?_⟩
      rw [(ih acc h).2]
      simp only [List.mem_cons]
      constructor
      · rintro (h1 | h1) <;> simp [h1]
      · rintro (h1 | rfl | h1)
        · exact Or.inl h1
        · exact Or.inl hb
        · exact Or.inr h1
    · rw [if_neg hb]
      have hn : (acc ++ [b]).Nodup := by
        rw [List.nodup_append]
        refine ⟨h, by simp, ?_⟩
        intro x hx y hy hxy
        simp only [List.mem_singleton] at hy
        subst hy; subst hxy
        exact hb hx
      refine ⟨(ih _ hn).1, fun a => ?_⟩
      rw [(ih _ hn).2]
      simp [or_assoc]

theorem counterKeys_nodup {α : Type} [DecidableEq α] (l : List α) : (counterKeys l).Nodup :=
  (counterKeys_foldl l [] (by simp)).1

theorem mem_counterKeys {α : Type} [DecidableEq α] (l : List α) (a : α) : a ∈ counterKeys l ↔ a ∈ l := by
  have := (counterKeys_foldl l [] (by simp)).2 a
  simpa [counterKeys] using this

section
variable [LinearOrder K] [IsStrictOrderedRing K] [FloorRing K]

theorem pyRound_error (x : K) : |x - (pyRound x : K)| ≤ 1 / 2 := by
  have h1 : (⌊x⌋ : K) ≤ x := Int.floor_le x
  have h2 : x < ⌊x⌋ + 1 := Int.lt_floor_add_one x
  unfold pyRound
  simp only
  split
  · rw [abs_le]; constructor <;> linarith
  · split
    · push_cast; rw [abs_le]; constructor <;> linarith
    · split
      · rw [abs_le]; constructor <;> linarith
      · push_cast; rw [abs_le]; constructor <;> linarith

theorem isAlmostInt_iff (x : K) : isAlmostInt x ↔ ∃ n : ℤ, |x - (n : K)| ≤ 1 / 10 ^ 10 := by
  constructor
  · intro h; exact ⟨_, h⟩
  · rintro ⟨n, hn⟩
    have h1 := abs_le.1 (pyRound_error x)
    have h2 := abs_le.1 hn
    have hs : (1 / 10 ^ 10 : K) < 1 / 2 := by norm_num
    have h3 : ((pyRound x : ℤ) : K) - n < 1 := by linarith
    have h4 : (-1 : K) < ((pyRound x : ℤ) : K) - n := by linarith
    have h5 : pyRound x - n < 1 := by exact_mod_cast h3
    have h6 : -1 < pyRound x - n := by exact_mod_cast h4
    have h7 : pyRound x = n := by omega
    unfold isAlmostInt
    rw [h7]
    exact hn

theorem near_iff (L : Matrix (Fin 3) (Fin 3) K) (hL : L.det ≠ 0) (p q : Vec K) :
    (isAlmostInt ((L.transpose)⁻¹.mulVec (p - q) 0) ∧ isAlmostInt ((L.transpose)⁻¹.mulVec (p - q) 1) ∧
      isAlmostInt ((L.transpose)⁻¹.mulVec (p - q) 2)) ↔ NearImage L p q := by
  have hu : IsUnit L.transpose.det := by rw [Matrix.det_transpose]; exact isUnit_iff_ne_zero.2 hL
  have hsum : ∀ c : Vec K, ∑ i, c i • L i = L.transpose.mulVec c := by
    intro c
    funext j
    simp [Matrix.mulVec, dotProduct, Finset.sum_apply, mul_comm]
  simp only [isAlmostInt_iff]
  constructor
  · rintro ⟨⟨n0, h0⟩, ⟨n1, h1⟩, ⟨n2, h2⟩⟩
    refine ⟨![n0, n1, n2], fun i => (L.transpose)⁻¹.mulVec (p - q) i - ((![n0, n1, n2] i : ℤ) : K), ?_, ?_⟩
    · intro i
      fin_cases i
      · exact h0
      · exact h1
      · exact h2
    · have : (fun i => (L.transpose)⁻¹.mulVec (p - q) i) = (L.transpose)⁻¹.mulVec (p - q) := rfl
      simp only [add_sub_cancel]
      rw [hsum, Matrix.mulVec_mulVec, Matrix.mul_nonsing_inv _ hu, Matrix.one_mulVec]
      simp
  · rintro ⟨n, e, he, hp⟩
    have hc : (L.transpose)⁻¹.mulVec (p - q) = fun i => (n i : K) + e i := by
      have : p - q = L.transpose.mulVec (fun i => (n i : K) + e i) := by
        rw [hp, ← hsum]; simp
      rw [this, Matrix.mulVec_mulVec, Matrix.nonsing_inv_mul _ hu, Matrix.one_mulVec]
    rw [hc]
    refine ⟨⟨n 0, ?_⟩, ⟨n 1, ?_⟩, ⟨n 2, ?_⟩⟩
    · simpa using he 0
    · simpa using he 1
    · simpa using he 2

theorem getSiteIndex_eq (s : Struct K) (hL : s.lattice.det ≠ 0) (p : Vec K) (r : ℕ) :
    s.getSiteIndex p = .ok r ↔
      (r = 0 ∧ ∀ t ∈ s.sites, ¬ NearImage s.lattice p t.pos) ∨
      ∃ (k : ℕ) (t : Site K), r = k + 1 ∧ s.sites[k]? = some t ∧ NearImage s.lattice p t.pos ∧
        ∀ (j : ℕ) (u : Site K), j < k → s.sites[j]? = some u → ¬ NearImage s.lattice p u.pos := by
  classical
  unfold Struct.getSiteIndex
  by_cases he : s.sites = []
  · simp [he, eq_comm]
  · rw [if_neg (by simpa using he), if_neg (by rw [Matrix.det_transpose]; exact hL)]
    simp only [near_iff _ hL]
    cases hf : s.sites.findIdx? (fun t => decide (NearImage s.lattice p t.pos)) with
    | none =>
      rw [List.findIdx?_eq_none_iff] at hf
      simp only [Except.ok.injEq]
      constructor
      · rintro rfl
        refine Or.inl ⟨rfl, fun t ht => ?_⟩
        have := hf t ht
        simpa using this
      · rintro (⟨rfl, _⟩ | ⟨k, t, rfl, h1, h2, _⟩)
        · rfl
        · have := hf t (List.mem_of_getElem? h1)
          simp [h2] at this
    | some k =>
      rw [List.findIdx?_eq_some_iff_getElem] at hf
      obtain ⟨hk, h1, h2⟩ := hf
      have h2' : ∀ (j : ℕ) (u : Site K), j < k → s.sites[j]? = some u →
          ¬ NearImage s.lattice p u.pos := by
        intro j u hj hu
        obtain ⟨hjl, rfl⟩ := List.getElem?_eq_some_iff.1 hu
        have := h2 j hj
        simpa using this
      simp only [decide_eq_true_eq] at h1
      simp only [Except.ok.injEq]
      constructor
      · rintro rfl
        exact Or.inr ⟨k, s.sites[k], rfl, List.getElem?_eq_getElem hk, h1, h2'⟩
      · rintro (⟨rfl, h3⟩ | ⟨k', t, rfl, h3, h4, h5⟩)
        · exact absurd h1 (h3 _ (List.getElem_mem hk))
        · have hk'l := (List.getElem?_eq_some_iff.1 h3).1
          rcases lt_trichotomy k k' with hlt | rfl | hlt
          · exact absurd h1 (h5 k _ hlt (List.getElem?_eq_getElem hk))
          · rfl
          · exact absurd h4 (h2' k' t hlt h3)

end

end MaterSDK
