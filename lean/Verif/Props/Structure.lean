import Verif.Lemmas.StructureAux
import Verif.Lemmas.Supercell
import Verif.Lemmas.Dict
import Verif.Spec.Structure
import Mathlib.Data.List.Dedup
import Mathlib.Algebra.Order.Floor.Ring
import Mathlib.Data.List.Count

/-!
# C10-C16: sorting, supercells, key indices, vacancies, counts, site lookup
-/

set_option linter.unusedSectionVars false

namespace MaterSDK



variable {K : Type} [Field K]

/-! ## C10 -/

/-- C10: sorting by element is a stable, idempotent permutation into ascending atomic number. -/
theorem C10_reformat_elements_inplace (s : Struct K) :
    s.reformat_.lattice = s.lattice ∧
    s.reformat_.sites.Perm s.sites ∧
    s.reformat_.sites.Pairwise (fun a b => a.z ≤ b.z) ∧
    (∀ z, s.reformat_.sites.filter (fun t => t.z = z) = s.sites.filter (fun t => t.z = z)) ∧
    s.reformat_.reformat_ = s.reformat_ := by
  refine ⟨rfl, sortByKey_perm _ _, sortByKey_pairwise _ _, fun z => sortByKey_stable _ z _, ?_⟩
  unfold Struct.reformat_
  simp only [sortByKey_of_sorted _ (sortByKey_pairwise _ _)]

/-- A small structure over the rationals. -/
def sampleCell : Struct ℚ := ⟨!![2, 0, 0; 0, 3, 0; 1, 0, 4],
  [⟨14, ![0, 0, 0], some 1⟩, ⟨3, ![1, 1, 1], some 2⟩, ⟨14, ![1/2, 0, 2], some 3⟩]⟩

example : sampleCell.reformat_.sites =
    [⟨3, ![1, 1, 1], some 2⟩, ⟨14, ![0, 0, 0], some 1⟩, ⟨14, ![1/2, 0, 2], some 3⟩] := by
  decide +kernel

/-! ## C11 -/

/-- C11 fails: after reordering by `[Li, Si]` the lithium atom sits at the silicon position. -/
theorem C11_positions_do_not_travel :
    ∃ (s : Struct ℚ) (els : List Nat) (s' : Struct ℚ), els.Nodup ∧ (∀ t ∈ s.sites, t.z ∈ els) ∧
      s.reformatElements els = .ok s' ∧
      ¬ (s'.sites.map Site.seen).Perm (s.sites.map Site.seen) := by
  refine ⟨sampleCell, [3, 14], ⟨sampleCell.lattice, [⟨3, ![0, 0, 0], some 2⟩, ⟨14, ![1, 1, 1], some 1⟩,
    ⟨14, ![1/2, 0, 2], some 3⟩]⟩, by decide, by decide +kernel, ?_, ?_⟩
  · have h : ((sampleCell.reformatElements [3, 14]).map Struct.sites) =
        .ok [⟨3, ![0, 0, 0], some 2⟩, ⟨14, ![1, 1, 1], some 1⟩, ⟨14, ![1/2, 0, 2], some 3⟩] := by
      decide +kernel
    cases hx : sampleCell.reformatElements [3, 14] with
    | error e => rw [hx] at h; cases h
    | ok v =>
      rw [hx] at h
      unfold Struct.reformatElements at hx
      simp only at hx
      split at hx
      · cases hx
      · split at hx
        · cases hx
        · cases hx
          simp only [Except.map, Except.ok.injEq] at h
          rw [h]
  · decide +kernel

/-- C11, what the code guarantees in general when it returns: the species (and moments) are grouped
in the requested order, but site `k` of the result keeps the position of site `k` of the input. -/
theorem C11_species_reordered_positions_fixed (s s' : Struct K) (els : List Nat)
    (h : s.reformatElements els = .ok s') :
    s'.lattice = s.lattice ∧ s'.sites.map Site.pos = s.sites.map Site.pos ∧
    s'.sites.map Site.z = els.flatMap (fun e => (s.sites.filter (fun t => t.z = e)).map Site.z) := by
  unfold Struct.reformatElements at h
  simp only at h
  split at h
  · cases h
  · split at h
    · cases h
    · rename_i hl
      cases h
      rw [not_not] at hl
      simp only [List.length_map] at hl
      refine ⟨rfl, ?_, ?_⟩
      · rw [List.map_map]
        show List.map Prod.snd _ = _
        rw [List.map_snd_zip]
        simp only [List.length_map]; omega
      · rw [List.map_map]
        show List.map (Site.z ∘ Prod.fst) _ = _
        rw [← List.map_map, List.map_fst_zip, List.map_flatMap]
        simp only [List.length_map]; omega

/-- C11, the part that holds: when the sites are already grouped in the order of the list, the
structure is returned unchanged. Missing: every call that actually reorders. -/
theorem C11_already_ordered_partial (s : Struct K) (els : List Nat)
    (h : els.flatMap (fun e => s.sites.filter (fun t => t.z = e)) = s.sites)
    (hm : ∀ t ∈ s.sites, t.mag ≠ none) :
    s.reformatElements els = .ok s := by
  unfold Struct.reformatElements
  simp only [h]
  rw [if_neg, if_neg]
  · congr 1
    have : List.zip s.sites (s.sites.map Site.pos) = s.sites.map (fun t => (t, t.pos)) := by
      have := List.zip_map' (f := fun t : Site K => t) (g := Site.pos) (l := s.sites)
      simpa using this
    rw [this, List.map_map]
    show (⟨s.lattice, List.map (fun t => t) s.sites⟩ : Struct K) = s
    simp
  · simp
  · simp only [List.any_eq_true, not_exists, not_and]
    intro t ht
    have := hm t ht
    cases hh : t.mag
    · exact absurd hh this
    · simp

example : [14, 3].flatMap (fun e => [(⟨14, ![0, 0, 0], some 1⟩ : Site ℚ), ⟨3, ![1, 1, 1], some 2⟩].filter
    (fun t => t.z = e)) = [⟨14, ![0, 0, 0], some 1⟩, ⟨3, ![1, 1, 1], some 2⟩] := by decide +kernel

/-! ## C12 -/

section
variable [CharZero K] [DecidableEq K]

/-- C12: an odd supercell holds every translate of every site exactly once, the original cell first. -/
theorem C12_odd_supercell (s : Struct K) (sc : Fin 3 → ℤ) (m : Fin 3 → ℕ)
    (h : ∀ i, sc i = 2 * (m i : ℤ) + 1) :
    ∃ (S : Struct K) (T : List (Fin 3 → ℤ)), s.makeSupercell sc false = .ok S ∧
      T.Nodup ∧ (∀ t : Fin 3 → ℤ, t ∈ T ↔ ∀ i, |t i| ≤ m i) ∧ T.head? = some 0 ∧
      S.sites.map Site.seen = T.flatMap (fun t =>
        s.sites.map (fun u => (u.z, u.pos + ∑ i, (t i : K) • s.lattice i))) ∧
      (∀ i, S.lattice i = (sc i : K) • s.lattice i) := by
  refine ⟨_, shiftsZ m, makeSupercell_odd s m h false, shiftsZ_nodup m, mem_shiftsZ m, rfl, ?_, ?_⟩
  · simp [superSites, List.map_flatMap, Site.seen, Function.comp_def]
  · intro i
    funext j
    simp [Matrix.diagonal_mul]

/-- C12: the number of sites. -/
theorem C12_site_count (s : Struct K) (sc : Fin 3 → ℤ) (S : Struct K) (r : Bool)
    (hne : s.sites ≠ []) (h : s.makeSupercell sc r = .ok S) :
    (S.sites.length : ℤ) = s.sites.length * (sc 0 * sc 1 * sc 2) := by
  by_cases hx : ∃ i, sc i ≤ 0 ∨ Even (sc i)
  · rw [makeSupercell_reject s hx hne] at h; cases h
  · have ho : ∀ i, sc i = 2 * ((((sc i - 1) / 2).toNat : ℕ) : ℤ) + 1 := by
      intro i
      have h1 : ¬ (sc i ≤ 0 ∨ Even (sc i)) := fun hc => hx ⟨i, hc⟩
      rw [not_or, Int.not_even_iff_odd] at h1
      obtain ⟨h1, k, h2⟩ := h1
      omega
    rw [makeSupercell_odd s (fun i => ((sc i - 1) / 2).toNat) ho] at h
    cases h
    have e : (superSites s (fun i => ((sc i - 1) / 2).toNat)).length
        = (2 * ((sc 0 - 1) / 2).toNat + 1) * (2 * ((sc 1 - 1) / 2).toNat + 1)
          * (2 * ((sc 2 - 1) / 2).toNat + 1) * s.sites.length := by
      rw [← shiftsZ_length (fun i => ((sc i - 1) / 2).toNat)]
      simp [superSites, List.length_flatMap]
    have e2 : ((superSites s (fun i => ((sc i - 1) / 2).toNat)).length : ℤ)
        = s.sites.length * (sc 0 * sc 1 * sc 2) := by
      rw [e]
      push_cast
      rw [← ho 0, ← ho 1, ← ho 2]
      ring
    cases r
    · simpa using e2
    · simp only [if_true, Struct.reformat_]
      rw [(sortByKey_perm _ _).length_eq]
      exact e2

/-- C12: an even (or non-positive) factor is rejected. -/
theorem C12_even_rejected (s : Struct K) (sc : Fin 3 → ℤ) (r : Bool) (hne : s.sites ≠ [])
    (h : ∃ i, Even (sc i) ∨ sc i ≤ 0) : s.makeSupercell sc r = .error .assertionError :=
  makeSupercell_reject s (h.imp fun _ => Or.symm) hne r

/-- C12: with sorting requested the same sites are returned, sorted stably by element. -/
theorem C12_sorted_variant (s S : Struct K) (sc : Fin 3 → ℤ) (h : s.makeSupercell sc false = .ok S) :
    s.makeSupercell sc true = .ok S.reformat_ := by
  unfold Struct.makeSupercell at h ⊢
  simp only at h ⊢
  split at h
  · cases h
  · rename_i hh
    rw [if_neg hh]
    simp only [Bool.false_eq_true, if_false] at h
    cases h
    rfl

end

example : ∀ i : Fin 3, (![3, 1, 5] : Fin 3 → ℤ) i = 2 * ((![1, 0, 2] : Fin 3 → ℕ) i : ℤ) + 1 := by
  decide
example : ((sampleCell.makeSupercell ![3, 1, 1] false).map (fun S => S.sites.map Site.seen)) =
    .ok [(14, ![0, 0, 0]), (3, ![1, 1, 1]), (14, ![1/2, 0, 2]),
         (14, ![-2, 0, 0]), (3, ![-1, 1, 1]), (14, ![-3/2, 0, 2]),
         (14, ![2, 0, 0]), (3, ![3, 1, 1]), (14, ![5/2, 0, 2])] := by decide +kernel

/-! ## C13 -/

/-- C13: the key indices are strictly increasing, one per primitive site, valid in the sorted
supercell, and point at the primitive sites in sorted order. -/
theorem C13_key_idxs [CharZero K] [DecidableEq K] (s : Struct K) (sc : Fin 3 → ℤ) (m : Fin 3 → ℕ)
    (h : ∀ i, sc i = 2 * (m i : ℤ) + 1) :
    ∃ (keys : List ℕ) (S : Struct K), s.getKeyIdxs sc = .ok keys ∧ s.makeSupercell sc true = .ok S ∧
      keys.Pairwise (· < ·) ∧ keys.length = s.sites.length ∧ (∀ k ∈ keys, k < S.sites.length) ∧
      keys.map (fun k => S.sites[k]?.map Site.seen)
        = s.reformat_.sites.map (fun t => some t.seen) := by
  obtain ⟨B, hB⟩ := superSites_prefix s m
  set sites := superSites s m with hsites
  set P := sortedIndexes sites with hP
  have hPp : P.Perm (List.range sites.length) := sortedIndexes_perm sites
  have hn : s.sites.length ≤ sites.length := by rw [hB]; simp
  have hkeys : s.getKeyIdxs sc = .ok ((List.range sites.length).filter
      (fun k => (P[k]?).any (fun i => i < s.sites.length))) := by
    unfold Struct.getKeyIdxs bidx2aidx
    rw [makeSupercell_odd s m h]
    simp only [ok_bind, Bool.false_eq_true, if_false, pure_bind]
    have e : (List.range s.sites.length).mapM (fun i =>
        pyDictGet ((sortedIndexes (superSites s m)).map
          (fun i => (i, (sortedIndexes (superSites s m)).idxOf i))) i)
        = .ok ((List.range s.sites.length).map P.idxOf) := by
      rw [mapM_eq_ok, List.forall₂_map_right_iff, List.forall₂_same]
      intro i hi
      apply pyDictGet_idxOf
      rw [← hsites, ← hP, hPp.mem_iff]
      have := List.mem_range.1 hi
      exact List.mem_range.2 (by omega)
    show ((List.range s.sites.length).mapM (fun i =>
        pyDictGet ((sortedIndexes (superSites s m)).map
          (fun i => (i, (sortedIndexes (superSites s m)).idxOf i))) i)) >>= _ = _
    rw [e, ok_bind, keys_eq_filter P sites.length _ hPp hn]
    rfl
  have hS : (sortByKey Site.z sites) =
      (sortByKey (fun p : Site K × Nat => p.1.z) sites.zipIdx).map Prod.fst := by
    rw [← sortByKey_map Site.z Prod.fst, List.zipIdx_map_fst]
  set Q := sortByKey (fun p : Site K × Nat => p.1.z) sites.zipIdx with hQ
  have hQl : Q.length = sites.length := by rw [hQ, (sortByKey_perm _ _).length_eq]; simp
  have hfilt : (fun k : Nat => (P[k]?).any (fun i => decide (i < s.sites.length)))
      = fun k => (Q[k]?).any (fun p : Site K × Nat => decide (p.2 < s.sites.length)) := by
    funext k
    rw [hP]
    unfold sortedIndexes
    rw [← hQ, List.getElem?_map]
    cases Q[k]? <;> rfl
  have hcore : ((List.range sites.length).filter
      (fun k => (P[k]?).any (fun i => i < s.sites.length))).map (fun k => Q[k]?)
      = (sortByKey (fun p : Site K × Nat => p.1.z)
          ((s.sites.map (fun u => (⟨u.z, u.pos, none⟩ : Site K))).zipIdx)).map some := by
    rw [hfilt, ← hQl, range_filter_map_get, hQ, sortByKey_filter]
    congr 2
    rw [hB, List.zipIdx_append, List.filter_append]
    have h1 : (List.map (fun u => (⟨u.z, u.pos, none⟩ : Site K)) s.sites).zipIdx.filter
        (fun p => decide (p.2 < s.sites.length))
        = (List.map (fun u => (⟨u.z, u.pos, none⟩ : Site K)) s.sites).zipIdx := by
      rw [List.filter_eq_self]
      rintro ⟨a, i⟩ hp
      have := List.snd_lt_of_mem_zipIdx hp
      simpa using this
    have h2 : (B.zipIdx (0 + (List.map (fun u => (⟨u.z, u.pos, none⟩ : Site K)) s.sites).length)).filter
        (fun p => decide (p.2 < s.sites.length)) = [] := by
      rw [List.filter_eq_nil_iff]
      rintro ⟨a, i⟩ hp
      have := List.le_snd_of_mem_zipIdx hp
      simp only [List.length_map] at this
      simp only [decide_eq_true_eq]
      omega
    rw [h1, h2, List.append_nil]
  refine ⟨_, _, hkeys, makeSupercell_odd s m h true, ?_, ?_, ?_, ?_⟩
  · exact List.pairwise_lt_range.filter _
  · have := congrArg List.length hcore
    rw [List.length_map, List.length_map, (sortByKey_perm _ _).length_eq] at this
    rw [this]; simp
  · intro k hk
    have := (List.mem_filter.1 hk).1
    simp only [if_true, Struct.reformat_]
    rw [← hsites, (sortByKey_perm _ _).length_eq]
    exact List.mem_range.1 this
  · simp only [if_true, Struct.reformat_]
    rw [← hsites, hS]
    have e : (fun k => Option.map Site.seen ((Q.map Prod.fst)[k]?))
        = (fun q : Option (Site K × Nat) => q.map (fun p => p.1.seen)) ∘ (fun k : Nat => Q[k]?) := by
      funext k
      simp [List.getElem?_map]; rfl
    rw [e, ← List.map_map, hcore, List.map_map]
    have e2 : (sortByKey (fun p : Site K × Nat => p.1.z)
        ((s.sites.map (fun u => (⟨u.z, u.pos, none⟩ : Site K))).zipIdx)).map Prod.fst
        = (sortByKey Site.z s.sites).map (fun u => (⟨u.z, u.pos, none⟩ : Site K)) := by
      rw [← sortByKey_map Site.z Prod.fst, List.zipIdx_map_fst, sortByKey_map]
    have e3 := congrArg (List.map (fun t : Site K => some t.seen)) e2
    rw [List.map_map, List.map_map] at e3
    exact e3

example : sampleCell.getKeyIdxs ![3, 1, 1] = .ok [0, 3, 4] := by decide +kernel

/-! ## C14 -/

/-- C14: the result is right exactly when there is at most one vacancy or all vacancies come after
all atoms. -/
theorem C14_correct_iff (s : Struct K) :
    s.removeVacanies.sites = s.sites.filter (fun t => t.z ≠ 0) ↔
      (s.sites.filter (fun t => t.z = 0)).length ≤ 1 ∨
      ∀ (i : ℕ) (t : Site K), s.sites[i]? = some t → t.z = 0 →
        (s.sites.filter (fun t => t.z ≠ 0)).length ≤ i := by
  have hmem : ∀ i, i ∈ (s.sites.zipIdx.filter (fun p => p.1.z = 0)).map Prod.snd ↔
      ∃ t : Site K, s.sites[i]? = some t ∧ t.z = 0 := by
    intro i
    simp only [List.mem_map, List.mem_filter, decide_eq_true_eq]
    constructor
    · rintro ⟨⟨t, j⟩, ⟨h1, h2⟩, rfl⟩
      rw [List.mem_zipIdx_iff_getElem?] at h1
      exact ⟨t, h1, h2⟩
    · rintro ⟨t, h1, h2⟩
      exact ⟨(t, i), ⟨by rw [List.mem_zipIdx_iff_getElem?]; exact h1, h2⟩, rfl⟩
  have hlen := vacIdx_length s.sites
  have hfirst := removeSites_vacancies s.sites
  unfold Struct.removeVacanies
  simp only
  generalize hI : (s.sites.zipIdx.filter (fun p => decide (p.1.z = 0))).map Prod.snd = idxs at *
  rw [← hlen]
  rcases hidx : idxs with _ | ⟨a, _ | ⟨b, rest⟩⟩
  · rw [hidx] at hfirst
    simp only [List.foldl_nil, List.length_nil, zero_le, true_or, iff_true]
    rw [← hfirst, removeSites_beyond]
    simp
  · rw [hidx] at hfirst
    simp [hfirst]
  · rw [← hidx]
    have hk : ¬ idxs.length ≤ 1 := by rw [hidx]; simp
    simp only [hk, false_or]
    have hf : idxs.foldl (fun acc _ => removeSites acc idxs) s.sites
        = rest.foldl (fun acc _ => removeSites acc idxs)
            (removeSites (s.sites.filter (fun t => t.z ≠ 0)) idxs) := by
      conv_lhs => arg 3; rw [hidx]
      rw [List.foldl_cons, List.foldl_cons, hfirst]
    rw [hf]
    constructor
    · intro h i t h1 h2
      by_contra hlt
      have h3 : i ∈ idxs := (hmem i).2 ⟨t, h1, h2⟩
      have h4 := removeSites_length_lt (s.sites.filter (fun t => decide (t.z ≠ 0))) idxs h3 (by omega)
      have h5 := foldl_removeSites_length rest (removeSites (s.sites.filter (fun t => t.z ≠ 0)) idxs) idxs
      rw [h] at h5
      omega
    · intro h
      have h3 : removeSites (s.sites.filter (fun t => decide (t.z ≠ 0))) idxs
          = s.sites.filter (fun t => t.z ≠ 0) := by
        apply removeSites_beyond
        intro i hi
        obtain ⟨t, h1, h2⟩ := (hmem i).1 hi
        exact h i t h1 h2
      rw [h3, foldl_removeSites_fix _ _ _ h3]

/-- C14, the part that holds: with at most one vacancy, exactly the vacancy is removed. Missing:
two or more vacancies. -/
theorem C14_single_vacancy_partial (s : Struct K)
    (h : (s.sites.filter (fun t => t.z = 0)).length ≤ 1) :
    s.removeVacanies.sites = s.sites.filter (fun t => t.z ≠ 0) :=
  (C14_correct_iff s).2 (Or.inl h)

/-- C14 fails: two vacancies in front of two atoms, all four sites are removed. -/
theorem C14_removes_atoms : ∃ s : Struct ℚ,
    (s.sites.filter (fun t => t.z ≠ 0)).length = 2 ∧ s.removeVacanies.sites = [] :=
  ⟨⟨1, [⟨0, ![0, 0, 0], none⟩, ⟨0, ![1, 0, 0], none⟩, ⟨3, ![0, 1, 0], none⟩, ⟨14, ![0, 0, 1], none⟩]⟩,
    by decide +kernel, by decide +kernel⟩

example : (⟨1, [⟨14, ![0, 0, 0], none⟩, ⟨0, ![1, 0, 0], none⟩, ⟨3, ![0, 1, 0], none⟩]⟩ :
    Struct ℚ).removeVacanies.sites = [⟨14, ![0, 0, 0], none⟩, ⟨3, ![0, 1, 0], none⟩] := by
  decide +kernel

/-! ## C15 -/

/-- C15 (default order): total first, then one positive count per distinct element, adding up to
the total. -/
theorem C15_counts_complete (s : Struct K) :
    ∃ els : List ℕ, els.Nodup ∧ (∀ z, z ∈ els ↔ ∃ t ∈ s.sites, t.z = z) ∧
      s.getNatoms [] = s.sites.length ::
        els.map (fun z => (s.sites.filter (fun t => t.z = z)).length) ∧
      (∀ c ∈ (s.getNatoms []).tail, 0 < c) ∧
      (s.getNatoms []).tail.sum = s.sites.length := by
  have hc : ∀ z, (s.sites.map Site.z).count z = (s.sites.filter (fun t => t.z = z)).length := by
    intro z
    rw [List.count_eq_length_filter, List.filter_map, List.length_map]
    rfl
  have hg : s.getNatoms [] = s.sites.length ::
        (counterKeys (s.sites.map Site.z)).map (fun z => (s.sites.map Site.z).count z) := by
    simp [Struct.getNatoms]
  refine ⟨counterKeys (s.sites.map Site.z), counterKeys_nodup _, ?_, ?_, ?_, ?_⟩
  · intro z
    rw [mem_counterKeys]; simp
  · rw [hg]
    simp only [hc]
  · intro c hcm
    rw [hg, List.tail_cons, List.mem_map] at hcm
    obtain ⟨z, hz, rfl⟩ := hcm
    exact List.count_pos_iff.2 ((mem_counterKeys _ _).1 hz)
  · rw [hg, List.tail_cons]
    have hp : (counterKeys (s.sites.map Site.z)).Perm (s.sites.map Site.z).dedup := by
      rw [List.perm_ext_iff_of_nodup (counterKeys_nodup _) (List.nodup_dedup _)]
      intro a
      rw [mem_counterKeys, List.mem_dedup]
    rw [(hp.map _).sum_eq, List.sum_map_count_dedup_eq_length, List.length_map]

/-- C15 (explicit order): the counts in that order, 0 for absent elements. -/
theorem C15_explicit_order (s : Struct K) (order : List ℕ) (h : order ≠ []) :
    s.getNatoms order = s.sites.length ::
      order.map (fun z => (s.sites.filter (fun t => t.z = z)).length) := by
  have he : order.isEmpty = false := by cases order <;> simp_all
  simp only [Struct.getNatoms, he, Bool.false_eq_true, if_false, List.cons.injEq, true_and]
  apply List.map_congr_left
  intro z _
  rw [List.count_eq_length_filter, List.filter_map, List.length_map]
  rfl

example : sampleCell.getNatoms [] = [3, 2, 1] ∧ sampleCell.getNatoms [3, 14, 8] = [3, 1, 2, 0] := by
  decide +kernel

/-! ## C16 -/

section
variable [LinearOrder K] [IsStrictOrderedRing K] [FloorRing K]

/-- C16: an integer translate of atom `k` is mapped back to `k+1`, provided no other atom is an
image of atom `k` within the tolerance. -/
theorem C16_image_maps_back (s : Struct K) (hL : s.lattice.det ≠ 0) (k : ℕ) (t : Site K)
    (hk : s.sites[k]? = some t) (n : Fin 3 → ℤ)
    (hsep : ∀ (j : ℕ) (u : Site K), j ≠ k → s.sites[j]? = some u → ¬ NearImage s.lattice t.pos u.pos) :
    s.getSiteIndex (t.pos + ∑ i, (n i : K) • s.lattice i) = .ok (k + 1) := by
  rw [getSiteIndex_eq s hL]
  refine Or.inr ⟨k, t, rfl, hk, ⟨n, 0, ?_, ?_⟩, ?_⟩
  · intro i; simp
  · simp
  · rintro j u hj hu ⟨n', e, he, hp⟩
    refine hsep j u (by omega) hu ⟨n' - n, e, he, ?_⟩
    have h1 : t.pos = u.pos + ∑ i, ((n' i : K) + e i) • s.lattice i - ∑ i, (n i : K) • s.lattice i := by
      rw [← hp]; simp
    rw [h1, add_sub_assoc, ← Finset.sum_sub_distrib]
    congr 1
    apply Finset.sum_congr rfl
    intro i _
    rw [← sub_smul]
    congr 1
    simp only [Pi.sub_apply]
    push_cast
    ring

/-- C16: the answer 0 means that no atom is an image; a positive answer names an atom that is. -/
theorem C16_zero_means_none (s : Struct K) (hL : s.lattice.det ≠ 0) (p : Vec K) :
    ∃ r, s.getSiteIndex p = .ok r ∧
      (r = 0 ↔ ∀ t ∈ s.sites, ¬ NearImage s.lattice p t.pos) ∧
      (∀ k, r = k + 1 → ∃ t, s.sites[k]? = some t ∧ NearImage s.lattice p t.pos) := by
  obtain ⟨r, hr⟩ : ∃ r, s.getSiteIndex p = .ok r := by
    unfold Struct.getSiteIndex
    by_cases he : s.sites = []
    · exact ⟨0, by simp [he]⟩
    · rw [if_neg (by simpa using he), if_neg (by rw [Matrix.det_transpose]; exact hL)]
      exact ⟨_, rfl⟩
  refine ⟨r, hr, ?_, ?_⟩
  · rcases (getSiteIndex_eq s hL p r).1 hr with ⟨rfl, h⟩ | ⟨k, t, rfl, h1, h2, _⟩
    · simpa using h
    · simp only [Nat.add_eq_zero_iff, one_ne_zero, and_false, false_iff, not_forall]
      exact ⟨t, List.mem_of_getElem? h1, not_not.2 h2⟩
  · rintro k rfl
    rcases (getSiteIndex_eq s hL p (k + 1)).1 hr with ⟨h, _⟩ | ⟨k', t, h, h1, h2, _⟩
    · omega
    · have : k = k' := by omega
      subst this
      exact ⟨t, h1, h2⟩

/-- C16: a singular lattice is an error, not an answer. -/
theorem C16_singular_rejected (s : Struct K) (hL : s.lattice.det = 0) (hne : s.sites ≠ []) (p : Vec K) :
    s.getSiteIndex p = .error .valueError := by
  unfold Struct.getSiteIndex
  rw [if_neg (by simpa using hne), if_pos (by rw [Matrix.det_transpose]; exact hL)]

end

/-- Two atoms in a cubic cell of edge 2, half an edge apart: neither is an image of the other. -/
example : ∀ (j : ℕ) (u : Site ℚ), j ≠ 1 →
    ([⟨3, ![0, 0, 0], none⟩, ⟨14, ![1, 0, 0], none⟩] : List (Site ℚ))[j]? = some u →
    ¬ NearImage (Matrix.diagonal (fun _ => (2 : ℚ))) ![1, 0, 0] u.pos := by
  rintro j u hj hu ⟨n, e, he, hp⟩
  have hj0 : j = 0 := by
    have := (List.getElem?_eq_some_iff.1 hu).1
    simp at this; omega
  subst hj0
  simp only [List.getElem?_cons_zero, Option.some.injEq] at hu
  subst hu
  have h := congrFun hp 0
  simp [Fin.sum_univ_three] at h
  have h0 := abs_le.1 (he 0)
  have h1 : (0 : ℚ) < n 0 := by norm_num at h0; linarith
  have h2 : (n 0 : ℚ) < 1 := by norm_num at h0; linarith
  have h3 : (0 : ℤ) < n 0 := by exact_mod_cast h1
  have h4 : n 0 < (1 : ℤ) := by exact_mod_cast h2
  omega

end MaterSDK
