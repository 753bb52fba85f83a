import Verif.Lemmas.MtpLevel
import Mathlib.Data.Finset.Dedup
import Mathlib.Data.Finset.Card
import Verif.Lemmas.Except

/-! # Combinations of moments: properties C100 to C102, C108 and C109 -/

namespace MaterSDK

/-! ## C100 -/

/-- C100: the combinations listed by `MtpMCoeffPairCombs`, up to order, are exactly the non-empty
multisets of moments whose levels add up to at most `max_level` and that pass the contraction rule: one
moment has as many indices as all others together, or every non-zero number of indices occurs an even
number of times. -/
theorem C100_combinations_complete (S : NuSort) (maxLevel : ℤ) (s : List (ℕ × ℕ)) :
    (∃ c ∈ mtpBuild S maxLevel, c.Perm s) ↔
      s ≠ [] ∧ (((s.map (fun p : ℕ × ℕ => 2 + 4 * p.1 + p.2)).sum : ℕ) : ℤ) ≤ maxLevel ∧
      ((∃ p ∈ s, 2 * p.2 = (s.map Prod.snd).sum) ∨ ∀ n, n ≠ 0 → Even (s.countP (fun r => r.2 == n))) := by
  have hls : (s.map (fun p : ℕ × ℕ => 2 + 4 * p.1 + p.2)).sum = levelSum s := rfl
  constructor
  · rintro ⟨c, hc, hp⟩
    obtain ⟨ii, h1, h2, h3⟩ := mem_mtpBuild.1 hc
    obtain ⟨k1, _, k3⟩ := schemesAux_sound h2
    have := (kept_perm_iff hp).1 ((mtpKept_iff k3).1 h3)
    refine ⟨this.1, ?_, this.2⟩
    have e := levelSum_perm hp
    rw [hls, ← e, k1]
    exact h1
  · rintro ⟨h1, h2, h3⟩
    obtain ⟨c, hc, hp⟩ := schemesAux_complete (S := S) (depth := levelSum s + 1) (aim := levelSum s) (m := 0)
      (n := 0) (by omega) (s := s) rfl (fun p _ => by simp [mtpLevel]; omega)
    refine ⟨c, mem_mtpBuild.2 ⟨levelSum s, ?_, hc, ?_⟩, hp⟩
    · rw [← hls]; exact h2
    · rw [mtpKept_iff (schemesAux_sound hc).2.2]
      exact (kept_perm_iff hp).2 ⟨h1, h3⟩

/-- `max_level` 8, two moments `M_{0,2}`: listed. -/
example : ∃ c ∈ mtpBuild NuSort.insertion 8, c.Perm [(0, 2), (0, 2)] :=
  (C100_combinations_complete _ _ _).2 ⟨by decide, by decide, Or.inl ⟨(0, 2), by decide, by decide⟩⟩

/-- One moment with an odd number of indices: never listed. -/
example (m : ℤ) : ¬ ∃ c ∈ mtpBuild NuSort.insertion m, c.Perm [(0, 3)] := fun h => by
  obtain ⟨_, _, h⟩ := (C100_combinations_complete _ _ _).1 h
  rcases h with ⟨p, hp, he⟩ | h
  · rw [List.mem_singleton.1 hp] at he
    revert he
    decide
  · have := h 3 (by decide)
    revert this
    decide

/-! ## C101 -/

/-- C101 fails: from `max_level` 18 on the combination `M_{0,4} M_{0,4} M_{1,0}` is listed more than
once, whatever `std::sort` does. -/
theorem C101_violated_duplicates (S : NuSort) (maxLevel : ℤ) (h : 18 ≤ maxLevel) :
    ∃ (i j : ℕ) (c d : List (ℕ × ℕ)), i ≠ j ∧ (mtpBuild S maxLevel)[i]? = some c ∧ (mtpBuild S maxLevel)[j]? = some d ∧
      c.Perm [(0, 4), (0, 4), (1, 0)] ∧ d.Perm [(0, 4), (0, 4), (1, 0)] := by
  obtain ⟨t, ht⟩ := mtpBuild_prefix S h
  have hs := mtpBuild_same S NuSort.insertion 18
  have hc : (mtpBuild NuSort.insertion 18)[174]? = some [(0, 4), (0, 4), (1, 0)] ∧
      (mtpBuild NuSort.insertion 18)[175]? = some [(0, 4), (0, 4), (1, 0)] := by decide +kernel
  have get : ∀ (i : ℕ) (d : List (ℕ × ℕ)), (mtpBuild NuSort.insertion 18)[i]? = some d →
      ∃ c : List (ℕ × ℕ), (mtpBuild S maxLevel)[i]? = some c ∧ c.Perm d := by
    intro i d hd
    obtain ⟨hi, he⟩ := List.getElem?_eq_some_iff.1 hd
    have hi' : i < (mtpBuild S 18).length := by rw [hs.length_eq]; exact hi
    refine ⟨(mtpBuild S 18)[i], ?_, ?_⟩
    · rw [ht, List.getElem?_append_left hi', List.getElem?_eq_getElem hi']
    · rw [← he]
      exact (hs.get hi' hi).1
  obtain ⟨c, h1, h2⟩ := get _ _ hc.1
  obtain ⟨d, h3, h4⟩ := get _ _ hc.2
  exact ⟨174, 175, c, d, by decide, h1, h3, h2, h4⟩

/-- C101 as far as it holds: only combinations with two different moments of equal level can be listed
more than once. -/
theorem C101_no_duplicates_partial (S : NuSort) (maxLevel : ℤ) (i j : ℕ) (c d : List (ℕ × ℕ)) (hij : i ≠ j)
    (hi : (mtpBuild S maxLevel)[i]? = some c) (hj : (mtpBuild S maxLevel)[j]? = some d) (hp : c.Perm d) :
    ∃ p ∈ c, ∃ q ∈ c, p ≠ q ∧ 4 * p.1 + p.2 = 4 * q.1 + q.2 := by
  by_contra hno
  push Not at hno
  have hinj : ∀ p ∈ c, ∀ q ∈ c, mtpLevel p = mtpLevel q → p = q := by
    intro p hp q hq he
    by_contra hne
    refine hno p hp q hq hne ?_
    unfold mtpLevel at he
    omega
  have h1 := mtpBuild_unique (S := S) maxLevel c hinj
  have hc : decide (c.Perm c) = true := by simp
  have hd : decide (d.Perm c) = true := by simpa using hp.symm
  rcases Nat.lt_or_gt_of_ne hij with h | h
  · have := two_le_countP h hi hj (P := fun x => decide (x.Perm c)) hc hd
    omega
  · have := two_le_countP h hj hi (P := fun x => decide (x.Perm c)) hd hc
    omega

/-- The partial result forbids repeating `M_{0,1} M_{0,1}`. -/
example (m : ℤ) (i j : ℕ) (hi : (mtpBuild NuSort.insertion m)[i]? = some [(0, 1), (0, 1)])
    (hj : (mtpBuild NuSort.insertion m)[j]? = some [(0, 1), (0, 1)]) : i = j := by
  by_contra h
  obtain ⟨p, hp, q, hq, hne, _⟩ := C101_no_duplicates_partial _ m i j _ _ h hi hj (List.Perm.refl _)
  simp at hp hq
  exact hne (hp.trans hq.symm)
example : (mtpBuild NuSort.insertion 6)[3]? = some [(0, 1), (0, 1)] := by decide +kernel

/-! ## C102 -/

/-- C102: from `max_level` 2 on `nmus` (used to size the coefficient table) and `nmus_check` agree, and
the radial channels that occur are exactly the numbers below `nmus`. -/
theorem C102_nmus (S : NuSort) (maxLevel : ℤ) (h : 2 ≤ maxLevel) :
    (mtpNmusCheck (mtpBuild S maxLevel) : ℤ) = mtpNmus maxLevel ∧
    ∀ mu : ℕ, (∃ c ∈ mtpBuild S maxLevel, ∃ p ∈ c, p.1 = mu) ↔ (mu : ℤ) < mtpNmus maxLevel := by
  have hn : mtpNmus maxLevel = (maxLevel - 2) / 4 + 1 := by
    unfold mtpNmus
    rw [Int.tdiv_eq_ediv_of_nonneg (by omega)]
  have hmem : ∀ mu : ℕ, (∃ c ∈ mtpBuild S maxLevel, ∃ p ∈ c, p.1 = mu) ↔ (mu : ℤ) < mtpNmus maxLevel := by
    intro mu
    rw [hn]
    constructor
    · rintro ⟨c, hc, p, hp, rfl⟩
      obtain ⟨_, h2, _⟩ := (C100_combinations_complete S maxLevel c).1 ⟨c, hc, List.Perm.refl _⟩
      have h3 : mtpLevel p ≤ levelSum c := List.le_sum_of_mem (List.mem_map_of_mem hp)
      have h4 : (levelSum c : ℤ) ≤ maxLevel := h2
      have h5 : mtpLevel p = 2 + 4 * p.1 + p.2 := rfl
      omega
    · intro hmu
      obtain ⟨c, hc, hp⟩ := (C100_combinations_complete S maxLevel [(mu, 0)]).2
        ⟨by simp, by simp; omega, Or.inl ⟨(mu, 0), by simp, by simp⟩⟩
      exact ⟨c, hc, (mu, 0), hp.mem_iff.2 (by simp), rfl⟩
  refine ⟨?_, hmem⟩
  unfold mtpNmusCheck
  have e : ((mtpBuild S maxLevel).flatten.map Prod.fst).dedup.length
      = ((mtpBuild S maxLevel).flatten.map Prod.fst).toFinset.card := rfl
  have e2 : ((mtpBuild S maxLevel).flatten.map Prod.fst).toFinset = Finset.range (mtpNmus maxLevel).toNat := by
    ext mu
    rw [List.mem_toFinset, Finset.mem_range, List.mem_map]
    have := hmem mu
    simp only [List.mem_flatten]
    constructor
    · rintro ⟨p, ⟨c, hc, hp⟩, rfl⟩
      have := (hmem p.1).1 ⟨c, hc, p, hp, rfl⟩
      omega
    · intro hmu
      obtain ⟨c, hc, p, hp, rfl⟩ := (hmem mu).2 (by omega)
      exact ⟨p, ⟨c, hc, hp⟩, rfl⟩
  rw [e, e2, Finset.card_range]
  omega

example := C102_nmus NuSort.insertion 8 (by norm_num)
example : mtpNmusCheck (mtpBuild NuSort.insertion 8) = 2 := by decide +kernel

/-! ## C108 -/

/-- C108 fails for every list produced by `MTPLevel`: with `max_level >= 1` it contains the empty
combination, and `remove_duplicates` then reads outside the empty vector. -/
theorem C108_violated_empty (maxLevel : ℤ) (h : 1 ≤ maxLevel) :
    combinations (redundantCombs maxLevel) true = .error .outOfBounds := by
  have hm : [] ∈ redundantCombs maxLevel := by
    rw [mem_redundantCombs]
    refine ⟨?_, by simp [levelSum]; omega⟩
    unfold maxNumM
    simp only [List.length_nil]
    omega
  have he : ∀ cs : List (List (ℕ × ℕ)), [] ∈ cs →
      cs.mapM (fun c => if c = [] then (.error .outOfBounds : Except CErr _) else .ok (dupPushes c))
        = .error .outOfBounds := by
    intro cs
    induction cs with
    | nil => simp
    | cons c cs ih =>
      intro h
      rw [List.mapM_cons]
      by_cases hc : c = []
      · rw [if_pos hc]; rfl
      · rw [if_neg hc]
        have h' : [] ∈ cs := by
          rcases List.mem_cons.1 h with h | h
          · exact absurd h.symm hc
          · exact h
        rw [ok_bind, ih h', error_bind]
  unfold combinations removeDuplicates
  rw [if_pos rfl, he _ hm]
  rfl

/-- C108 fails without empty combinations too: single moments are dropped, three moments in ascending
order are listed twice, and a combination out of order can be kept. -/
theorem C108_violated_lists :
    combinations [[(0, 0)]] true = .ok [] ∧
    combinations [[(0, 0), (0, 1), (0, 1)]] true = .ok [[(0, 0), (0, 1), (0, 1)], [(0, 0), (0, 1), (0, 1)]] ∧
    combinations [[(0, 1), (0, 0), (0, 1)]] true = .ok [[(0, 1), (0, 0), (0, 1)]] := by
  refine ⟨?_, ?_, ?_⟩ <;> rfl

/-- C108 as far as it holds: combinations of two moments are kept, once, exactly when the first has no
larger level than the second and both have the same number of indices, or none. -/
theorem C108_pairs_partial (ps : List ((ℕ × ℕ) × (ℕ × ℕ))) :
    combinations (ps.map (fun e => [e.1, e.2])) true
      = .ok ((ps.filter (fun e => decide (mtpLevel e.1 ≤ mtpLevel e.2 ∧ e.1.2 = e.2.2))).map
          (fun e => [e.1, e.2])) := by
  have h1 : ∀ e : (ℕ × ℕ) × (ℕ × ℕ), dupPushes [e.1, e.2] = if mtpLevel e.1 ≤ mtpLevel e.2 then [[e.1, e.2]] else [] := by
    intro e
    simp [dupPushes]
  have h2 : removeDuplicates (ps.map (fun e => [e.1, e.2]))
      = .ok ((ps.map (fun e => if mtpLevel e.1 ≤ mtpLevel e.2 then [[e.1, e.2]] else [])).flatten) := by
    unfold removeDuplicates
    rw [mapM_map_ok (g := fun c => dupPushes c) (fun c hc => by
      obtain ⟨e, _, rfl⟩ := List.mem_map.1 hc
      simp), ok_bind]
    refine congrArg Except.ok ?_
    rw [List.map_map]
    congr 1
    refine List.map_congr_left ?_
    intro e _
    exact h1 e
  unfold combinations
  rw [if_pos rfl, h2, ok_bind]
  refine congrArg Except.ok ?_
  unfold removeCannotContract
  have h3 : ∀ a b : ℕ × ℕ, [[a, b]].filter
      (fun c => c.all (fun q => q.2 == 0 || c.countP (fun r => r.2 == q.2) % 2 == 0))
      = if a.2 = b.2 then [[a, b]] else [] := by
    intro a b
    by_cases hab : a.2 = b.2
    · simp [hab]
    · have hba : ¬ b.2 = a.2 := fun h => hab h.symm
      by_cases ha : a.2 = 0 <;> by_cases hb : b.2 = 0 <;> simp_all
  clear h2
  induction ps with
  | nil => rfl
  | cons e ps ih =>
    rw [List.map_cons, List.flatten_cons, List.filter_append, ih]
    by_cases hc : mtpLevel e.1 ≤ mtpLevel e.2
    · rw [if_pos hc, h3]
      by_cases hab : e.1.2 = e.2.2
      · simp [hc, hab]
      · simp [hab]
    · simp [hc]

example := C108_violated_empty 8 (by norm_num)
example : combinations [[(0, 1), (1, 1)], [(1, 1), (0, 1)], [(0, 0), (0, 1)]] true = .ok [[(0, 1), (1, 1)]] :=
  C108_pairs_partial [((0, 1), (1, 1)), ((1, 1), (0, 1)), ((0, 0), (0, 1))]

/-! ## C109 -/

/-- C109 fails for every even `max_level`: the combination of `max_level / 2` moments `M_{0,0}` has the
allowed level and is not listed. -/
theorem C109_violated_even (k : ℕ) :
    ((List.replicate k (0, 0)).map (fun p : ℕ × ℕ => 2 + 4 * p.1 + p.2)).sum = 2 * k ∧
    List.replicate k (0, 0) ∉ redundantCombs (2 * k) := by
  refine ⟨by simp [mul_comm], ?_⟩
  rw [mem_redundantCombs]
  rintro ⟨h, _⟩
  rw [List.length_replicate] at h
  unfold maxNumM at h
  omega

/-- C109 as far as it holds: for odd `max_level` every sequence of moments with total level at most
`max_level` is listed exactly once and nothing else is; for even `max_level` the same holds for the
sequences of fewer than `max_level / 2` moments. -/
theorem C109_redundant_partial (maxLevel : ℤ) (x : List (ℕ × ℕ)) :
    (redundantCombs maxLevel).Nodup ∧
    (x ∈ redundantCombs maxLevel ↔
      (((x.map (fun p : ℕ × ℕ => 2 + 4 * p.1 + p.2)).sum : ℕ) : ℤ) ≤ maxLevel ∧
        (Even maxLevel → 2 * (x.length : ℤ) < maxLevel)) := by
  refine ⟨redundantCombs_nodup maxLevel, ?_⟩
  rw [mem_redundantCombs]
  have h1 := two_mul_length_le x
  have h2 : (x.map (fun p : ℕ × ℕ => 2 + 4 * p.1 + p.2)).sum = levelSum x := rfl
  rw [h2]
  unfold maxNumM
  constructor
  · rintro ⟨a, b⟩
    refine ⟨b, fun he => ?_⟩
    obtain ⟨r, hr⟩ := he
    omega
  · rintro ⟨a, b⟩
    refine ⟨?_, a⟩
    by_cases he : Even maxLevel
    · have := b he
      obtain ⟨r, hr⟩ := he
      omega
    · obtain ⟨r, hr⟩ := Int.not_even_iff_odd.1 he
      omega

example : List.replicate 4 ((0, 0) : ℕ × ℕ) ∉ redundantCombs 8 := (C109_violated_even 4).2
example : [((0, 1) : ℕ × ℕ), (1, 0)] ∈ redundantCombs 9 :=
  (C109_redundant_partial 9 _).2.2 ⟨by decide, fun h => absurd h (by decide)⟩

end MaterSDK
