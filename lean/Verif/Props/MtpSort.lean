import Verif.Lemmas.MtpSort
import Mathlib.Tactic.IntervalCases

/-! # Building the list of combinations: property C172 -/

namespace MaterSDK

/-! ## C172 -/

/-- C172 fails from level 9 on, whatever `std::sort` does to sort: at level 9 the moments (1, 0) and
(0, 1) have to change places, which calls `MtpMCoeffPair::operator=`. -/
theorem C172_violated_level_nine (S : PairSort) (maxLevel : ℤ) (h : 9 ≤ maxLevel) :
    combsMake S maxLevel = .error .undefined := by
  refine combsMake_undefined S maxLevel 9 (by exact_mod_cast h) ?_
  refine schemesRun_undefined S 9 9 0 0 (0, 1) [(1, 0)] (by decide) (by decide) (by decide) (by decide) ?_ ?_
  · show [(1, 0)] ∈ schemesAux S.toNuSort 9 6 0 1
    unfold schemesAux
    rw [if_neg (by decide), List.mem_flatMap]
    refine ⟨1, by decide, List.mem_flatMap.2 ⟨0, by decide, ?_⟩⟩
    rw [if_neg (by decide), if_pos (by decide)]
    show [(1, 0)] ∈ (schemesAux S.toNuSort 8 0 1 0).map _
    unfold schemesAux
    simp [S.toNuSort.single]
  · refine S.moves _ ?_
    intro he
    have := S.sorted [(1, 0), (0, 1)]
    rw [show ([(1, 0)] ++ [(0, 1)] : List (ℕ × ℕ)) = [(1, 0), (0, 1)] from rfl] at he
    rw [he] at this
    simp at this

/-- C172 fails from level 4 on for a sort that assigns whenever there are two elements, as the insertion
sort of libstdc++ does (`__unguarded_linear_insert` ends with an assignment). -/
theorem C172_violated_two_moments (S : PairSort) (hS : ∀ l, 2 ≤ l.length → S.assigns l ≠ 0) (maxLevel : ℤ)
    (h : 4 ≤ maxLevel) : combsMake S maxLevel = .error .undefined := by
  refine combsMake_undefined S maxLevel 4 (by exact_mod_cast h) ?_
  refine schemesRun_undefined S 4 4 0 0 (0, 0) [(0, 0)] (by decide) (by decide) (by decide) (by decide) ?_
    (hS _ (by decide))
  show [(0, 0)] ∈ schemesAux S.toNuSort 4 2 0 0
  unfold schemesAux
  rw [if_neg (by decide), List.mem_flatMap]
  refine ⟨0, by decide, List.mem_flatMap.2 ⟨0, by decide, ?_⟩⟩
  rw [if_neg (by decide), if_pos (by decide)]
  show [(0, 0)] ∈ (schemesAux S.toNuSort 3 0 0 0).map _
  unfold schemesAux
  simp [S.toNuSort.single]

/-- C172 as far as it holds: up to level 3 the constructor comes back with the combinations of C100, and
whenever it comes back it has these. -/
theorem C172_small_partial (S : PairSort) (maxLevel : ℤ) :
    (maxLevel ≤ 3 → combsMake S maxLevel = .ok (mtpBuild S.toNuSort maxLevel)) ∧
    ∀ r, combsMake S maxLevel = .ok r → r = mtpBuild S.toNuSort maxLevel := by
  have key : ∀ r, combsMake S maxLevel = .ok r → r = mtpBuild S.toNuSort maxLevel := by
    intro r h
    unfold combsMake at h
    obtain ⟨parts, hp, h⟩ := bind_eq_ok.1 h
    rw [← Except.ok.inj h]
    rw [mapM_eq_ok] at hp
    unfold mtpBuild allSchemes
    refine forall₂_flatten hp ?_
    intro ii q hq
    obtain ⟨t, ht, hq⟩ := bind_eq_ok.1 hq
    rw [← Except.ok.inj hq, schemesRun_ok S _ _ _ _ _ ht]
  refine ⟨?_, key⟩
  intro h
  have hrun : ∀ p, S.run [p] = .ok [p] := by
    intro p
    unfold PairSort.run
    rw [if_pos (S.short _ (by simp)), S.toNuSort.single]
  have hl : ∀ ii : ℕ, ii ≤ 3 → ∃ r, schemesRun S (ii + 1) ii 0 0 = .ok r := by
    intro ii hii
    interval_cases ii
    · exact ⟨_, rfl⟩
    · exact ⟨[], by simp [schemesRun, mtpLevel, List.range_succ, pure, Except.pure, bind, Except.bind]⟩
    · refine ⟨[[(0, 0)]], ?_⟩
      simp [schemesRun, mtpLevel, List.range_succ, pure, Except.pure, bind, Except.bind, hrun]
    · refine ⟨[[(0, 1)]], ?_⟩
      simp [schemesRun, mtpLevel, List.range_succ, pure, Except.pure, bind, Except.bind, hrun]
  cases hc : combsMake S maxLevel with
  | ok r => rw [key r hc]
  | error e =>
    exfalso
    unfold combsMake at hc
    cases hm : ((List.range (maxLevel + 1).toNat).mapM (fun ii => do
        let tmp ← schemesRun S (ii + 1) ii 0 0
        return contractedCombs tmp) : Except CErr _) with
    | ok ps => rw [hm] at hc; cases hc
    | error e' =>
      obtain ⟨k, hk, hk'⟩ := mapM_eq_error hm
      rw [List.mem_range] at hk
      obtain ⟨r, hr⟩ := hl k (by omega)
      rw [hr] at hk'
      cases hk'

example := C172_violated_level_nine exPairSort 12 (by decide)
example := C172_violated_two_moments exPairSort2 (fun l h => by show l.length - 1 ≠ 0; omega) 8 (by decide)
example : combsMake exPairSort 3 = .ok [[(0, 0)]] := by
  rw [(C172_small_partial exPairSort 3).1 (by decide)]
  decide

end MaterSDK
