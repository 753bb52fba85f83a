import Verif.Lemmas.MtpBlocks
import Verif.Props.MtpParam

/-! # C117: the blocks every program loses -/

namespace MaterSDK

/-- C117: a program of safe operations that destroys all its objects leaves as many blocks as its assignments replaced
tables of length 0 that had a block by tables that are not empty. -/
theorem C117_exact {ops : List MtpOp} {v : List (Option MtpTables)} (hs : SafeRun [] ops)
    (hv : valueRun [] ops = some v) (hd : ∀ x ∈ v, x = none) :
    ∃ s, mtpRun ⟨[], []⟩ ops = .ok s ∧ s.heap.countP Option.isSome = lostRun [] [] ops := by
  obtain ⟨s, e, inv, c⟩ := run_count stateInv_nil hs hv
  refine ⟨s, e, ?_⟩
  have h0 : wtPool (poolBlocks s.pool) = 0 := by
    unfold wtPool
    rw [List.sum_eq_zero]
    intro n hn
    obtain ⟨b, hb, rfl⟩ := List.mem_map.1 hn
    obtain ⟨o, ho, rfl⟩ := List.mem_map.1 hb
    cases o with
    | none => rfl
    | some o =>
      obtain ⟨i, hi⟩ := List.mem_iff_getElem?.1 ho
      obtain ⟨t, ht, -⟩ := inv_value inv hi
      cases hvi : v[i]? with
      | none => rw [hvi] at ht; cases ht
      | some x =>
        rw [hvi, hd x (List.mem_of_getElem? hvi)] at ht
        cases ht
  have e1 : wtPool (poolBlocks []) = 0 := rfl
  have e2 : liveCount [] = 0 := rfl
  dsimp only at c
  rw [h0, e1, e2] at c
  simpa [liveCount, poolBlocks] using c

/-- C117: such a program leaves no block allocated exactly if it makes no assignment of that kind. -/
theorem C117_all_freed_iff {ops : List MtpOp} {v : List (Option MtpTables)} (hs : SafeRun [] ops)
    (hv : valueRun [] ops = some v) (hd : ∀ x ∈ v, x = none) :
    (∃ s, mtpRun ⟨[], []⟩ ops = .ok s ∧ ∀ b ∈ s.heap, b = none) ↔ lostRun [] [] ops = 0 := by
  obtain ⟨s, e, c⟩ := C117_exact hs hv hd
  rw [← c, List.countP_eq_zero]
  constructor
  · rintro ⟨s', e', h⟩ b hb
    rw [e] at e'
    cases e'
    simp [h b hb]
  · intro h
    refine ⟨s, e, fun b hb => ?_⟩
    have := h b hb
    simpa using this

/-- The program of `C117_block_lost` loses one block. -/
example : lostRun [] [] [.load ⟨1, 1, [(0, 0, 0, 0)], 0, [], 1, [0]⟩, .copy 0, .load sampleTables, .assign 1 2,
    .destroy 0, .destroy 1, .destroy 2] = 1 := by decide +kernel

/-- Without the copy the object has no block for the empty table, and nothing is lost. -/
example : lostRun [] [] [.load ⟨1, 1, [(0, 0, 0, 0)], 0, [], 1, [0]⟩, .load sampleTables, .assign 0 1,
    .destroy 0, .destroy 1] = 0 := by decide +kernel

end MaterSDK
