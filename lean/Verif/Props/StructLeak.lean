import Verif.Lemmas.StructLeak
import Verif.Props.StructObj

/-! # Exactly which programs lose arrays: C129 -/

namespace MaterSDK

/-- C129, every program: besides the arrays of the living structures exactly one block stays allocated for each
supercell with a factor 0. So a program which destroys all its structures frees everything iff it makes no such
supercell. -/
theorem C129_exact (ops : List (ObjOp Unit CStruct)) (s : ObjState Unit CStruct)
    (hs : objRun structureClass ops = .ok s) :
    liveBlocks s.heap = shownArrays s.view + zeroFactors ops ∧
      ((∀ o ∈ s.view, o = none) → (liveBlocks s.heap = 0 ↔ zeroFactors ops = 0)) := by
  obtain ⟨L, hi, hL⟩ := objRun_count structureClass ops _ s [] (objInv_start _) hs
  have h : liveBlocks s.heap = shownArrays s.view + zeroFactors ops := by
    rw [countP_live _ _ hi.owns, List.length_append, allPtrs_length, hL, List.length_nil, Nat.zero_add]
  refine ⟨h, fun hn => ?_⟩
  have h0 : shownArrays s.view = 0 := by
    unfold shownArrays
    rw [List.sum_eq_zero]
    intro n hn'
    obtain ⟨o, ho, rfl⟩ := List.mem_map.1 hn'
    rw [hn o ho]
    rfl
  rw [h, h0, Nat.zero_add]

/-- A program which loses one of two blocks. -/
example : ∃ s, objRun structureClass
      [.make [((), oneAtom)], .copy 0, .supercell 0 ![2, 0, 1], .destroy 0, .destroy 1] = .ok s ∧
    liveBlocks s.heap = 1 := by
  have hs : objRun structureClass
      [.make [((), oneAtom)], .copy 0, .supercell 0 ![2, 0, 1], .destroy 0, .destroy 1] =
        .ok ⟨[some (.val oneAtom), none], [none, none]⟩ := rfl
  refine ⟨_, hs, ?_⟩
  rw [(C129_exact _ _ hs).1]
  rfl

end MaterSDK
