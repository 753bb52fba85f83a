import Verif.Model.Factory
import Verif.Lemmas.Dict
import Verif.Lemmas.Except

/-! # Lemmas on the factories -/

namespace MaterSDK

theorem pyDictGet_dictSet {α β : Type} [DecidableEq α] (d : List (α × β)) (k k' : α) (v : β) :
    pyDictGet (dictSet d k v) k' = if k = k' then .ok v else pyDictGet d k' := by
  unfold dictSet
  split
  · rename_i hk
    unfold pyDictGet
    rw [← List.map_reverse, List.find?_map]
    have hp : ((fun p : α × β => decide (p.1 = k')) ∘ fun p => if p.1 = k then (k, v) else p)
        = fun p => decide (p.1 = k') := by
      funext p
      by_cases h : p.1 = k <;> simp [Function.comp, h]
    rw [hp]
    cases hf : d.reverse.find? (fun p => decide (p.1 = k')) with
    | none =>
      rw [if_neg]
      · rfl
      · rintro rfl
        obtain ⟨p, hp1, hp2⟩ := List.mem_map.1 hk
        have := List.find?_eq_none.1 hf p (List.mem_reverse.2 hp1)
        simp [hp2] at this
    | some p =>
      have hpk : p.1 = k' := by simpa using List.find?_some hf
      by_cases h : k = k'
      · subst h; simp [hpk]
      · rw [if_neg h]
        simp only [Option.map_some]
        rw [if_neg (by rw [hpk]; exact fun e => h e.symm)]
  · unfold pyDictGet
    rw [List.reverse_append, List.reverse_singleton, List.singleton_append, List.find?_cons]
    by_cases h : k = k'
    · simp [h]
    · simp [h]

end MaterSDK
