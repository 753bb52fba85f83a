import Mathlib.Data.List.Nodup
import Verif.Py.Basic

/-! # Dictionary look-ups -/

namespace MaterSDK

theorem pyDictGet_ok {α β : Type} [DecidableEq α] {d : List (α × β)}
    (hd : (d.map Prod.fst).Nodup) (k : α) (v : β) : pyDictGet d k = .ok v ↔ (k, v) ∈ d := by
  unfold pyDictGet
  constructor
  · intro h
    split at h
    · rename_i p hp
      have h1 := List.mem_of_find?_eq_some hp
      have h2 := List.find?_some hp
      simp at h2 h h1
      rw [← h2, ← h]; exact h1
    · cases h
  · intro h
    split
    · rename_i p hp
      have h1 := List.mem_of_find?_eq_some hp
      have h2 := List.find?_some hp
      simp at h2 h1
      have : p = (k, v) := List.inj_on_of_nodup_map hd h1 h (by simp [h2])
      rw [this]
    · rename_i hp
      rw [List.find?_eq_none] at hp
      exact absurd (by simp) (hp (k, v) (by simpa using h))

theorem pyDictGet_err {α β : Type} [DecidableEq α] (d : List (α × β)) (k : α) :
    pyDictGet d k = .error .keyError ↔ ∀ v, (k, v) ∉ d := by
  unfold pyDictGet
  split
  · rename_i p hp
    have h1 := List.mem_of_find?_eq_some hp
    have h2 := List.find?_some hp
    simp at h2 h1
    simp only [reduceCtorEq, false_iff, not_forall, not_not]
    exact ⟨p.2, by rw [← h2]; exact h1⟩
  · rename_i hp
    rw [List.find?_eq_none] at hp
    simp only [true_iff]
    intro v hv
    exact absurd (by simp) (hp (k, v) (by simpa using hv))

end MaterSDK
