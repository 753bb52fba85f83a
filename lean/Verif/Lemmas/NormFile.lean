import Verif.Model.NormFile
import Verif.Lemmas.Dict
import Verif.Lemmas.Except

/-! # Reading one data set of a normaliser file -/

namespace MaterSDK

theorem getReal_ok (f : NormFile) (hf : (f.map Prod.fst).Nodup) (k : Str) (x : ℝ) :
    f.getReal k = .ok x ↔ (k, .real x) ∈ f := by
  rw [← pyDictGet_ok hf]
  unfold NormFile.getReal
  rw [bind_eq_ok]
  constructor
  · rintro ⟨v, hv, h⟩
    rw [hv]
    cases v <;> cases h
    rfl
  · intro h
    exact ⟨_, h, rfl⟩

theorem getNumbers_ok (f : NormFile) (hf : (f.map Prod.fst).Nodup) (k : Str) (x : List ℕ) :
    f.getNumbers k = .ok x ↔ (k, .numbers x) ∈ f := by
  rw [← pyDictGet_ok hf]
  unfold NormFile.getNumbers
  rw [bind_eq_ok]
  constructor
  · rintro ⟨v, hv, h⟩
    rw [hv]
    cases v <;> cases h
    rfl
  · intro h
    exact ⟨_, h, rfl⟩

theorem getInts_ok (f : NormFile) (hf : (f.map Prod.fst).Nodup) (k : Str) (x : List ℤ) :
    f.getInts k = .ok x ↔ (k, .ints x) ∈ f := by
  rw [← pyDictGet_ok hf]
  unfold NormFile.getInts
  rw [bind_eq_ok]
  constructor
  · rintro ⟨v, hv, h⟩
    rw [hv]
    cases v <;> cases h
    rfl
  · intro h
    exact ⟨_, h, rfl⟩

theorem getTable_ok (f : NormFile) (hf : (f.map Prod.fst).Nodup) (k : Str) (x : List (Fin 4 → ℝ)) :
    f.getTable k = .ok x ↔ (k, .table x) ∈ f := by
  rw [← pyDictGet_ok hf]
  unfold NormFile.getTable
  rw [bind_eq_ok]
  constructor
  · rintro ⟨v, hv, h⟩
    rw [hv]
    cases v <;> cases h
    rfl
  · intro h
    exact ⟨_, h, rfl⟩

end MaterSDK
