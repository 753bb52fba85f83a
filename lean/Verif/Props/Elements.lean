import Verif.Lemmas.ElementsAux
import Verif.Model.Elements
import Verif.Spec.Elements
import Verif.Lemmas.Dict

/-! # C05: element tables -/

namespace MaterSDK



/-- C05: number to symbol is the periodic table, and a `KeyError` outside 0..118. -/
theorem C05_specieOf (n : Int) :
    (∀ s, specieOf n = .ok s ↔ 0 ≤ n ∧ periodicTable[n.toNat]? = some s) ∧
    (specieOf n = .error .keyError ↔ n < 0 ∨ 118 < n) := by
  have hk : (numberSpecieTable.map Prod.fst).Nodup := by decide +kernel
  have hmem : ∀ k s, (k, s) ∈ numberSpecieTable ↔ periodicTable[k]? = some s := by
    intro k s
    rw [numberSpecieTable_eq]
    simp [List.mem_zipIdx_iff_getElem?]
  have hlen : periodicTable.length = 119 := by decide +kernel
  unfold specieOf
  split
  · rename_i h
    refine ⟨fun s => ⟨fun e => by (cases e), fun e => by omega⟩, by simp [h]⟩
  · rename_i h
    refine ⟨fun s => ?_, ?_⟩
    · rw [pyDictGet_ok hk, hmem]
      exact ⟨fun e => ⟨by omega, e⟩, fun e => e.2⟩
    · rw [pyDictGet_err]
      constructor
      · intro hv
        right
        by_contra hc
        have hlt : n.toNat < periodicTable.length := by rw [hlen]; omega
        exact hv _ ((hmem _ _).2 (List.getElem?_eq_getElem hlt))
      · rintro (h1 | h1) v hv
        · omega
        · rw [hmem] at hv
          have := (List.getElem?_eq_some_iff.1 hv).1
          rw [hlen] at this; omega

/-- C05: symbol to number is the periodic table, and a `KeyError` for every other string. -/
theorem C05_numberOf (s : Str) :
    (∀ k, numberOf s = .ok k ↔ periodicTable[k]? = some s) ∧
    (numberOf s = .error .keyError ↔ s ∉ periodicTable) := by
  have hk : (specieNumberTable.map Prod.fst).Nodup := by
    rw [specieNumberTable_eq]; simpa using periodicTable_nodup
  have hmem : ∀ k, (s, k) ∈ specieNumberTable ↔ periodicTable[k]? = some s := by
    intro k
    rw [specieNumberTable_eq, List.mem_zipIdx_iff_getElem?]
  refine ⟨fun k => by unfold numberOf; rw [pyDictGet_ok hk, hmem], ?_⟩
  unfold numberOf
  rw [pyDictGet_err]
  simp only [hmem]
  rw [List.mem_iff_getElem?]
  push Not
  rfl

/-- C05: the two tables are inverse to each other, in both directions. -/
theorem C05_inverse (k : Nat) (s : Str) :
    specieOf (k : Int) = .ok s ↔ numberOf s = .ok k := by
  rw [(C05_specieOf k).1 s, (C05_numberOf s).1 k]
  simp

/-- C05: no two numbers share a symbol. -/
theorem C05_injective (i j : Int) (s : Str) (hi : specieOf i = .ok s) (hj : specieOf j = .ok s) :
    i = j := by
  have h1 := ((C05_specieOf i).1 s).1 hi
  have h2 := ((C05_specieOf j).1 s).1 hj
  have e1 : specieOf (i.toNat : Int) = .ok s := by rw [Int.toNat_of_nonneg h1.1]; exact hi
  have e2 : specieOf (j.toNat : Int) = .ok s := by rw [Int.toNat_of_nonneg h2.1]; exact hj
  rw [C05_inverse] at e1 e2
  rw [e1] at e2
  have : i.toNat = j.toNat := by injection e2
  omega

example : specieOf 26 = .ok (chars% "Fe") ∧ numberOf (chars% "Fe") = .ok 26 ∧
    specieOf 119 = .error .keyError ∧ numberOf (chars% "fe") = .error .keyError := by decide +kernel

end MaterSDK
