import Verif.Lemmas.FolderNames
import Verif.Props.Dataset

/-! # C38, C39, C202: the names of the folders of a data set -/

namespace MaterSDK

/-- C39: the set folders are numbered from 0 in the order of the frames, and no two have the same name, so
none is overwritten by a later one. -/
theorem C39_names (c : StructCollection) (size : ℤ) (tm ty : List Str) (sets : List SetDir)
    (h : c.to size = .ok (tm, ty, sets)) :
    Numbered (chars% "set.") (sets.map SetDir.name) ∧ (sets.map SetDir.name).Nodup := by
  obtain ⟨f, rest, k, _, _, _, _, _, _, he⟩ := coll_to_ok h
  have hn : Numbered (chars% "set.") (sets.map SetDir.name) := by
    refine numbered_of fun i nm hi => ?_
    simp only at he
    rw [he] at hi
    simp only [List.map_map, List.getElem?_map, Option.map_eq_some_iff, Function.comp] at hi
    obtain ⟨j, hj, rfl⟩ := hi
    obtain ⟨_, rfl⟩ := List.getElem?_eq_some_iff.1 hj
    simp [setName]
  exact ⟨hn, numbered_nodup hn⟩

/-- C38: likewise for the part folders of a data set. -/
theorem C38_names (s : InfoSet) (existing : List Str) (ps : Option ℤ) (w : Written)
    (h : s.toDir existing ps = .ok w) :
    Numbered (chars% "part.") (w.parts.map Prod.fst) ∧ (w.parts.map Prod.fst).Nodup := by
  obtain ⟨bounds, _, _, rfl⟩ := toDir_parts h
  have hn : Numbered (chars% "part.") ((bounds.zipIdx.map (fun p => (partName p.2,
      s.arrays.map (fun a => (a.1, a.2.slice p.1.1.toNat p.1.2.toNat))))).map Prod.fst) := by
    refine numbered_of fun i nm hi => ?_
    simp only [List.map_map, List.getElem?_map, Option.map_eq_some_iff, Function.comp,
      List.getElem?_zipIdx] at hi
    obtain ⟨_, ⟨b, _, rfl⟩, rfl⟩ := hi
    simp [partName]
  exact ⟨hn, numbered_nodup hn⟩

/-! ## C202 -/

/-- C202: the names of the set folders, sorted as texts, are in the order of the frames exactly if there are
at most 1000 of them.
Partial: with 1001 sets or more the order is another one. -/
theorem C202_sets_partial (c : StructCollection) (size : ℤ) (tm ty : List Str) (sets : List SetDir)
    (h : c.to size = .ok (tm, ty, sets)) :
    (sets.map SetDir.name).Pairwise (· < ·) ↔ sets.length ≤ 1000 := by
  obtain ⟨f, rest, k, _, _, _, _, _, _, he⟩ := coll_to_ok h
  rw [numbered_sorted (pre := chars% "set."), List.length_map]
  intro i nm hi
  simp only at he
  rw [he] at hi
  simp only [List.map_map, List.getElem?_map, Option.map_eq_some_iff, Function.comp] at hi
  obtain ⟨j, hj, rfl⟩ := hi
  obtain ⟨_, rfl⟩ := List.getElem?_eq_some_iff.1 hj
  simp [setName]

/-- C202: likewise for the part folders of a data set. -/
theorem C202_parts_partial (s : InfoSet) (existing : List Str) (ps : Option ℤ) (w : Written)
    (h : s.toDir existing ps = .ok w) :
    (w.parts.map Prod.fst).Pairwise (· < ·) ↔ w.parts.length ≤ 1000 := by
  obtain ⟨bounds, _, _, rfl⟩ := toDir_parts h
  rw [numbered_sorted (pre := chars% "part."), List.length_map]
  intro i nm hi
  simp only [List.map_map, List.getElem?_map, Option.map_eq_some_iff, Function.comp,
    List.getElem?_zipIdx] at hi
  obtain ⟨_, ⟨b, _, rfl⟩, rfl⟩ := hi
  simp [partName]

/-- C202, in terms of the frames: with a set size `p ≥ 1` the order of the names is that of the frames
exactly if there are at most `1000 p` frames. -/
theorem C202_frames (c : StructCollection) (p : ℕ) (hp : 1 ≤ p) (tm ty : List Str) (sets : List SetDir)
    (h : c.to p = .ok (tm, ty, sets)) :
    (sets.map SetDir.name).Pairwise (· < ·) ↔ c.frames.length ≤ 1000 * p := by
  rw [C202_sets_partial c p tm ty sets h]
  obtain ⟨f, rest, k, _, _, _, hk, _, _, he⟩ := coll_to_ok h
  have hlen : sets.length = k.toNat := by simp only at he; rw [he]; simp
  unfold numSets at hk
  rw [if_neg (by omega)] at hk
  have hk := Except.ok.inj hk
  rw [hlen, ← hk, Int.fdiv_eq_ediv_of_nonneg _ (by omega)]
  have h1 : ((c.frames.length : ℤ) / (p : ℤ)) = ((c.frames.length / p : ℕ) : ℤ) := by simp
  rw [h1]
  have h2 := Nat.div_add_mod c.frames.length p
  have h3 := Nat.mod_lt c.frames.length (show p > 0 by omega)
  generalize c.frames.length / p = q at *
  generalize c.frames.length % p = r at *
  split
  · rename_i hlt
    have hr : 0 < r := by
      have : p * q < c.frames.length := by exact_mod_cast hlt
      omega
    have e : ((q : ℤ) + 1).toNat = q + 1 := by omega
    rw [e]
    constructor
    · intro hq
      have : p * q ≤ p * 999 := Nat.mul_le_mul_left _ (by omega)
      omega
    · intro hq
      by_contra hn
      have : p * 1000 ≤ p * q := Nat.mul_le_mul_left _ (by omega)
      omega
  · rename_i hlt
    have hr : r = 0 := by
      by_contra hr
      exact hlt (by exact_mod_cast (show p * q < c.frames.length by omega))
    rw [Int.toNat_natCast]
    constructor
    · intro hq
      have : p * q ≤ p * 1000 := Nat.mul_le_mul_left _ hq
      omega
    · intro hq
      by_contra hn
      have : p * 1001 ≤ p * q := Nat.mul_le_mul_left _ (by omega)
      omega

/-- C202, negation: set 1000 comes before set 101. -/
theorem C202_violated : setName 1000 < setName 101 ∧ partName 1000 < partName 101 := by decide +kernel

/-- A collection with three sets, and its names in order. -/
example : ((⟨[⟨[], [], [], [], []⟩, ⟨[], [], [], [], []⟩, ⟨[], [], [], [], []⟩], [1, 2, 3], [], [],
    [[], [], []]⟩ : StructCollection).to 1).map (fun o => o.2.2.map SetDir.name) =
    .ok [chars% "set.000", chars% "set.001", chars% "set.002"] := by decide +kernel

example : (sampleSet.toDir [] (some 2)).map (fun w => w.parts.map Prod.fst) =
    .ok [chars% "part.000", chars% "part.001", chars% "part.002"] := by decide +kernel

end MaterSDK
