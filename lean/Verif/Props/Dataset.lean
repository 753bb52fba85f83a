import Verif.Lemmas.DatasetAux
import Verif.Lemmas.DatasetRead
import Verif.Props.Trajectory

/-!
# C38 - C43, C65: data sets
-/

namespace MaterSDK



/-! ## C38 -/

/-- C38: `to_dir` with a part size `p ≥ 1` cuts every array of the set into consecutive pieces of `p`
rows (the last one possibly shorter, none empty), and the `k`-th part folder holds the `k`-th piece
of every array. (Every array has one row per frame, see `C65_fields`.) -/
theorem C38_parts (s : InfoSet) (existing : List Str) (p : Nat) (hp : 1 ≤ p) (w : Written)
    (h : s.toDir existing (some p) = .ok w) :
    (∀ nm r, (nm, Rows.nums r) ∈ s.arrays → r.length = s.numFrames → ∃ cs, Chunks p r cs ∧
      cs.length = w.parts.length ∧ ∀ k c, cs[k]? = some c →
        ∃ files, w.parts[k]? = some (partName k, files) ∧ (nm, Rows.nums c) ∈ files) ∧
    (∀ nm r, (nm, Rows.ints r) ∈ s.arrays → r.length = s.numFrames → ∃ cs, Chunks p r cs ∧
      cs.length = w.parts.length ∧ ∀ k c, cs[k]? = some c →
        ∃ files, w.parts[k]? = some (partName k, files) ∧ (nm, Rows.ints c) ∈ files) ∧
    ∀ k name files, w.parts[k]? = some (name, files) →
      name = partName k ∧ files.map Prod.fst = s.arrays.map Prod.fst := by
  obtain ⟨bounds, hb, _, rfl⟩ := toDir_parts h
  rw [partBounds_some _ _ hp] at hb
  have hb := Except.ok.inj hb
  subst hb
  refine ⟨?_, ?_, ?_⟩
  · intro nm r hm hl
    obtain ⟨cs, h1, h2, h3⟩ := cut_parts Rows.nums (fun _ _ _ => rfl) s nm r hm p hp hl
    exact ⟨cs, h1, by simp [h2], h3⟩
  · intro nm r hm hl
    obtain ⟨cs, h1, h2, h3⟩ := cut_parts Rows.ints (fun _ _ _ => rfl) s nm r hm p hp hl
    exact ⟨cs, h1, by simp [h2], h3⟩
  · intro k name files hk
    rw [List.getElem?_map, List.getElem?_zipIdx] at hk
    cases hbk : ((cutBounds s.numFrames p).map (fun b => ((b.1 : Int), (b.2 : Int))))[k]? with
    | none => rw [hbk] at hk; cases hk
    | some b =>
      rw [hbk] at hk
      have hk := Prod.mk.inj (Option.some.inj hk)
      refine ⟨by rw [← hk.1]; simp, ?_⟩
      rw [← hk.2]
      simp

/-- C38: the arrays written are all those of the set, under different file names; an optional array
is written exactly when the set has it. -/
theorem C38_files (s : InfoSet) :
    (chars% "box.npy", Rows.nums s.box) ∈ s.arrays ∧ (chars% "types.npy", Rows.ints s.types) ∈ s.arrays ∧
    (chars% "coord.npy", Rows.nums s.coord) ∈ s.arrays ∧ (chars% "etot.npy", Rows.nums s.etot) ∈ s.arrays ∧
    (chars% "fatom.npy", Rows.nums s.fatom) ∈ s.arrays ∧
    (∀ r, (chars% "virial.npy", r) ∈ s.arrays ↔ ∃ a, s.virial = some a ∧ r = Rows.nums a) ∧
    (∀ r, (chars% "eatom.npy", r) ∈ s.arrays ↔ ∃ a, s.eatom = some a ∧ r = Rows.nums a) ∧
    (∀ r, (chars% "magmoms", r) ∈ s.arrays ↔ ∃ a, s.magmom = some a ∧ r = Rows.nums a) ∧
    (s.arrays.map Prod.fst).Nodup := by
  unfold InfoSet.arrays
  refine ⟨by simp, by simp, by simp, by simp, by simp, ?_, ?_, ?_, ?_⟩
  · intro r; cases s.virial <;> cases s.eatom <;> cases s.magmom <;> simp
  · intro r; cases s.virial <;> cases s.eatom <;> cases s.magmom <;> simp
  · intro r; cases s.virial <;> cases s.eatom <;> cases s.magmom <;> simp
  · cases s.virial <;> cases s.eatom <;> cases s.magmom <;> simp

/-- C38, without a part size: one part with everything (none for an empty set). -/
theorem C38_default_single_part (s : InfoSet) (existing : List Str) (w : Written)
    (h : s.toDir existing none = .ok w) (hlen : s.numFrames ≠ 0)
    (hrows : ∀ nm r, (nm, r) ∈ s.arrays → (match r with
      | .nums l => l.length = s.numFrames
      | .ints l => l.length = s.numFrames)) :
    w.parts = [(partName 0, s.arrays)] := by
  obtain ⟨bounds, hb, _, rfl⟩ := toDir_parts h
  rw [partBounds_none, if_neg hlen] at hb
  have hb := Except.ok.inj hb
  subst hb
  simp only [List.zipIdx_cons, List.zipIdx_nil, List.map_cons, List.map_nil]
  congr 2
  conv_rhs => rw [← List.map_id s.arrays]
  apply List.map_congr_left
  rintro ⟨nm, r⟩ hm
  have := hrows nm r hm
  cases r with
  | nums l =>
    simp only at this
    simp [Rows.slice, pySlice, ← this]
  | ints l =>
    simp only at this
    simp [Rows.slice, pySlice, ← this]

/-- C38: a part size of 0 and an already existing folder are errors, never silent losses. -/
theorem C38_rejected (s : InfoSet) (existing : List Str) (ps : Option Int) :
    s.toDir existing (some 0) = .error .zeroDivision ∧
    (ps ≠ some 0 → s.formula ∈ existing → s.toDir existing ps = .error .osError) := by
  refine ⟨rfl, ?_⟩
  intro h0 hf
  unfold InfoSet.toDir
  cases hb : partBounds s.numFrames ps with
  | error e =>
    unfold partBounds at hb
    split at hb
    · cases hb
    · split at hb
      · rename_i p hp; exact absurd (by rw [hp]) h0
      · cases hb
  | ok b => rw [ok_bind, if_pos hf]

/-- C38, outside the property's range: a negative part size of at most the number of frames is
accepted and writes the folder without any part: every frame is lost without an error. -/
theorem C38_negative_size_loses_everything (s : InfoSet) (existing : List Str) (p : Int) (hp : p < 0)
    (hn : -p ≤ s.numFrames) (hf : s.formula ∉ existing) :
    ∃ w, s.toDir existing (some p) = .ok w ∧ w.parts = [] := by
  unfold InfoSet.toDir
  rw [partBounds_neg _ _ hp, if_neg (by omega), ok_bind, if_neg hf]
  exact ⟨_, rfl, rfl⟩

/-- C38: different parts are written to different folders. -/
theorem C38_part_names (i j : Nat) (h : i ≠ j) : partName i ≠ partName j :=
  fun e => h (partName_inj i j e)

/-- A set of five frames. -/
def sampleSet : InfoSet where
  box := [[1], [2], [3], [4], [5]]
  types := [[0], [0], [0], [0], [0]]
  coord := [[1], [2], [3], [4], [5]]
  etot := [[1], [2], [3], [4], [5]]
  fatom := [[1], [2], [3], [4], [5]]
  formulaDict := [(chars% "Si", 1)]
  formula := chars% "Si1"
  numFrames := 5
  virial := none
  eatom := none
  magmom := none

example : (sampleSet.toDir [] (some 2)).map (fun w => w.parts.map (fun q => (q.1, q.2.take 1))) =
    .ok [(chars% "part.000", [(chars% "box.npy", .nums [[1], [2]])]),
      (chars% "part.001", [(chars% "box.npy", .nums [[3], [4]])]),
      (chars% "part.002", [(chars% "box.npy", .nums [[5]])])] := by decide +kernel
example : (sampleSet.toDir [] (some (-2))).map (fun w => w.parts) = .ok [] := by decide +kernel
example : sampleSet.toDir [chars% "Si1"] (some 2) = .error .osError := by decide +kernel

/-! ## C39 -/

/-- C39: `StructCollection.to` with a set size `p ≥ 1` cuts the frames into consecutive sets of `p`
(the last one possibly shorter, none empty), all arrays with the same bounds, so row `i` of every
array of a set is of the same frame. A virial or atomic energy array is written in all sets or in
none. -/
theorem C39_sets (c : StructCollection) (p : Nat) (hp : 1 ≤ p) (tm ty : List Str)
    (sets : List SetDir) (h : c.to p = .ok (tm, ty, sets)) :
    Chunks p (c.frames.map FrameData.box) (sets.map SetDir.cell) ∧
    Chunks p (c.frames.map FrameData.coord) (sets.map SetDir.coord) ∧
    Chunks p (c.etot.map (fun x => [x])) (sets.map SetDir.energy) ∧
    Chunks p (c.frames.map FrameData.force) (sets.map SetDir.force) ∧
    ((∀ s ∈ sets, s.virial = none) ∧ (∀ r ∈ c.virial, ∀ x ∈ r, x = 0) ∨
      ∃ vs, sets.map SetDir.virial = vs.map some ∧ Chunks p c.virial vs) ∧
    ((∀ s ∈ sets, s.eatom = none) ∧ (∀ f ∈ c.frames, ∀ x ∈ f.eatom, x = 0) ∨
      ∃ vs, sets.map SetDir.eatom = vs.map some ∧ Chunks p (c.frames.map FrameData.eatom) vs) ∧
    ∀ k s, sets[k]? = some s → s.name = setName k := by
  obtain ⟨f, rest, k, hf, hl1, hl2, hk, _, _, hs⟩ := coll_to_ok h
  rw [numSets_eq _ _ hp] at hk
  have hk := Except.ok.inj hk
  subst hk
  simp only [Int.toNat_natCast] at hs
  have hlen : sets.length = (cutBounds c.frames.length p).length := by rw [hs]; simp
  have hget : ∀ (i : Nat) b, sets[i]? = some b →
      b.name = setName i ∧
      b.cell = sliceI (c.frames.map FrameData.box) ((i : Int) * p) (((i : Int) + 1) * p) ∧
      b.coord = sliceI (c.frames.map FrameData.coord) ((i : Int) * p) (((i : Int) + 1) * p) ∧
      b.energy = sliceI (c.etot.map (fun x => [x])) ((i : Int) * p) (((i : Int) + 1) * p) ∧
      b.force = sliceI (c.frames.map FrameData.force) ((i : Int) * p) (((i : Int) + 1) * p) ∧
      b.virial = (if c.virial.any (fun r => r.any (fun x => x ≠ 0)) then
        some (sliceI c.virial ((i : Int) * p) (((i : Int) + 1) * p)) else none) ∧
      b.eatom = (if (c.frames.map FrameData.eatom).any (fun r => r.any (fun x => x ≠ 0)) then
        some (sliceI (c.frames.map FrameData.eatom) ((i : Int) * p) (((i : Int) + 1) * p)) else none) := by
    intro i b hb
    rw [hs, List.getElem?_map] at hb
    cases hr : (List.range (cutBounds c.frames.length p).length)[i]? with
    | none => rw [hr] at hb; cases hb
    | some j =>
      have hj : j = i := by
        rw [List.getElem?_eq_some_iff] at hr
        obtain ⟨h1, h2⟩ := hr
        rw [List.getElem_range] at h2
        exact h2.symm
      rw [hr, hj] at hb
      have hb := Option.some.inj hb
      subst hb
      exact ⟨rfl, rfl, rfl, rfl, rfl, rfl, rfl⟩
  refine ⟨sets_chunks _ p hp _ (by simp) sets _ (fun i b hb => (hget i b hb).2.1) hlen,
    sets_chunks _ p hp _ (by simp) sets _ (fun i b hb => (hget i b hb).2.2.1) hlen,
    sets_chunks _ p hp _ (by simp [hl1]) sets _ (fun i b hb => (hget i b hb).2.2.2.1) hlen,
    sets_chunks _ p hp _ (by simp) sets _ (fun i b hb => (hget i b hb).2.2.2.2.1) hlen, ?_, ?_,
    fun k s hk => (hget k s hk).1⟩
  · by_cases hv : c.virial.any (fun r => r.any (fun x => x ≠ 0)) = true
    · right
      have hsome : ∀ (i : Nat) b, sets[i]? = some b → b.virial =
          some (sliceI c.virial ((i : Int) * p) (((i : Int) + 1) * p)) := by
        intro i b hb
        rw [(hget i b hb).2.2.2.2.2.1, if_pos hv]
      refine ⟨sets.map (fun b => b.virial.getD []), ?_, ?_⟩
      · rw [List.map_map]
        apply List.map_congr_left
        intro b hb
        obtain ⟨i, hi⟩ := List.mem_iff_getElem?.1 hb
        simp [hsome i b hi]
      · refine sets_chunks _ p hp _ (by simp [hl2]) sets _ (fun i b hb => ?_) hlen
        rw [hsome i b hb]; rfl
    · left
      constructor
      · intro b hb
        obtain ⟨i, hi⟩ := List.mem_iff_getElem?.1 hb
        rw [(hget i b hi).2.2.2.2.2.1, if_neg hv]
      · intro r hr x hx
        by_contra hne
        exact hv (List.any_eq_true.2 ⟨r, hr, List.any_eq_true.2 ⟨x, hx, by simpa using hne⟩⟩)
  · by_cases hv : (c.frames.map FrameData.eatom).any (fun r => r.any (fun x => x ≠ 0)) = true
    · right
      have hsome : ∀ (i : Nat) b, sets[i]? = some b → b.eatom =
          some (sliceI (c.frames.map FrameData.eatom) ((i : Int) * p) (((i : Int) + 1) * p)) := by
        intro i b hb
        rw [(hget i b hb).2.2.2.2.2.2, if_pos hv]
      refine ⟨sets.map (fun b => b.eatom.getD []), ?_, ?_⟩
      · rw [List.map_map]
        apply List.map_congr_left
        intro b hb
        obtain ⟨i, hi⟩ := List.mem_iff_getElem?.1 hb
        simp [hsome i b hi]
      · refine sets_chunks _ p hp _ (by simp) sets _ (fun i b hb => ?_) hlen
        rw [hsome i b hb]; rfl
    · left
      constructor
      · intro b hb
        obtain ⟨i, hi⟩ := List.mem_iff_getElem?.1 hb
        rw [(hget i b hi).2.2.2.2.2.2, if_neg hv]
      · intro fr hfr x hx
        by_contra hne
        exact hv (List.any_eq_true.2 ⟨fr.eatom, List.mem_map.2 ⟨fr, hfr, rfl⟩,
          List.any_eq_true.2 ⟨x, hx, by simpa using hne⟩⟩)

/-- C39: a set size of 0 is an error. -/
theorem C39_zero_rejected (c : StructCollection) : ∃ e, c.to 0 = .error e := by
  cases h : c.to 0 with
  | error e => exact ⟨e, rfl⟩
  | ok out =>
    obtain ⟨f, rest, k, _, _, _, hk, _⟩ := coll_to_ok h
    cases hk

/-- C39, outside the property's range: a negative set size writes no set at all, without an error. -/
theorem C39_negative_size_loses_everything (c : StructCollection) (size : Int) (hs : size < 0)
    (tm ty : List Str) (sets : List SetDir) (h : c.to size = .ok (tm, ty, sets)) : sets = [] := by
  obtain ⟨f, rest, k, hf, hl1, hl2, hk, _, _, he⟩ := coll_to_ok h
  have hn : (1 : Int) ≤ (c.frames.length : Int) := by rw [hf]; simp
  unfold numSets at hk
  rw [if_neg (by omega)] at hk
  simp only at hk
  have hk := Except.ok.inj hk
  have hq : Int.fdiv (c.frames.length : Int) size < 0 := by
    have e : size = -(-size) := by ring
    rw [e, Int.fdiv_neg (by omega)]
    have hnn := Int.fdiv_nonneg (a := (c.frames.length : Int)) (b := -size) (by omega) (by omega)
    split
    · rename_i hd
      obtain ⟨t, ht⟩ := hd
      rw [ht, Int.mul_fdiv_cancel_left _ (by omega)]
      nlinarith
    · omega
  have : k.toNat = 0 := by
    rw [← hk]; split <;> omega
  rw [this] at he
  exact he

/-- Three frames. -/
def sampleCollection : StructCollection where
  frames := [⟨[1], [1], [1], [0], [14, 8]⟩, ⟨[2], [2], [2], [0], [14, 8]⟩, ⟨[3], [3], [3], [0], [14, 8]⟩]
  etot := [1, 2, 3]
  ep := [1, 2, 3]
  ek := [0, 0, 0]
  virial := [[0], [0], [7]]

example : (sampleCollection.to 2).map (fun o => o.2.2) =
    .ok [⟨chars% "set.000", [[1], [2]], [[1], [2]], [[1], [2]], [[1], [2]], some [[0], [0]], none⟩,
      ⟨chars% "set.001", [[3]], [[3]], [[3]], [[3]], some [[7]], none⟩] := by
  decide +kernel
example : (sampleCollection.to (-1)).map (fun o => o.2.2) = .ok [] := by decide +kernel
example : sampleCollection.to 0 = .error .zeroDivision := by decide +kernel

/-! ## C65 -/

/-- C65: every field of a data set read from a trajectory is the like-named datum of every frame, one
row per frame in order; virial and atomic energies are present exactly when the first frame has
them; moments are never present. -/
theorem C65_fields (text : Str) (numbers : Option (List Int)) (s : InfoSet)
    (h : infoSetFromFile text numbers = .ok s) :
    ∃ m, MVExtractor.load text = .ok m ∧ s.numFrames = m.numFrames ∧
      List.Forall₂ (fun f v => readKind .box f = .ok v) m.allFrameStrs s.box ∧
      List.Forall₂ (fun f v => readKind .coords f = .ok v) m.allFrameStrs s.coord ∧
      List.Forall₂ (fun f v => readKind .etot f = .ok v) m.allFrameStrs s.etot ∧
      List.Forall₂ (fun f v => readKind .fatoms f = .ok v) m.allFrameStrs s.fatom ∧
      OptRows m.virialMark .virial m.allFrameStrs s.virial ∧
      OptRows m.eatomsMark .eatoms m.allFrameStrs s.eatom ∧ s.magmom = none := by
  obtain ⟨m, T, t0, ns, hm, hr, _, _⟩ := infoSet_ok h
  refine ⟨m, hm, ?_, hr.box, hr.coord, hr.etot, hr.fatom, hr.virial, hr.eatom, hr.magmom⟩
  rw [hr.count, ← hr.box.length_eq, (C02_mvextractor_random_eq_sequential text m hm 0).1]

/-- C65: all arrays of a set read from a trajectory have one row per frame, as `C38_parts` needs. -/
theorem C65_one_row_per_frame (text : Str) (numbers : Option (List Int)) (s : InfoSet)
    (h : infoSetFromFile text numbers = .ok s) :
    (∀ nm r, (nm, Rows.nums r) ∈ s.arrays → r.length = s.numFrames) ∧
    (∀ nm r, (nm, Rows.ints r) ∈ s.arrays → r.length = s.numFrames) := by
  obtain ⟨m, T, t0, ns, hm, hr, _, _⟩ := infoSet_ok h
  have hn : m.allFrameStrs.length = s.numFrames := by rw [hr.count, ← hr.box.length_eq]
  have hopt : ∀ b k a, OptRows b k m.allFrameStrs a → ∀ r, a = some r → r.length = s.numFrames := by
    intro b k a ha r e
    subst e
    cases b with
    | false => exact absurd ha (by simp [OptRows])
    | true =>
      have : List.Forall₂ (fun f v => readKind k f = .ok v) m.allFrameStrs r := ha
      rw [← this.length_eq, hn]
  have hty : s.types.length = s.numFrames := by
    rw [mapM_length hr.index, ← hr.types.length_eq, hn]
  constructor
  · intro nm r hmem
    unfold InfoSet.arrays at hmem
    simp only [List.mem_append, List.mem_cons, List.mem_map, Option.mem_toList, List.not_mem_nil,
      or_false, Prod.mk.injEq, Rows.nums.injEq, reduceCtorEq, and_false, false_or] at hmem
    rcases hmem with (((h1 | h1 | h1 | h1) | ⟨a, ha, _, rfl⟩) | ⟨a, ha, _, rfl⟩) | ⟨a, ha, _, rfl⟩
    · rw [h1.2, hr.count]
    · rw [h1.2, ← hr.coord.length_eq, hn]
    · rw [h1.2, ← hr.etot.length_eq, hn]
    · rw [h1.2, ← hr.fatom.length_eq, hn]
    · exact hopt _ _ _ hr.virial a ha
    · exact hopt _ _ _ hr.eatom a ha
    · rw [hr.magmom] at ha; cases ha
  · intro nm r hmem
    unfold InfoSet.arrays at hmem
    simp only [List.mem_append, List.mem_cons, List.mem_map, List.not_mem_nil, or_false,
      Prod.mk.injEq, Rows.ints.injEq, reduceCtorEq, and_false, false_or, or_false, exists_const] at hmem
    rw [hmem.2, hty]

/-- A silicon frame with one more atom, oxygen. -/
def frameSiO : Str :=
  chars% "2 atoms,Iteration (fs) = 0.0, Etot,Ep,Ek (eV) = -3.0 -3.5 0.5, SCF = 4\nLattice vector\n5 0 0\n0 5 0\n0 0 5\nPosition\n14 0.25 0.5 0.75 1 1 1\n8 0 0 0 1 1 1\nForce\n14 1 2 3\n8 4 5 6\n--------------------------------------\n"

example : infoSetFromFile frameSiO none = .ok
    { box := [[5, 0, 0, 0, 5, 0, 0, 0, 5]], types := [[1, 0]],
      coord := [[1/4, 1/2, 3/4, 0, 0, 0]], etot := [[-3]], fatom := [[1, 2, 3, 4, 5, 6]],
      formulaDict := [(chars% "O", 1), (chars% "Si", 1)], formula := chars% "O1Si1",
      numFrames := 1, virial := none, eatom := none, magmom := none } := by decide +kernel
example : (infoSetFromFile (frameStress ++ frameStress) none).map (fun s => (s.numFrames, s.virial)) =
    .ok (2, some [[1, 2, 3, 4, 5, 6, 7, 8, 9], [1, 2, 3, 4, 5, 6, 7, 8, 9]]) := by decide +kernel

/-! ## C40 -/

/-- C40: every stored type index names, in the element list written to `type_map.raw` (the keys of
the composition), the element of the atomic number read from the frame.
Partial: a list of atomic numbers with repetitions breaks this (`C40_duplicates_violated`), and
`StructCollection` writes no element list at all (`C40_collection_type_map_violated`). -/
theorem C40_types_decode_partial (text : Str) (numbers : Option (List Int)) (s : InfoSet)
    (h : infoSetFromFile text numbers = .ok s) (hnd : ∀ l, numbers = some l → l.Nodup) :
    ∃ m T, MVExtractor.load text = .ok m ∧
      List.Forall₂ (fun f v => typesOf f = .ok v) m.allFrameStrs T ∧
      List.Forall₂ (fun (row : List Int) (stored : List Nat) =>
        List.Forall₂ (fun t j => ∃ sym, (s.formulaDict.map Prod.fst)[j]? = some sym ∧
          specieOf t = .ok sym) row stored) T s.types := by
  obtain ⟨m, T, t0, ns, ks, hm, hr, _, _, _, hks, _, hd⟩ := infoSet_composition h hnd
  refine ⟨m, T, hm, hr.types, ?_⟩
  have hkeys : s.formulaDict.map Prod.fst = ks := by
    rw [hd, List.map_fst_zip (by simp [mapM_length hks])]
  have := mapM_eq_ok.1 hr.index
  refine this.imp ?_
  intro row stored hrow
  refine (mapM_eq_ok.1 hrow).imp ?_
  intro t j hj
  obtain ⟨sym, h1, h2⟩ := forall₂_get (mapM_eq_ok.1 hks) (pyIndex_ok hj)
  exact ⟨sym, by rw [hkeys]; exact h1, h2⟩

/-- C40: an atom whose number is not in the given list makes the reading fail. -/
theorem C40_missing_number_rejected (text : Str) (l : List Int) (m : MVExtractor)
    (hm : MVExtractor.load text = .ok m) (f : Str) (hf : f ∈ m.allFrameStrs) (row : List Int)
    (hrow : typesOf f = .ok row) (t : Int) (ht : t ∈ row) (hl : t ∉ l) :
    ∃ e, infoSetFromFile text (some l) = .error e := by
  cases h : infoSetFromFile text (some l) with
  | error e => exact ⟨e, rfl⟩
  | ok s =>
    exfalso
    obtain ⟨m', T, t0, ns, hm', hr, _, hp⟩ := infoSet_ok h
    rw [hm] at hm'
    have := Except.ok.inj hm'
    subst this
    unfold pickComposition at hp
    simp only at hp
    rw [bind_eq_ok] at hp
    obtain ⟨d, _, hp⟩ := hp
    obtain ⟨_, rfl⟩ := Prod.mk.inj (Except.ok.inj hp)
    obtain ⟨i, hi⟩ := List.mem_iff_getElem?.1 hf
    obtain ⟨row', hr1, hr2⟩ := forall₂_get hr.types hi
    rw [hrow] at hr2
    have := Except.ok.inj hr2
    subst this
    obtain ⟨st, _, hst⟩ := forall₂_get (mapM_eq_ok.1 hr.index) hr1
    obtain ⟨j, hj⟩ := List.mem_iff_getElem?.1 ht
    obtain ⟨z, _, hz⟩ := forall₂_get (mapM_eq_ok.1 hst) hj
    exact hl (List.mem_of_getElem? (pyIndex_ok hz))

/-- C40 fails for a list with a repeated number: the stored index of silicon is 2, but the written
element list has only two entries. -/
theorem C40_duplicates_violated :
    (infoSetFromFile frameNoStress (some [8, 8, 14])).map
      (fun s => (s.types, s.formulaDict.map Prod.fst)) =
      .ok ([[2]], [chars% "O", chars% "Si"]) := by decide +kernel

/-- C40 fails for `StructCollection.to`: the file meant to list the elements lists the indices
`0, 1, …` themselves, so collections of different elements write identical files and the atomic
numbers cannot be recovered. -/
theorem C40_collection_type_map_violated :
    (∀ (c : StructCollection) (size : Int) (tm ty : List Str) (sets : List SetDir),
      c.to size = .ok (tm, ty, sets) → tm = (List.range c.atomicNumbers.length).map showNat) ∧
    ∃ c c' : StructCollection, c.frames.map FrameData.numbers ≠ c'.frames.map FrameData.numbers ∧
      c.to 1 = c'.to 1 ∧ ∃ out, c.to 1 = .ok out := by
  constructor
  · intro c size tm ty sets h
    obtain ⟨_, _, _, _, _, _, _, ht, _⟩ := coll_to_ok h
    exact ht
  · refine ⟨⟨[⟨[1], [0], [0], [0], [14, 8]⟩], [1], [1], [0], [[0]]⟩,
      ⟨[⟨[1], [0], [0], [0], [3, 7]⟩], [1], [1], [0], [[0]]⟩, by decide, by decide +kernel, ?_⟩
    refine ⟨([chars% "0", chars% "1"], [chars% "0", chars% "1"],
      [⟨chars% "set.000", [[1]], [[0]], [[1]], [[0]], none, none⟩]), by decide +kernel⟩

example : (infoSetFromFile frameSiO (some [14, 1, 8])).map (fun s => (s.types, s.formulaDict)) =
    .ok ([[0, 2]], [(chars% "Si", 1), (chars% "H", 0), (chars% "O", 1)]) := by decide +kernel
example : infoSetFromFile frameSiO (some [14]) = .error .valueError := by decide +kernel

/-! ## C41 -/

/-- C41: `InfoSets.from_dir` reads every trajectory with one common list of elements and merges the
sets of equal formula: one group per formula, each group the concatenation of its members in order,
for every array; the total number of frames is conserved. -/
theorem C41_groups (texts : List Str) (groups : List InfoSet)
    (h : infoSetsFromDir texts = .ok groups) :
    ∃ (numbers : List Int) (sets : List InfoSet), numbers.Nodup ∧
      List.Forall₂ (fun t s => infoSetFromFile t (some numbers) = .ok s) texts sets ∧
      (groups.map InfoSet.formula).Nodup ∧
      (∀ f, f ∈ groups.map InfoSet.formula ↔ f ∈ sets.map InfoSet.formula) ∧
      (∀ g ∈ groups, IsGroup g.formula (sets.filter (fun s => s.formula = g.formula)) g) ∧
      totalFrames groups = totalFrames sets := by
  unfold infoSetsFromDir at h
  rw [bind_eq_ok] at h
  obtain ⟨first, _, h⟩ := h
  rw [bind_eq_ok] at h
  obtain ⟨numbers, hn, h⟩ := h
  rw [bind_eq_ok] at h
  obtain ⟨sets, hs, h⟩ := h
  have hg := reduceSets_groups h
  have hform : groups.map InfoSet.formula = counterKeys (sets.map InfoSet.formula) := by
    have : List.Forall₂ (fun f g => g.formula = f) (counterKeys (sets.map InfoSet.formula)) groups :=
      hg.imp (fun _ _ h => h.1.formula)
    clear * - this
    generalize counterKeys (sets.map InfoSet.formula) = keys at this
    induction this with
    | nil => rfl
    | cons h _ ih => rw [List.map_cons, h, ih]
  refine ⟨numbers, sets, (gather_nodup first numbers hn).1, mapM_eq_ok.1 hs, ?_, ?_, ?_, ?_⟩
  · rw [hform]; exact counterKeys_nodup _
  · intro f; rw [hform]; exact mem_counterKeys _ _
  · intro g hgm
    obtain ⟨i, hi⟩ := List.mem_iff_getElem?.1 hgm
    obtain ⟨f, _, hf, _⟩ := forall₂_get' hg hi
    have := hf.formula
    subst this
    exact hf
  · have hnum : groups.map InfoSet.numFrames = (counterKeys (sets.map InfoSet.formula)).map
        (fun k => ((sets.filter (fun s => s.formula = k)).map InfoSet.numFrames).sum) := by
      have : List.Forall₂ (fun k g => g.numFrames =
          ((sets.filter (fun s => s.formula = k)).map InfoSet.numFrames).sum)
          (counterKeys (sets.map InfoSet.formula)) groups := hg.imp (fun _ _ h => h.1.numFrames)
      clear * - this
      generalize counterKeys (sets.map InfoSet.formula) = keys at this
      induction this with
      | nil => rfl
      | cons h _ ih => rw [List.map_cons, h, ih, List.map_cons]
    unfold totalFrames
    rw [hnum]
    exact sum_by_key _ (counterKeys_nodup _) InfoSet.formula InfoSet.numFrames sets
      (fun s hs => (mem_counterKeys _ _).2 (List.mem_map_of_mem hs))

/-- C41: two sets read with the same list of elements have the same formula exactly when they have
the same composition, so grouping by formula is grouping by composition (of the first frame). -/
theorem C41_formula_is_composition (t t' : Str) (numbers : List Int) (hnd : numbers.Nodup)
    (s s' : InfoSet) (hs : infoSetFromFile t (some numbers) = .ok s)
    (hs' : infoSetFromFile t' (some numbers) = .ok s') :
    s.formula = s'.formula ↔ s.formulaDict = s'.formulaDict := by
  obtain ⟨m, T, t0, ns, ks, _, hr, _, hns, _, hks, _, hd⟩ :=
    infoSet_composition hs (by rintro _ ⟨⟩; exact hnd)
  obtain ⟨m', T', t0', ns', ks', _, hr', _, hns', _, hks', _, hd'⟩ :=
    infoSet_composition hs' (by rintro _ ⟨⟩; exact hnd)
  have e := hns _ rfl
  have e' := hns' _ rfl
  subst e
  subst e'
  rw [hks] at hks'
  have := Except.ok.inj hks'
  subst this
  rw [hr.formula, hr'.formula]
  constructor
  · intro h
    rw [hd, hd'] at h ⊢
    rw [formulaText_inj ks (species_in_table hks) _ _ (by simp [mapM_length hks])
      (by simp [mapM_length hks]) h]
  · intro h; rw [h]

/-- An oxygen frame. -/
def frameO : Str :=
  chars% "1 atoms,Iteration (fs) = 0.0, Etot,Ep,Ek (eV) = -4.0 -4.5 0.5, SCF = 4\nLattice vector\n5 0 0\n0 5 0\n0 0 5\nPosition\n8 0.25 0.5 0.75 1 1 1\nForce\n8 1 2 3\n--------------------------------------\n"

example : (infoSetsFromDir [frameNoStress, frameO, frameStress ++ frameStress]).map
    (fun gs => gs.map (fun g => (g.formula, g.numFrames, g.etot))) =
    .ok [(chars% "Si1O0", 3, [[-1], [-2], [-2]]), (chars% "Si0O1", 1, [[-4]])] := by
  decide +kernel

/-! ## C42 -/

/-- C42 fails: the group of the two silicon trajectories carries the composition of the oxygen
trajectory, the last one read. -/
theorem C42_stale_composition_violated :
    (infoSetsFromDir [frameNoStress, frameStress, frameO]).map
      (fun gs => gs.map (fun g => (g.formula, g.numFrames, g.formulaDict))) =
    .ok [(chars% "Si1O0", 2, [(chars% "Si", 0), (chars% "O", 1)]),
         (chars% "Si0O1", 1, [(chars% "Si", 0), (chars% "O", 1)])] := by
  decide +kernel

/-- C42, what holds: a group carries the composition of each of its members if and only if it has a single
member or contains the last trajectory read. (The composition of a member is the number of atoms of each
element in its first frame.) For every group the formula text and the element list are those of its members.
Missing: the composition of the other groups, which is wrong, see `C42_stale_composition_violated`. -/
theorem C42_composition_partial (texts : List Str) (groups : List InfoSet)
    (h : infoSetsFromDir texts = .ok groups) :
    ∃ (numbers : List Int) (sets : List InfoSet),
      List.Forall₂ (fun t s => infoSetFromFile t (some numbers) = .ok s ∧
        ∃ m T t0, MVExtractor.load t = .ok m ∧
          List.Forall₂ (fun f v => typesOf f = .ok v) m.allFrameStrs T ∧ T[0]? = some t0 ∧
          List.Forall₂ (fun (z : Int) (p : Str × Nat) => specieOf z = .ok p.1 ∧ p.2 = t0.count z)
            numbers s.formulaDict) texts sets ∧
      ∀ g ∈ groups, ∀ s ∈ sets, s.formula = g.formula →
        g.formula = formulaText s.formulaDict ∧
        g.formulaDict.map Prod.fst = s.formulaDict.map Prod.fst ∧
        ((∃ last, sets.getLast? = some last ∧ last.formula = g.formula) ∨
          (sets.filter (fun s => s.formula = g.formula)).length = 1 ↔
          g.formulaDict = s.formulaDict) := by
  unfold infoSetsFromDir at h
  rw [bind_eq_ok] at h
  obtain ⟨first, _, h⟩ := h
  rw [bind_eq_ok] at h
  obtain ⟨numbers, hn, h⟩ := h
  rw [bind_eq_ok] at h
  obtain ⟨sets, hs, h⟩ := h
  have hnd := (gather_nodup first numbers hn).1
  have hg := reduceSets_groups h
  have hs := mapM_eq_ok.1 hs
  have hread : ∀ s ∈ sets, ∃ t, infoSetFromFile t (some numbers) = .ok s := by
    intro s hsm
    obtain ⟨i, hi⟩ := List.mem_iff_getElem?.1 hsm
    obtain ⟨t, _, ht⟩ := forall₂_get' hs hi
    exact ⟨t, ht⟩
  have hkeys : ∀ s ∈ sets, ∀ s' ∈ sets, s.formulaDict.map Prod.fst = s'.formulaDict.map Prod.fst := by
    have hk : ∀ s ∈ sets, ∃ ks, numbers.mapM specieOf = .ok ks ∧ s.formulaDict.map Prod.fst = ks := by
      intro s hsm
      obtain ⟨t, ht⟩ := hread s hsm
      obtain ⟨m, T, t0, ns, ks, _, hr, _, hns, _, hks, _, hd⟩ :=
        infoSet_composition ht (by rintro _ ⟨⟩; exact hnd)
      have := hns _ rfl
      subst this
      exact ⟨ks, hks, by rw [hd, List.map_fst_zip (by simp [mapM_length hks])]⟩
    intro s hs1 s' hs2
    obtain ⟨ks, h1, h2⟩ := hk s hs1
    obtain ⟨ks', h1', h2'⟩ := hk s' hs2
    rw [h1] at h1'
    rw [h2, h2', Except.ok.inj h1']
  refine ⟨numbers, sets, hs.imp ?_, ?_⟩
  · intro t s hts
    refine ⟨hts, ?_⟩
    obtain ⟨m, T, t0, ns, ks, hm, hr, ht0, hns, _, hks, _, hd⟩ :=
      infoSet_composition hts (by rintro _ ⟨⟩; exact hnd)
    have := hns _ rfl
    subst this
    refine ⟨m, T, t0, hm, hr.types, ht0, ?_⟩
    rw [hd]
    have hf := mapM_eq_ok.1 hks
    clear * - hf
    induction hf with
    | nil => exact .nil
    | cons h _ ih => exact .cons ⟨h, rfl⟩ ih
  · intro g hgm s hsm hsg
    obtain ⟨i, hi⟩ := List.mem_iff_getElem?.1 hgm
    obtain ⟨f, _, hf, hd⟩ := forall₂_get' hg hi
    have hff := hf.formula
    subst hff
    obtain ⟨t, ht⟩ := hread s hsm
    have hsame : ∀ s' ∈ sets, s'.formula = g.formula → s'.formulaDict = s.formulaDict := by
      intro s' hs' he
      obtain ⟨t', ht'⟩ := hread s' hs'
      exact (C41_formula_is_composition t' t numbers hnd s' s ht' ht).1 (by rw [he, hsg])
    refine ⟨?_, ?_, ?_⟩
    · obtain ⟨_, _, _, _, _, hr, _, _⟩ := infoSet_ok ht
      rw [← hsg, hr.formula]
    · rcases hd with ⟨s', hs', rfl⟩ | ⟨hne, last, hl, hd⟩
      · have : g ∈ sets := by
          have : g ∈ sets.filter (fun s => s.formula = g.formula) := by rw [hs']; simp
          exact (List.mem_filter.1 this).1
        exact hkeys g this s hsm
      · rw [hd]
        exact hkeys last (List.mem_of_getLast? hl) s hsm
    · refine ⟨fun hor => ?_, fun heq => ?_⟩
      swap
      · rcases hd with ⟨s', hs', rfl⟩ | ⟨hne, last, hl, hd⟩
        · right
          rw [hs']; rfl
        · left
          refine ⟨last, hl, ?_⟩
          obtain ⟨t', ht'⟩ := hread last (List.mem_of_getLast? hl)
          rw [(C41_formula_is_composition t' t numbers hnd last s ht' ht).2 (hd.symm.trans heq), hsg]
      rcases hd with ⟨s', hs', rfl⟩ | ⟨hne, last, hl, hd⟩
      · have : g ∈ sets := by
          have : g ∈ sets.filter (fun s => s.formula = g.formula) := by rw [hs']; simp
          exact (List.mem_filter.1 this).1
        exact hsame g this rfl
      · rw [hd]
        rcases hor with ⟨last', hl', hlf⟩ | h1
        · rw [hl] at hl'
          have := Option.some.inj hl'
          subst this
          exact hsame last (List.mem_of_getLast? hl) hlf
        · exact absurd h1 hne

example : (infoSetsFromDir [frameO, frameNoStress, frameStress]).map
    (fun gs => gs.map (fun g => (g.formula, g.formulaDict))) =
    .ok [(chars% "O1Si0", [(chars% "O", 1), (chars% "Si", 0)]),
         (chars% "O0Si1", [(chars% "O", 0), (chars% "Si", 1)])] := by
  decide +kernel

/-! ## C43 -/

/-- C43: for a non-empty list of indices within range (any order, repetitions allowed) the `k`-th
frame of the result, its energies and its virial are those of frame `indices[k]`. The collection has
one entry per frame in every array. -/
theorem C43_selects (c : StructCollection) (idx : List Int) (hne : idx ≠ [])
    (h : ∀ i ∈ idx, 0 ≤ i ∧ i < (c.frames.length : Int))
    (h1 : c.etot.length = c.frames.length) (h2 : c.ep.length = c.frames.length)
    (h3 : c.ek.length = c.frames.length) (h4 : c.virial.length = c.frames.length) :
    ∃ c', c.fromIndices idx = .ok c' ∧ c'.frames.length = idx.length ∧
      ∀ (k : Nat) (i : Int), idx[k]? = some i →
        c'.frames[k]? = c.frames[i.toNat]? ∧ c'.etot[k]? = c.etot[i.toNat]? ∧
        c'.ep[k]? = c.ep[i.toNat]? ∧ c'.ek[k]? = c.ek[i.toNat]? ∧
        c'.virial[k]? = c.virial[i.toNat]? := by
  obtain ⟨fr, hf, hfl, hfg⟩ := select_ok c.frames idx h
  obtain ⟨e1, he1, _, hg1⟩ := select_ok c.etot idx (by rw [h1]; exact h)
  obtain ⟨e2, he2, _, hg2⟩ := select_ok c.ep idx (by rw [h2]; exact h)
  obtain ⟨e3, he3, _, hg3⟩ := select_ok c.ek idx (by rw [h3]; exact h)
  obtain ⟨e4, he4, _, hg4⟩ := select_ok c.virial idx (by rw [h4]; exact h)
  have hfr : fr ≠ [] := by
    rintro rfl
    exact hne (List.length_eq_zero_iff.1 (by simpa using hfl.symm))
  refine ⟨⟨fr, e1, e2, e3, e4⟩, ?_, hfl, fun k i hk => ⟨hfg k i hk, hg1 k i hk, hg2 k i hk, hg3 k i hk,
    hg4 k i hk⟩⟩
  unfold StructCollection.fromIndices
  cases hm : idx.max? with
  | none => exact absurd (List.max?_eq_none_iff.1 hm) hne
  | some mx =>
    have hmem := List.max?_mem hm
    simp only
    rw [if_neg (by have := (h mx hmem).2; omega), hf, ok_bind, he1, ok_bind, he2, ok_bind, he3, ok_bind,
      he4]
    unfold mkCollection
    simp only
    rw [if_neg hfr]

/-- C43: an empty index list and an index out of range are errors, including the index equal to the
number of frames, which the explicit range check lets through. -/
theorem C43_rejected (c : StructCollection) (idx : List Int) :
    c.fromIndices [] = .error .valueError ∧
    ((∃ i ∈ idx, (c.frames.length : Int) ≤ i ∨ i < -(c.frames.length : Int)) →
      ∃ e, c.fromIndices idx = .error e) := by
  refine ⟨rfl, ?_⟩
  rintro ⟨i, hi, ho⟩
  unfold StructCollection.fromIndices
  split
  · exact ⟨_, rfl⟩
  · split
    · exact ⟨_, rfl⟩
    · exact bind_isError (mapM_isError ⟨i, hi, pyGetI_out ho⟩)

/-- C43, outside the property's range: a collection without a virial for every frame loses those it
has, ten zeros being stored instead. -/
theorem C43_virial_replaced (c : StructCollection) (idx : List Int)
    (h : ∃ i ∈ idx, ∃ e, pyGetI c.virial i = .error e) (c' : StructCollection)
    (hc : c.fromIndices idx = .ok c') : c'.virial = List.replicate 10 [0] := by
  obtain ⟨e, he⟩ := mapM_isError h
  unfold StructCollection.fromIndices at hc
  split at hc
  · cases hc
  · split at hc
    · cases hc
    · rw [bind_eq_ok] at hc
      obtain ⟨_, _, hc⟩ := hc
      rw [bind_eq_ok] at hc
      obtain ⟨_, _, hc⟩ := hc
      rw [bind_eq_ok] at hc
      obtain ⟨_, _, hc⟩ := hc
      rw [bind_eq_ok] at hc
      obtain ⟨_, _, hc⟩ := hc
      rw [he] at hc
      unfold mkCollection at hc
      simp only at hc
      split at hc
      · cases hc
      · rw [← Except.ok.inj hc]

example : (sampleCollection.fromIndices [2, 0, 2]).map (fun c => (c.etot, c.virial)) =
    .ok ([3, 1, 3], [[7], [0], [7]]) := by decide +kernel
example : sampleCollection.fromIndices [3] = .error .indexError := by decide +kernel
example : (({ sampleCollection with virial := [[5]] } : StructCollection).fromIndices [0, 1]).map
    (fun c => c.virial) = .ok (List.replicate 10 [0]) := by decide +kernel

end MaterSDK
