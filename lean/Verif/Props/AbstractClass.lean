import Verif.Model.AbstractClass
import Verif.Props.Trajectory

/-! # C197, C198: trajectory objects can be made -/

namespace MaterSDK

theorem ClassBody.find_mem {b : ClassBody} {n : Str} {m : Bool} (h : b.find n = some m) : n ∈ b.map Prod.fst := by
  unfold ClassBody.find at h
  rw [Option.map_eq_some_iff] at h
  obtain ⟨d, hd, rfl⟩ := h
  have h1 := List.find?_some hd
  have h2 := List.mem_of_find?_eq_some hd
  exact List.mem_map.2 ⟨d, List.mem_reverse.1 h2, by simpa using h1⟩

/-- The abstract names are the names that mean an abstract method in the class. -/
theorem mem_abstractNames (cls : List ClassBody) (n : Str) :
    n ∈ abstractNames cls ↔ classLookup cls n = some true := by
  induction cls with
  | nil => simp [abstractNames, classLookup]
  | cons b rest ih =>
    simp only [abstractNames, List.mem_append, List.mem_filter, beq_iff_eq]
    constructor
    · rintro (⟨-, h⟩ | ⟨-, h⟩)
      · simp [classLookup, h]
      · exact h
    · intro h
      cases hb : b.find n with
      | none =>
        refine Or.inr ⟨ih.2 ?_, h⟩
        simpa [classLookup, hb] using h
      | some m =>
        left
        simp only [classLookup, hb] at h
        exact ⟨ClassBody.find_mem hb, by rw [← h]⟩

/-- C197, the rule: a class can be called iff none of the names it or its bases mark abstract is still abstract. -/
theorem construct_eq {α : Type} (cls : List ClassBody) (init : Except PyErr α) :
    ((∀ n, classLookup cls n ≠ some true) → construct cls init = init) ∧
    ((∃ n, classLookup cls n = some true) → construct cls init = .error .typeError) := by
  constructor
  · intro h
    have : abstractNames cls = [] := List.eq_nil_iff_forall_not_mem.2 (fun n hn => h n ((mem_abstractNames cls n).1 hn))
    simp [construct, this]
  · rintro ⟨n, h⟩
    have : abstractNames cls ≠ [] := List.ne_nil_of_mem ((mem_abstractNames cls n).2 h)
    simp [construct, this]

theorem classLookup_append (a b : List ClassBody) (n : Str) :
    classLookup (a ++ b) n = (classLookup a n).or (classLookup b n) := by
  induction a with
  | nil => simp [classLookup]
  | cons x a ih =>
    simp only [List.cons_append, classLookup, ih]
    cases x.find n <;> simp

/-- The methods `Movement` leaves abstract. -/
theorem movement_abstract (n : Str) : classLookup [movementBody, trajectoryBody] n = some true ↔
    n = (chars% "get_frame_volume") ∨ n = (chars% "get_max_num_nbrs_real") := by
  rw [← mem_abstractNames]
  have : abstractNames [movementBody, trajectoryBody] = [(chars% "get_frame_volume"), (chars% "get_max_num_nbrs_real")] := by
    decide +kernel
  rw [this]
  simp

/-- C197 fails for every file: `Movement` has two abstract methods, so Python refuses to make an object. -/
theorem C197_violated (text : Str) : openMovement [] text = .error .typeError :=
  (construct_eq _ _).2 ⟨chars% "get_frame_volume", (movement_abstract _).2 (Or.inl rfl)⟩

/-- C197: a class derived from `Movement` whose bodies define `get_frame_volume` and `get_max_num_nbrs_real` and have
no abstract methods opens exactly the files with a separator row; one that leaves out either of the two opens none.
Missing: `Movement` itself, see `C197_violated`. -/
theorem C197_subclass_partial (ext : List ClassBody) (hc : ∀ n, classLookup ext n ≠ some true) (text : Str) :
    (classLookup ext (chars% "get_frame_volume") ≠ none → classLookup ext (chars% "get_max_num_nbrs_real") ≠ none →
      ((∃ r ∈ fileLines text, IsSep r) → ∃ m, openMovement ext text = .ok m ∧ m.rows = fileLines text) ∧
      ((∀ r ∈ fileLines text, ¬ IsSep r) → openMovement ext text = .error .indexError)) ∧
    (classLookup ext (chars% "get_frame_volume") = none ∨ classLookup ext (chars% "get_max_num_nbrs_real") = none →
      openMovement ext text = .error .typeError) := by
  constructor
  · intro h1 h2
    have h : openMovement ext text = Movement.load text := by
      refine (construct_eq _ _).1 ?_
      intro n hn
      rw [classLookup_append] at hn
      cases hx : classLookup ext n with
      | some m =>
        rw [hx] at hn
        exact hc n (by rw [hx]; simpa using hn)
      | none =>
        rw [hx, Option.none_or] at hn
        rcases (movement_abstract n).1 hn with rfl | rfl
        · exact h1 hx
        · exact h2 hx
    rw [h]
    constructor
    · intro hs
      obtain ⟨m, groups, rest, hm, -⟩ := C01_movement_partition text hs
      refine ⟨m, hm, ?_⟩
      unfold Movement.load at hm
      cases hx : chunkSizes (fileLines text) with
      | error e => rw [hx] at hm; cases hm
      | ok x => rw [hx] at hm; cases hm; rfl
    · intro hs
      exact (C01_no_separator_rejected text hs).1
  · intro h
    refine (construct_eq _ _).2 ?_
    rcases h with h | h
    · exact ⟨_, by rw [classLookup_append, h, Option.none_or]; exact (movement_abstract _).2 (Or.inl rfl)⟩
    · exact ⟨_, by rw [classLookup_append, h, Option.none_or]; exact (movement_abstract _).2 (Or.inr rfl)⟩

/-- C197 for the other classes of the package with abstract bases: nothing is refused on this ground. -/
theorem C197_others {α : Type} (init : Except PyErr α) :
    construct [acExtractorBody, acBaseBody] init = init ∧ construct [acStrExtractorBody, acBaseBody] init = init ∧
    construct [neighborsV1Body, neighborsBaseBody] init = init := by
  refine ⟨?_, ?_, ?_⟩ <;> (unfold construct; rw [if_pos (by decide +kernel)])

/-- A derived class with the two methods. -/
def repairedBody : ClassBody := [(chars% "get_frame_volume", false), (chars% "get_max_num_nbrs_real", false)]

example : (∀ n, classLookup [repairedBody] n ≠ some true) ∧
    classLookup [repairedBody] (chars% "get_frame_volume") ≠ none ∧
    classLookup [repairedBody] (chars% "get_max_num_nbrs_real") ≠ none := by
  refine ⟨?_, by decide +kernel, by decide +kernel⟩
  intro n hn
  have := (mem_abstractNames _ _).2 hn
  have h0 : abstractNames [repairedBody] = [] := by decide +kernel
  rw [h0] at this
  exact absurd this (by simp)

example : (openMovement [repairedBody] sampleTraj).map (fun m => m.sizes) = .ok [2, 3] := by decide +kernel
example : classLookup [[(chars% "get_frame_volume", false)]] (chars% "get_max_num_nbrs_real") = none := by decide +kernel

/-- C198 fails for every file, elements and indices: the constructors make a `Movement` object. -/
theorem C198_violated (text e1 e2 : Str) (i j : ℤ) :
    newAvgBond [] text e1 e2 = .error .typeError ∧ newPairBond [] text i j = .error .typeError := by
  unfold newAvgBond newPairBond
  rw [C197_violated]
  exact ⟨rfl, rfl⟩

/-- C198 fails also with a derived class in the place of `Movement`, whatever it adds, unless it replaces the readers
of `Movement`: the structures of the frames cannot be read. -/
theorem C198_violated_derived (ext : List ClassBody) (text e1 e2 : Str) (i j : ℤ) :
    (∃ e, newAvgBond ext text e1 e2 = .error e) ∧ (∃ e, newPairBond ext text i j = .error e) ∧
    ∀ m, openMovement ext text = .ok m →
      newAvgBond ext text e1 e2 = .error .attributeError ∧ newPairBond ext text i j = .error .attributeError := by
  have hmain : ∀ m, openMovement ext text = .ok m →
      newAvgBond ext text e1 e2 = .error .attributeError ∧ newPairBond ext text i j = .error .attributeError := by
    intro m hm
    have hl : Movement.load text = .ok m := by
      unfold openMovement construct at hm
      split at hm
      · exact hm
      · cases hm
    unfold newAvgBond newPairBond
    rw [hm, ok_bind, ok_bind, C44_all_frames_reader_raises text m hl]
    exact ⟨rfl, rfl⟩
  cases h : openMovement ext text with
  | ok m => exact ⟨⟨_, (hmain m h).1⟩, ⟨_, (hmain m h).2⟩, by rw [← h]; exact hmain⟩
  | error e =>
    refine ⟨⟨e, ?_⟩, ⟨e, ?_⟩, by intro m hm; cases hm⟩
    · unfold newAvgBond; rw [h]; rfl
    · unfold newPairBond; rw [h]; rfl

example : ∃ m, openMovement [repairedBody] sampleTraj = .ok m := by
  have : (openMovement [repairedBody] sampleTraj).map (fun m => m.sizes) = .ok [2, 3] := by decide +kernel
  cases h : openMovement [repairedBody] sampleTraj with
  | ok m => exact ⟨m, rfl⟩
  | error e => rw [h] at this; cases this

end MaterSDK
