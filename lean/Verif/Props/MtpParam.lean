import Verif.Lemmas.MtpParamErr
import Verif.Lemmas.MtpHeap

/-! # Parameter files and parameter objects of moment tensor potentials: C114-C117 -/

namespace MaterSDK

/-! ## C114 a parameter file is read exactly -/

/-- A file in the layout of the templates, with any ten header lines, either line end, any counts and
tables that agree and fit an `int`, and any text after the last table, is read back exactly. -/
theorem C114_load_exact {header : List Str} {eol tail : Str} {t : MtpTables} (hh : IsHeader header)
    (he : IsEol eol) (hi : t.Int32) (ha : t.Agree) :
    mtpLoad (some (mtpText header eol t tail)) = .ok t := mtpLoad_text hh he hi ha

/-- Whatever the text: a load that succeeds found the seven keywords in order, read as many rows as the
counts say, and read only numbers that fit an `int`. -/
theorem C114_load_sound {s : Str} {t : MtpTables} (h : mtpLoad (some s) = .ok t) :
    t.Int32 ∧ t.Full ∧
    WordsInOrder [chars% "alpha_moments_count", chars% "alpha_index_basic_count",
      chars% "alpha_index_basic", chars% "alpha_index_times_count", chars% "alpha_index_times",
      chars% "alpha_scalar_moments", chars% "alpha_moment_mapping"] s := by
  obtain ⟨h1, h2, h3, h4, h5⟩ := mtpLoad_ok h
  exact ⟨h1, ⟨h2, h3, h4⟩, h5⟩

/-- A load that does not succeed throws; a file that cannot be opened is refused. -/
theorem C114_load_throws (f : Option Str) :
    mtpLoad none = .error .exception ∧ ∀ e, mtpLoad f = .error e → e = .exception :=
  ⟨rfl, throws_mtpLoad f⟩

/-- Small tables. -/
def sampleTables : MtpTables :=
  ⟨3, 2, [(0, 0, 0, 0), (1, 0, 0, 0)], 1, [(0, 0, 1, 2)], 3, [0, 1, 2]⟩

/-- Ten header lines. -/
def tenLines : List Str := List.replicate 10 (chars% "version = 1.1.0")

example : IsHeader tenLines ∧ IsEol ['\r', '\n'] ∧ sampleTables.Int32 ∧ sampleTables.Agree := by
  refine ⟨⟨by decide, ?_⟩, .inr rfl, ?_, by simp [MtpTables.Agree, sampleTables]⟩
  · intro l hl
    rw [List.eq_of_mem_replicate hl]
    decide
  · simp [MtpTables.Int32, sampleTables, IsInt32]

example : mtpLoad (some (mtpText tenLines ['\r', '\n'] sampleTables [])) = .ok sampleTables := by decide +kernel

/-! ## C115 counts that disagree with the tables -/

/-- The part that holds: if no count is smaller than its table and some count is larger, the load
throws. Missing: counts smaller than the table, see `C115_rows_dropped`. -/
theorem C115_missing_rows_partial {header : List Str} {eol tail : Str} {t : MtpTables}
    (hh : IsHeader header) (he : IsEol eol) (hi : t.Int32) (ht : ∀ c ∈ tail, isSpace c = true)
    (hb : (t.basic.length : ℤ) ≤ t.basicCount) (hti : (t.times.length : ℤ) ≤ t.timesCount)
    (hm : (t.mapping.length : ℤ) ≤ t.scalarCount) (hne : ¬ t.Agree) :
    mtpLoad (some (mtpText header eol t tail)) = .error .exception :=
  mtpLoad_too_many hh he hi ht hb hti hm hne

example : mtpLoad (some (mtpText tenLines ['\n'] { sampleTables with basicCount := 3 } ['\n']))
    = .error .exception := by decide +kernel

example : mtpLoad (some (mtpText tenLines ['\n'] { sampleTables with timesCount := 2 } ['\n']))
    = .error .exception := by decide +kernel

example : mtpLoad (some (mtpText tenLines ['\n'] { sampleTables with scalarCount := 4 } ['\n']))
    = .error .exception := by decide +kernel

/-- The claim fails for counts that are too small: the surplus rows are dropped without a word; and a
negative count is accepted as an empty table. -/
theorem C115_rows_dropped :
    mtpLoad (some (mtpText tenLines ['\n'] { sampleTables with basicCount := 1, scalarCount := 2 } ['\n']))
      = .ok ⟨3, 1, [(0, 0, 0, 0)], 1, [(0, 0, 1, 2)], 2, [0, 1]⟩ ∧
    mtpLoad (some (mtpText tenLines ['\n'] { sampleTables with timesCount := -7 } ['\n']))
      = .ok ⟨3, 2, [(0, 0, 0, 0), (1, 0, 0, 0)], -7, [], 3, [0, 1, 2]⟩ := by
  constructor <;> decide +kernel

/-! ## C116 parameter objects behave like values -/

/-- The part that holds: any program of default construction, loading, copy and move construction,
copy assignment and destruction runs without undefined behaviour, and at the end every object shows the
tables it should, as long as no object is assigned to itself and no assignment replaces a table by an
empty one. Missing: those assignments and the move assignment, see the theorems below. -/
theorem C116_value_semantics_partial {ops : List MtpOp} {v : List (Option MtpTables)}
    (hs : SafeRun [] ops) (hv : valueRun [] ops = some v) :
    ∃ s, mtpRun ⟨[], []⟩ ops = .ok s ∧ Shows s v := by
  obtain ⟨s, e, inv, _⟩ := run_spec stateInv_nil hs hv
  exact ⟨s, e, shows_of_inv inv⟩

/-- Load, copy, assign the copy to an empty object, destroy the original, move the copy. -/
def sampleProgram : List MtpOp :=
  [.load sampleTables, .copy 0, .dflt, .assign 2 1, .destroy 0, .move 1]

theorem sampleProgram_safe : SafeRun [] sampleProgram := by
  simp [sampleProgram, SafeRun, SafeOp, valueStep, MtpTables.Full, sampleTables, noTables]

example : SafeRun [] sampleProgram ∧ valueRun [] sampleProgram
    = some [none, some noTables, some sampleTables, some sampleTables] :=
  ⟨sampleProgram_safe, by decide +kernel⟩

/-- Assigning an object to itself empties it, and its destruction frees a block twice. -/
theorem C116_self_assignment {t : MtpTables} (hb : t.basicCount ≠ 0) :
    (∃ s, mtpRun ⟨[], []⟩ [.load t, .assign 0 0] = .ok s ∧ Shows s [some noTables]) ∧
    mtpRun ⟨[], []⟩ [.load t, .assign 0 0, .destroy 0] = .error .undefined := by
  have hempty : ∀ (h : MtpHeap) (a b c : Option ℕ), Shows ⟨h, [some ⟨0, 0, a, 0, b, 0, c⟩]⟩
      [some noTables] := by
    intro h a b c
    refine ⟨rfl, fun i => ?_⟩
    cases i with
    | zero => rfl
    | succ n => simp
  by_cases ht : t.timesCount = 0 <;> by_cases hm : t.scalarCount = 0 <;>
    simp [hempty, mtpRun, mtpStep, MtpState.obj, mtpStore, heapNew, mtpAssignSelf, mtpRelease, freeIf, heapFree,
      hb, ht, hm, mtpFill, copyIf, ok_bind, error_bind, mtpDestroy]

/-- Assigning an empty object to a loaded one leaves a freed pointer: destroying the target frees a block
twice. -/
theorem C116_assign_empty {t : MtpTables} (hb : t.basicCount ≠ 0) :
    mtpRun ⟨[], []⟩ [.dflt, .load t, .assign 1 0, .destroy 1] = .error .undefined := by
  by_cases ht : t.timesCount = 0 <;> by_cases hm : t.scalarCount = 0 <;>
    simp [mtpRun, mtpStep, MtpState.obj, mtpStore, heapNew, mtpAssign, mtpRelease, freeIf, heapFree,
      hb, ht, hm, mtpFill, copyIf, ok_bind, error_bind, mtpDestroy, mtpEmpty]

/-- After a move assignment the second table of the target is the first table of the source, and
destroying the target frees a block twice. -/
theorem C116_move_assignment (t : MtpTables) :
    (∃ s, mtpRun ⟨[], []⟩ [.dflt, .load t, .moveAssign 0 1] = .ok s ∧
      ∃ o, s.pool[0]? = some (some o) ∧ o.times = o.basic ∧ o.basic ≠ none) ∧
    mtpRun ⟨[], []⟩ [.dflt, .load t, .moveAssign 0 1, .destroy 0] = .error .undefined := by
  by_cases ht : t.timesCount = 0 <;>
    simp [mtpRun, mtpStep, MtpState.obj, mtpStore, heapNew, mtpMoveAssign, mtpRelease, freeIf, heapFree,
      ht, ok_bind, error_bind, mtpDestroy, mtpEmpty]

/-! ## C117 destruction releases all memory -/

/-- The part that holds: if moreover every assignment is between objects without empty tables, then a
program that destroys all its objects leaves no block behind. -/
theorem C117_all_freed_partial {ops : List MtpOp} {v : List (Option MtpTables)}
    (hs : SafeRun [] ops) (hn : NoEmptyAssign [] ops) (hv : valueRun [] ops = some v)
    (hd : ∀ x ∈ v, x = none) :
    ∃ s, mtpRun ⟨[], []⟩ ops = .ok s ∧ ∀ b ∈ s.heap, b = none := by
  obtain ⟨s, e, inv, nl⟩ := run_spec stateInv_nil hs hv
  refine ⟨s, e, ?_⟩
  intro b hb
  by_contra hc
  obtain ⟨p, hp⟩ := List.mem_iff_getElem?.1 hb
  cases b with
  | none => exact hc rfl
  | some b =>
    obtain ⟨i, o, hf, _⟩ := nl hn noLeak_nil p ⟨b, hp⟩
    have hvi : poolFn v i = none := by
      unfold poolFn
      cases h : v[i]? with
      | none => rfl
      | some x => rw [hd x (List.mem_of_getElem? h)]; rfl
    rw [(inv.2.alive i).2 hvi] at hf
    exact absurd hf (by simp)

example : SafeRun [] [.load sampleTables, .load sampleTables, .assign 1 0, .destroy 0, .destroy 1] ∧
    NoEmptyAssign [] [.load sampleTables, .load sampleTables, .assign 1 0, .destroy 0, .destroy 1] ∧
    valueRun [] [.load sampleTables, .load sampleTables, .assign 1 0, .destroy 0, .destroy 1]
      = some [none, none] := by
  refine ⟨?_, ?_, by decide +kernel⟩
  · simp [SafeRun, SafeOp, valueStep, MtpTables.Full, sampleTables]
  · simp [NoEmptyAssign, valueStep, sampleTables]

/-- The claim fails with empty tables: copying an object with an empty table allocates a block of length
0, which a later assignment to the copy forgets. -/
theorem C117_block_lost :
    ∃ ops : List MtpOp, SafeRun [] ops ∧ valueRun [] ops = some [none, none, none] ∧
      ∃ s, mtpRun ⟨[], []⟩ ops = .ok s ∧ ∃ b ∈ s.heap, b ≠ none := by
  refine ⟨[.load ⟨1, 1, [(0, 0, 0, 0)], 0, [], 1, [0]⟩, .copy 0, .load sampleTables, .assign 1 2,
    .destroy 0, .destroy 1, .destroy 2], ?_, by decide +kernel, _, rfl, some [], ?_, by simp⟩
  · simp [SafeRun, SafeOp, valueStep, MtpTables.Full, sampleTables]
  · decide +kernel

end MaterSDK
