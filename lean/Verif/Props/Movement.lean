import Verif.Lemmas.Movement

/-!
# C01 - C04: trajectory frames and row locators
-/

namespace MaterSDK

/-! ## C01 -/

/-- C01, acceptance side for `Movement`. Any text with a separator row is accepted; it is cut (in
the unique way, `cut_unique`) into blocks that end at separators; frame `i` is block `i`, the
sequential reader sees the same list of blocks, and the frames followed by the rest are the text. -/
theorem C01_movement_partition (text : Str) (h : ∃ r ∈ fileLines text, IsSep r) :
    ∃ m groups rest, Movement.load text = .ok m ∧
      CutAtSeparators (fileLines text) groups rest ∧ groups ≠ [] ∧
      m.allFrameStrs.length = groups.length ∧
      (∀ (i : Nat) (g : List Str), groups[i]? = some g → m.frameStr i = .ok g.flatten) ∧
      (groups.map List.flatten).flatten ++ rest.flatten = text := by
  obtain ⟨groups, rest, hc⟩ := cut_exists (fileLines text)
  have hne : groups ≠ [] := by
    rintro rfl
    obtain ⟨r, hr, hs⟩ := h
    rw [hc.whole] at hr
    exact hc.tail r (by simpa using hr) hs
  refine ⟨⟨fileLines text, groups.map (fun g => (g.length : Int)),
    chunkSlices (groups.map (fun g => (g.length : Int)))⟩, groups, rest, ?_, hc, hne, ?_, ?_, ?_⟩
  · simp only [Movement.load, chunkSizes_cut hc hne]; rfl
  · show (seqFrames _ (fileLines text)).length = _
    rw [hc.whole, seqFrames_cut]; simp
  · intro i g hg; exact frameStr_cut hc hg
  · conv_rhs => rw [← fileLines_flatten text, hc.whole]
    simp [List.flatten_flatten]

/-- C01 for `MVExtractor`, which additionally looks at the first frame when it is built: whenever
it accepts the text, the number of frames is the number of blocks and frame `i` is block `i`. -/
theorem C01_mvextractor_partition (text : Str) (m : MVExtractor)
    (h : MVExtractor.load text = .ok m) :
    ∃ groups rest, CutAtSeparators (fileLines text) groups rest ∧ groups ≠ [] ∧
      m.numFrames = groups.length ∧
      (∀ (i : Nat) (g : List Str), groups[i]? = some g → m.frameStr i = .ok g.flatten) ∧
      (groups.map List.flatten).flatten ++ rest.flatten = text := by
  obtain ⟨groups, rest, hc⟩ := cut_exists (fileLines text)
  have hne : groups ≠ [] := by
    rintro rfl
    have hn : ∀ r ∈ fileLines text, ¬ IsSep r := by
      intro r hr; rw [hc.whole] at hr; exact hc.tail r (by simpa using hr)
    simp only [MVExtractor.load, chunkSizes_none hn] at h
    cases h
  simp only [MVExtractor.load, chunkSizes_cut hc hne] at h
  have hm : m.rows = fileLines text ∧
      m.slices = chunkSlices (groups.map (fun g => (g.length : Int))) := by
    change (findExtra _ _ >>= fun _ => _) = _ at h
    cases hx : findExtra (fileLines text)
        (chunkSlices (groups.map (fun g => (g.length : Int)))) with
    | error e => rw [hx] at h; cases h
    | ok x => rw [hx] at h; cases h; exact ⟨rfl, rfl⟩
  refine ⟨groups, rest, hc, hne, ?_, ?_, ?_⟩
  · unfold MVExtractor.numFrames
    rw [hm.1, hc.whole, lineLocate, locate_cut hc.group hc.tail]
    have : ∀ k (gs : List (List Str)), (ends k gs).length = gs.length := by
      intro k gs; induction gs generalizing k with
      | nil => rfl
      | cons g gs ih => simp [ends, ih]
    exact this 0 groups
  · intro i g hg
    unfold MVExtractor.frameStr
    rw [hm.1, hm.2]; exact frameStr_cut hc hg
  · conv_rhs => rw [← fileLines_flatten text, hc.whole]
    simp [List.flatten_flatten]

/-- C01, rejection side: without a separator row both classes raise `IndexError`. -/
theorem C01_no_separator_rejected (text : Str) (h : ∀ r ∈ fileLines text, ¬ IsSep r) :
    Movement.load text = .error .indexError ∧ MVExtractor.load text = .error .indexError := by
  simp only [Movement.load, MVExtractor.load, chunkSizes_none h]
  exact ⟨rfl, rfl⟩

/-- Two frames and a trailing row. -/
def sampleTraj : Str :=
  (chars% "1 atoms\n") ++ List.replicate 40 '-' ++ (chars% "\nx\ny\n") ++ List.replicate 38 '-' ++
    (chars% "\ntail")

example : ∃ r ∈ fileLines sampleTraj, IsSep r := by decide
example : (Movement.load sampleTraj).map (fun m => (m.sizes, m.slices))
    = .ok ([2, 3], [0, 2, 5]) := by decide +kernel
example : ((Movement.load sampleTraj).bind (fun m => m.frameStr 1))
    = .ok ((chars% "x\ny\n") ++ List.replicate 38 '-' ++ (chars% "\n")) := by decide +kernel
/-- `MVExtractor` accepts a text whose first frame has a lattice block. -/
def sampleTraj2 : Str :=
  (chars% "1 atoms,Iteration (fs) = 0\nLattice\n1 0 0\n0 1 0\n0 0 1\n") ++ List.replicate 40 '-' ++
    (chars% "\nx\ny\n") ++ List.replicate 38 '-' ++ (chars% "\ntail")
example : (MVExtractor.load sampleTraj2).map MVExtractor.numFrames = .ok 2 := by decide +kernel
example : ∀ r ∈ fileLines (chars% "a\nb-\n"), ¬ IsSep r := by decide

/-! ## C02 -/

/-- C02: for every frame of the file the text from random access is the text the sequential readers
consume, for `Movement`. -/
theorem C02_movement_random_eq_sequential (text : Str) (m : Movement)
    (h : Movement.load text = .ok m) (i : Nat) :
    (∀ f, m.allFrameStrs[i]? = some f → m.frameStr i = .ok f) ∧
    (m.allFrameStrs.length ≤ i → m.frameStr i = .error .indexError) := by
  obtain ⟨groups, rest, hc⟩ := cut_exists (fileLines text)
  have hne : groups ≠ [] := by
    rintro rfl
    have hn : ∀ r ∈ fileLines text, ¬ IsSep r := by
      intro r hr; rw [hc.whole] at hr; exact hc.tail r (by simpa using hr)
    rw [(C01_no_separator_rejected text hn).1] at h
    cases h
  simp only [Movement.load, chunkSizes_cut hc hne] at h
  cases h
  have hall : seqFrames (groups.map (fun g => (g.length : Int))) (fileLines text)
      = groups.map List.flatten := by rw [hc.whole, seqFrames_cut]
  simp only [Movement.allFrameStrs, Movement.frameStr, hall, List.length_map]
  refine ⟨?_, ?_⟩
  · intro f hf
    rw [List.getElem?_map, Option.map_eq_some_iff] at hf
    obtain ⟨g, hg, rfl⟩ := hf
    exact frameStr_cut hc hg
  · intro hi
    apply frameStr_outOfRange _ hi
    intro hr
    rw [hr] at hc
    cases groups with
    | nil => exact hne rfl
    | cons g gs =>
      obtain ⟨b, l, e, _⟩ := hc.group g (by simp)
      have := hc.whole
      rw [e] at this; simp at this

/-- C02 for `MVExtractor`. -/
theorem C02_mvextractor_random_eq_sequential (text : Str) (m : MVExtractor)
    (h : MVExtractor.load text = .ok m) (i : Nat) :
    m.allFrameStrs.length = m.numFrames ∧
    (∀ f, m.allFrameStrs[i]? = some f → m.frameStr i = .ok f) ∧
    (m.numFrames ≤ i → m.frameStr i = .error .indexError) := by
  obtain ⟨groups, rest, hc, hne, hnum, _, _⟩ := C01_mvextractor_partition text m h
  simp only [MVExtractor.load, chunkSizes_cut hc hne] at h
  have hm : m.rows = fileLines text ∧ m.sizes = groups.map (fun g => (g.length : Int)) ∧
      m.slices = chunkSlices (groups.map (fun g => (g.length : Int))) := by
    change (findExtra _ _ >>= fun _ => _) = _ at h
    cases hx : findExtra (fileLines text)
        (chunkSlices (groups.map (fun g => (g.length : Int)))) with
    | error e => rw [hx] at h; cases h
    | ok x => rw [hx] at h; cases h; exact ⟨rfl, rfl, rfl⟩
  have hall : m.allFrameStrs = groups.map List.flatten := by
    unfold MVExtractor.allFrameStrs
    rw [hm.1, hm.2.1, hc.whole, seqFrames_cut]
  rw [hall, hnum]
  unfold MVExtractor.frameStr
  rw [hm.1, hm.2.2]
  refine ⟨by simp, ?_, ?_⟩
  · intro f hf
    rw [List.getElem?_map, Option.map_eq_some_iff] at hf
    obtain ⟨g, hg, rfl⟩ := hf
    exact frameStr_cut hc hg
  · intro hi
    apply frameStr_outOfRange _ hi
    intro hr
    rw [hr] at hc
    cases groups with
    | nil => exact hne rfl
    | cons g gs =>
      obtain ⟨b, l, e, _⟩ := hc.group g (by simp)
      have := hc.whole
      rw [e] at this; simp at this

example : ((Movement.load sampleTraj).map Movement.allFrameStrs)
    = .ok [(chars% "1 atoms\n") ++ List.replicate 40 '-' ++ (chars% "\n"),
           (chars% "x\ny\n") ++ List.replicate 38 '-' ++ (chars% "\n")] := by decide +kernel
example : ((Movement.load sampleTraj).bind (fun m => m.frameStr 2)) = .error .indexError := by
  decide +kernel

/-! ## C03 -/

/-- C03, file locator: a number is reported iff it is the 1-based number of a row whose upper-cased
text contains the content; numbers are strictly increasing. (The two facts determine the list.) -/
theorem C03_line_locator (rows : List Str) (content : Str) :
    (∀ n, n ∈ lineLocate rows content ↔
      ∃ row, 1 ≤ n ∧ rows[n - 1]? = some row ∧ content <:+: row.map Char.toUpper) ∧
    (lineLocate rows content).Pairwise (· < ·) := by
  refine ⟨fun n => ?_, lineLocateFrom_pairwise _ _ _⟩
  rw [lineLocate, mem_lineLocateFrom]
  constructor
  · rintro ⟨i, row, h1, h2, h3⟩
    exact ⟨row, by omega, by rw [h2]; simpa using h1, h3⟩
  · rintro ⟨row, h1, h2, h3⟩
    exact ⟨n - 1, row, h2, by omega, h3⟩

/-- C03, list locator: 0-based. -/
theorem C03_list_locator (rows : List Str) (content : Str) :
    (∀ n, n ∈ listLocate rows content ↔
      ∃ row, rows[n]? = some row ∧ content <:+: row.map Char.toUpper) ∧
    (listLocate rows content).Pairwise (· < ·) :=
  ⟨fun _ => mem_listLocate, listLocate_pairwise _ _⟩

/-- C03: on the same rows the two locators differ by exactly one, entry by entry. -/
theorem C03_locators_offset (rows : List Str) (content : Str) :
    lineLocate rows content = (listLocate rows content).map (· + 1) := lineLocate_eq_map _ _

example : lineLocate [chars% "a lattice", chars% "x", chars% "LATTICE"] (chars% "LATTICE") = [1, 3] := by
  decide

/-! ## C04 -/

/-- C04: a content with a lower-case ASCII letter is never located. -/
theorem C04_lowercase_never_found (rows : List Str) (content : Str)
    (h : ∃ c ∈ content, 'a' ≤ c ∧ c ≤ 'z') :
    lineLocate rows content = [] ∧ listLocate rows content = [] := by
  have hl : listLocate rows content = [] := by
    rw [List.eq_nil_iff_forall_not_mem]
    intro n hn
    rw [mem_listLocate] at hn
    obtain ⟨row, _, hr⟩ := hn
    obtain ⟨c, hc, h1, h2⟩ := h
    have hm : c ∈ upper row := hr.subset hc
    rw [upper, List.mem_map] at hm
    obtain ⟨d, _, rfl⟩ := hm
    apply toUpper_not_lower d
    rw [Char.le_def, UInt32.le_iff_toNat_le] at h1 h2
    exact ⟨h1, h2⟩
  exact ⟨by rw [lineLocate_eq_map, hl]; rfl, hl⟩

example : ∃ c ∈ (chars% "Force"), 'a' ≤ c ∧ c ≤ 'z' := by decide
/-- The same word is present in the file, and found when searched in upper case. -/
example : lineLocate [chars% "Force"] (chars% "Force") = [] ∧
    lineLocate [chars% "Force"] (chars% "FORCE") = [1] := by decide

end MaterSDK
