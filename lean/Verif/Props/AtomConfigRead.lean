import Verif.Lemmas.AC

/-!
# C06: reading an atom.config

`acExtractor cached rows` is the reader; `cached` are the rows held by the line cache. For a path
that has not been read before in the process (or has not changed since) `cached = rows`.
-/

namespace MaterSDK

/-- The rows of the position block: the `n` rows after the row with index `p` (fewer at the end of
the file). -/
def rowsAfter (rows : List Str) (p n : Nat) : List Str := (rows.drop (p + 1)).take n

/-- C06: everything the reader returns, expressed on the rows of the file.
* the atom count is the first word of the first row;
* the lattice numbers are the first three words of each of the three rows after the first row that
  contains LATTICE;
* atom `k` is described by the `k`-th row after the first row that contains POSITION: its type is
  the first word, its coordinates are words 2 to 4. -/
theorem C06_read_positional (rows : List Str) (info : ACInfo) (n : Nat)
    (h : acExtractor rows rows = .ok info) (hn : info.numAtoms = n) :
    (∃ row w, rows[0]? = some row ∧ (split row)[0]? = some w ∧ parseInt w = .ok info.numAtoms) ∧
    (∃ l l0 l1 l2, FirstRow rows (chars% "LATTICE") l ∧ info.basis = l0 ++ l1 ++ l2 ∧
      ReadsAs ((split ((rows[l + 1]?).getD [])).take 3) l0 ∧
      ReadsAs ((split ((rows[l + 2]?).getD [])).take 3) l1 ∧
      ReadsAs ((split ((rows[l + 3]?).getD [])).take 3) l2) ∧
    (∃ (p : Nat) (cs : List (List ℚ)), FirstRow rows (chars% "POSITION") p ∧
      info.types.length = (rowsAfter rows p n).length ∧ cs.length = (rowsAfter rows p n).length ∧
      info.coords = cs.flatten ∧ (∀ c ∈ cs, ∀ c' ∈ cs, c.length = c'.length) ∧
      ∀ (k : Nat) (row : Str), (rowsAfter rows p n)[k]? = some row →
        (∃ w t, (split row)[0]? = some w ∧ parseInt w = .ok t ∧ info.types[k]? = some t) ∧
        (∃ c, cs[k]? = some c ∧ ReadsAs (((split row).drop 1).take 3) c)) := by
  unfold acExtractor at h
  rw [bind_eq_ok] at h
  obtain ⟨n', h1, h⟩ := h
  rw [bind_eq_ok] at h
  obtain ⟨b, h2, h⟩ := h
  rw [bind_eq_ok] at h
  obtain ⟨t, h3, h⟩ := h
  rw [bind_eq_ok] at h
  obtain ⟨c, h4, h⟩ := h
  cases h
  simp only at hn
  refine ⟨?_, ?_, ?_⟩
  · unfold acNumAtoms at h1
    rw [bind_eq_ok] at h1
    obtain ⟨w, hw, hp⟩ := h1
    rw [pyGet_eq_ok] at hw
    simp only [getline, Nat.one_ne_zero, if_false, Nat.sub_self] at hw
    cases hr : rows[0]? with
    | none => rw [hr] at hw; simp [split, splitAux] at hw
    | some row => rw [hr] at hw; exact ⟨row, w, rfl, hw, hp⟩
  · unfold acBasis at h2
    rw [bind_eq_ok] at h2
    obtain ⟨idx, hi, h2⟩ := h2
    obtain ⟨l, rfl, hl⟩ := pyGet_lineLocate_zero.1 hi
    rw [bind_eq_ok] at h2
    obtain ⟨ls, hls, h2⟩ := h2
    cases h2
    rw [mapM_eq_ok] at hls
    cases hls with
    | cons a1 hls => cases hls with
      | cons a2 hls => cases hls with
        | cons a3 hls =>
          cases hls
          rw [mapM_eq_ok] at a1 a2 a3
          exact ⟨l, _, _, _, hl, by simp, a1, a2, a3⟩
  · unfold acTypes at h3
    unfold acCoords at h4
    rw [bind_eq_ok] at h3 h4
    obtain ⟨idx, hi, h3⟩ := h3
    obtain ⟨idx', hi', h4⟩ := h4
    rw [hi] at hi'
    cases hi'
    obtain ⟨p, rfl, hp⟩ := pyGet_lineLocate_zero.1 hi
    rw [bind_eq_ok] at h4
    obtain ⟨cs, hcs, h4⟩ := h4
    subst hn
    rw [sliceN_nonneg] at h3 hcs
    rw [mapM_eq_ok] at h3 hcs
    obtain ⟨e1, e2⟩ := npFlat_eq_ok h4
    refine ⟨p, cs, hp, h3.length_eq.symm, hcs.length_eq.symm, e1, e2, ?_⟩
    intro k row hrow
    obtain ⟨tt, ht1, ht2⟩ := forall₂_get h3 hrow
    obtain ⟨cc, hc1, hc2⟩ := forall₂_get hcs hrow
    unfold rowType at ht2
    rw [bind_eq_ok] at ht2
    obtain ⟨w, hw1, hw2⟩ := ht2
    refine ⟨⟨w, tt, pyGet_eq_ok.1 hw1, hw2, ht1⟩, ⟨cc, hc1, ?_⟩⟩
    unfold rowCoord pySlice at hc2
    rw [mapM_eq_ok] at hc2
    exact hc2

/-- C06, flat layout of the coordinates: when the position rows have at least four words,
coordinate `j` of atom `k` is entry `3k+j` of the returned array. -/
theorem C06_coordinate_layout (rows : List Str) (info : ACInfo) (n p : Nat)
    (h : acExtractor rows rows = .ok info) (hn : info.numAtoms = n)
    (hp : FirstRow rows (chars% "POSITION") p)
    (hw : ∀ row ∈ rowsAfter rows p n, 4 ≤ (split row).length)
    (k j : Nat) (row w : Str) (hrow : (rowsAfter rows p n)[k]? = some row) (hj : j < 3)
    (hword : (split row)[j + 1]? = some w) :
    ∃ q, parseFloat w = .ok q ∧ info.coords[3 * k + j]? = some q := by
  obtain ⟨_, _, p', cs, hp', _, hlen, hflat, _, hk⟩ := C06_read_positional rows info n h hn
  have := firstRow_unique hp hp'
  subst this
  have hu : ∀ c ∈ cs, c.length = 3 := by
    intro c hc
    obtain ⟨i, hi⟩ := List.mem_iff_getElem?.1 hc
    have hilt := (List.getElem?_eq_some_iff.1 hi).1
    have hr' : (rowsAfter rows p n)[i]? = some (rowsAfter rows p n)[i] :=
      List.getElem?_eq_getElem (by omega)
    obtain ⟨_, c', hc', hra⟩ := hk i _ hr'
    rw [hi] at hc'
    cases hc'
    rw [← List.Forall₂.length_eq hra]
    have := hw _ (List.getElem_mem (l := rowsAfter rows p n) (n := i) (by omega))
    simp; omega
  obtain ⟨_, c, hc, hra⟩ := hk k row hrow
  have hwd : (((split row).drop 1).take 3)[j]? = some w := by
    rw [List.getElem?_take_of_lt hj, List.getElem?_drop, Nat.add_comm]; exact hword
  obtain ⟨q, hq1, hq2⟩ := forall₂_get hra hwd
  refine ⟨q, hq2, ?_⟩
  rw [hflat, flatten_get_of_uniform hu hc hj, hq1]

/-- C06, error side: a file without a LATTICE row or without a POSITION row is an error. -/
theorem C06_missing_block_is_error (rows : List Str)
    (h : NoRow rows (chars% "LATTICE") ∨ NoRow rows (chars% "POSITION")) :
    ∃ e, acExtractor rows rows = .error e := by
  cases hx : acExtractor rows rows with
  | error e => exact ⟨e, rfl⟩
  | ok info =>
    exfalso
    unfold acExtractor at hx
    rw [bind_eq_ok] at hx
    obtain ⟨n', _, hx⟩ := hx
    rw [bind_eq_ok] at hx
    obtain ⟨b, h2, hx⟩ := hx
    rw [bind_eq_ok] at hx
    obtain ⟨t, h3, hx⟩ := hx
    rcases h with h | h
    · unfold acBasis at h2
      rw [lineLocate_noRow h] at h2
      cases h2
    · unfold acTypes at h3
      rw [lineLocate_noRow h] at h3
      cases h3

/-- A small atom.config. -/
def sampleConfig : Str :=
  chars% "  2 atoms\nLattice vector\n 5.0E+00 0.0 0.0\n0 5.5 0\n0 0 6.25\nPosition (normalized)\n 14  0.25 0.5 0.75  1 1 1\n 8  0.1 -0.2 1e-1 1 1 1\n"

example : acExtractor (fileLines sampleConfig) (fileLines sampleConfig) =
    .ok ⟨2, [5, 0, 0, 0, 11/2, 0, 0, 0, 25/4], [14, 8], [1/4, 1/2, 3/4, 1/10, -1/5, 1/10]⟩ := by
  decide +kernel
example : ∀ row ∈ rowsAfter (fileLines sampleConfig) 5 2, 4 ≤ (split row).length := by decide +kernel
example : NoRow (fileLines (chars% "1 atoms\nPosition\n1 0 0 0\n")) (chars% "LATTICE") := by
  unfold NoRow; decide +kernel

end MaterSDK
