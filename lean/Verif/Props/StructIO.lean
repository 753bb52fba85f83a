import Verif.Lemmas.StructIOAux
import Verif.Lemmas.StructIO
import Verif.Lemmas.NumIdem

/-!
# C07, C08, C09, C48, C60, C61, C62: writing and reading structures
-/

namespace MaterSDK

/-! ## C07 -/

/-- C07: a structure of real elements is written without exception and read back from the fresh
file with the same species in the same order, fractional coordinates within 5e-7 and lattice
entries within a relative 5e-7 (zero stays zero). -/
theorem C07_write_read_roundtrip (s : QStruct) (h : RealElements s) :
    ∃ text s', toPwmat s false = (text, none) ∧
      fromFile (fileLines text) (fileLines text) = .ok s' ∧
      s'.sites.map QSite.specie = s.sites.map QSite.specie ∧
      (∀ (k : Nat) (t t' : QSite), s.sites[k]? = some t → s'.sites[k]? = some t' →
        |t'.frac.x - t.frac.x| ≤ 5 / 10 ^ 7 ∧ |t'.frac.y - t.frac.y| ≤ 5 / 10 ^ 7 ∧
        |t'.frac.z - t.frac.z| ≤ 5 / 10 ^ 7) ∧
      (∀ f ∈ [Q3.x, Q3.y, Q3.z], |f s'.a - f s.a| ≤ 5 / 10 ^ 7 * |f s.a| ∧
        |f s'.b - f s.b| ≤ 5 / 10 ^ 7 * |f s.b| ∧ |f s'.c - f s.c| ≤ 5 / 10 ^ 7 * |f s.c|) := by
  obtain ⟨text, h1, h2⟩ := write_read s h
  have hc : (1 : ℚ) / 2 / 10 ^ 6 = 5 / 10 ^ 7 := by norm_num
  refine ⟨text, _, h1, h2, by simp [readBack], ?_, ?_⟩
  · intro k t t' ht ht'
    simp only [readBack, List.getElem?_map, ht, Option.map_some, Option.some.injEq] at ht'
    subst ht'
    rw [← hc]
    exact ⟨fixedValue_error 6 _, fixedValue_error 6 _, fixedValue_error 6 _⟩
  · intro f hf
    rw [← hc]
    simp only [List.mem_cons, List.not_mem_nil, or_false] at hf
    rcases hf with rfl | rfl | rfl <;>
      exact ⟨sciValue_error 6 _, sciValue_error 6 _, sciValue_error 6 _⟩

/-- A structure with negative, repeating and large entries. -/
def sampleStruct : QStruct := ⟨⟨5, 0, 0⟩, ⟨0, 11/2, 0⟩, ⟨-1/3, 0, 123456789/1000⟩,
  [⟨chars% "Si", ⟨1/4, 1/3, -2/3⟩⟩, ⟨chars% "O", ⟨0, 1/2, 1/8⟩⟩], some [1/3, -2]⟩

example : RealElements sampleStruct := by
  intro t ht
  simp only [sampleStruct, List.mem_cons, List.not_mem_nil, or_false] at ht
  rcases ht with rfl | rfl
  · exact ⟨14, by decide, by decide +kernel⟩
  · exact ⟨8, by decide, by decide +kernel⟩
example : toPwmat sampleStruct true = (chars% "  2 atoms\nLattice vector (Angstrom)\n   5.000000E+00      0.000000E+00      0.000000E+00  \n   0.000000E+00      5.500000E+00      0.000000E+00  \n   -3.333333E-01     0.000000E+00      1.234568E+05  \nPosition (normalized), move_x, move_y, move_z\n  14         0.250000           0.333333           -0.666667      1  1  1\n  8          0.000000           0.500000           0.125000       1  1  1\nMagnetic\n  14  0.33\n  8   -2.00\n", none) := by
  decide +kernel

/-! ## C62 -/

/-- C62: after one write/read cycle further cycles change nothing. -/
theorem C62_no_drift (s : QStruct) (h : RealElements s) :
    ∃ text s' text', toPwmat s false = (text, none) ∧
      fromFile (fileLines text) (fileLines text) = .ok s' ∧
      toPwmat s' false = (text', none) ∧
      fromFile (fileLines text') (fileLines text') = .ok s' := by
  obtain ⟨text, h1, h2⟩ := write_read s h
  have h' : RealElements (readBack s) := by
    intro t ht
    simp only [readBack, List.mem_map] at ht
    obtain ⟨u, hu, rfl⟩ := ht
    exact h u hu
  obtain ⟨text', h3, h4⟩ := write_read (readBack s) h'
  refine ⟨text, _, text', h1, h2, h3, ?_⟩
  rw [h4]
  congr 1
  unfold readBack
  simp only [sciValue_idem, List.map_map]
  congr 1
  apply List.map_congr_left
  intro t _
  simp [fixedValue_idem]

/-- The first cycle does change the structure. -/
example : readBack sampleStruct ≠ { sampleStruct with magmom := none } := by decide +kernel

/-! ## C08 -/

/-- C08: written moments come back, in order, within 0.005; the rest of the file is read as usual. -/
theorem C08_magmoms_roundtrip (s : QStruct) (ms : List ℚ) (h : RealElements s)
    (hm : s.magmom = some ms) (hl : ms.length = s.sites.length) :
    ∃ text info, toPwmat s true = (text, none) ∧
      acExtractor (fileLines text) (fileLines text) = .ok info ∧
      info.numAtoms = s.sites.length ∧
      (acMagmoms info.numAtoms (fileLines text)).length = s.sites.length ∧
      ∀ (k : Nat) (m m' : ℚ), ms[k]? = some m →
        (acMagmoms info.numAtoms (fileLines text))[k]? = some m' → |m' - m| ≤ 5 / 1000 := by
  obtain ⟨zs, h1, h2⟩ := realElements_numbers h
  have hzl : zs.length = s.sites.length := h1.length_eq.symm
  set mrows : List Str := (zs.zip ms).map (fun p => magText p.1 p.2) with hmr
  set tail : List Str := (chars% "Magnetic\n") :: mrows with htail
  have hw : toPwmat s true = ((fileRows s zs ++ tail).flatten, none) := by
    unfold toPwmat pwmatWrites
    rw [siteRows_ok h1, hm]
    have := magRows_ok ms h1 0 (by omega)
    rw [List.drop_zero] at this
    simp only [if_true]
    rw [this]
    have e : (Except.ok (chars% "Magnetic\n") : Except PyErr Str) ::
        ((zs.zip ms).map (fun p => magText p.1 p.2)).map .ok = tail.map .ok := by
      rw [htail]; rfl
    rw [e, ← List.map_append, ← List.map_append]
    have := runWrites_ok (headerRows s ++ (zs.zip s.sites).map (fun p => siteText p.1 p.2.frac) ++ tail) []
    rw [List.append_nil] at this
    rw [this]
    simp [runWrites, fileRows]
  have hlines : fileLines (fileRows s zs ++ tail).flatten = fileRows s zs ++ tail := by
    apply fileLines_flatten_rows
    intro r hr
    rcases List.mem_append.1 hr with hr | hr
    · unfold fileRows at hr
      rcases List.mem_append.1 hr with hr | hr
      · exact header_newline s r hr
      · obtain ⟨p, _, rfl⟩ := List.mem_map.1 hr
        exact plain_newline (siteText_body _ _)
    · rcases List.mem_cons.1 hr with rfl | hr
      · exact ⟨chars% "Magnetic", rfl, by decide⟩
      · obtain ⟨p, _, rfl⟩ := List.mem_map.1 hr
        exact plain_newline (magText_body _ _)
  have hx := acExtractor_written s zs tail hzl
  simp only at hx
  have hfl : (fileRows s zs).length = 6 + s.sites.length := by
    simp [fileRows, headerRows, hzl]; omega
  have hlast : pyGetI (lineLocate (fileRows s zs ++ tail) (chars% "MAGNETIC")) (-1)
      = .ok (6 + s.sites.length + 1) := by
    rw [pyGetI_last]
    refine ⟨6 + s.sites.length, rfl, ⟨chars% "Magnetic\n", ?_, by decide⟩, ?_⟩
    · rw [← hfl, List.getElem?_append_right (le_refl _)]; simp [htail]
    · intro j hj row hrow
      rw [List.getElem?_append_right (by omega), hfl] at hrow
      obtain ⟨i, hi⟩ : ∃ i, j - (6 + s.sites.length) = i + 1 := ⟨j - (6 + s.sites.length) - 1, by omega⟩
      rw [hi, htail, List.getElem?_cons_succ] at hrow
      have hmem := List.mem_of_getElem? hrow
      obtain ⟨p, _, rfl⟩ := List.mem_map.1 hmem
      exact not_in_plain (magText_body _ _) (l := 'M') (by decide) (by decide)
  have hblock : ((fileRows s zs ++ tail).drop (6 + s.sites.length + 1)).take s.sites.length = mrows := by
    rw [← hfl, List.drop_append, List.drop_eq_nil_of_le (by omega), htail]
    simp [hmr, hzl, hl]
  have hvals : mrows.mapM rowLast = .ok (ms.map (fixedValue 2)) := by
    rw [mapM_eq_ok, hmr]
    have hzm : zs.length = ms.length := by omega
    clear hblock hlast hx hlines hw htail tail hmr mrows hfl h2 h1 hzl hl hm
    induction zs generalizing ms with
    | nil =>
      cases ms with
      | nil => simp
      | cons m ms => simp at hzm
    | cons z zs ih =>
      cases ms with
      | nil => simp at hzm
      | cons m ms =>
        refine .cons ?_ (ih ms (by simpa using hzm))
        unfold rowLast
        rw [magText_split]
        exact parseFloat_fmtFixed 2 m
  have hmag : acMagmoms (s.sites.length : Int) (fileRows s zs ++ tail) = ms.map (fixedValue 2) := by
    unfold acMagmoms
    rw [hlast, ok_bind, sliceN_nonneg, hblock, hvals]
  refine ⟨_, _, hw, by rw [hlines]; exact hx, rfl, ?_, ?_⟩
  · rw [hlines]; simp only; rw [hmag]; simp [hl]
  · intro k m m' hk hk'
    rw [hlines] at hk'
    simp only at hk'
    rw [hmag, List.getElem?_map, hk] at hk'
    simp at hk'
    subst hk'
    have := fixedValue_error 2 m
    norm_num at this ⊢
    exact this

/-- C08: a file without a magnetic block gives one zero per atom. -/
theorem C08_no_block_zeros (rows : List Str) (n : Nat) (h : NoRow rows (chars% "MAGNETIC")) :
    acMagmoms (n : Int) rows = List.replicate n 0 := by
  unfold acMagmoms
  rw [lineLocate_noRow h]
  rfl

/-- C08: asking for moments a structure does not have is a `KeyError`, never invented values. -/
theorem C08_missing_property_is_error (s : QStruct) (h : RealElements s) (hm : s.magmom = none)
    (hne : s.sites ≠ []) : (toPwmat s true).2 = some .keyError := by
  obtain ⟨zs, h1, _⟩ := realElements_numbers h
  unfold toPwmat pwmatWrites
  rw [siteRows_ok h1, ← List.map_append, runWrites_ok]
  simp only [if_true, runWrites]
  cases hs : s.sites with
  | nil => exact absurd hs hne
  | cons t ts =>
    rw [hs] at h1
    cases h1 with
    | cons hz _ =>
      simp only [List.zipIdx_cons, List.map_cons, magRow, hz, hm, ok_bind, runWrites]

example : acMagmoms 2 (fileLines (toPwmat sampleStruct true).1) = [33/100, -2] := by decide +kernel
example : NoRow (fileLines (toPwmat sampleStruct false).1) (chars% "MAGNETIC") := by
  unfold NoRow; decide +kernel

/-! ## C09 -/

/-- C09, what holds: reading a path that was not read before in this process returns the structure
stored in the file (here: as written by `to`). Missing: paths that are in the line cache. -/
theorem C09_first_read_partial (w : World) (path : Str) (s : QStruct) (h : RealElements s)
    (hc : w.cache path = none) :
    ∃ s', (fun r : Option PyErr × World => (r.1, (r.2.read path).1)) (w.write path s false)
        = (none, .ok s') ∧
      s'.sites.map QSite.specie = s.sites.map QSite.specie ∧ s' = readBack s := by
  obtain ⟨text, h1, h2⟩ := write_read s h
  refine ⟨readBack s, ?_, by simp [readBack], rfl⟩
  simp only [World.write, h1, World.read, World.getlines, hc, if_true, h2]

/-- C09, what holds: reading an unchanged file again gives the same answer. -/
theorem C09_reread_unchanged_partial (w : World) (path : Str) (t : Str) (ht : w.files path = some t)
    (hc : w.cache path = none) :
    ((w.read path).2.read path).1 = (w.read path).1 := by
  simp only [World.read, World.getlines, hc, ht, if_true]

/-- C09 fails: the number of atoms and the lattice of a re-read come from the rows cached at the
first read, whatever has been written since. -/
theorem C09_stale_after_rewrite (w : World) (path : Str) (s : QStruct) (old : List Str)
    (hc : w.cache path = some old) :
    ((w.write path s false).2.read path).1 = fromFile old (fileLines (toPwmat s false).1) := by
  simp only [World.write, World.read, World.getlines, hc, if_true]

/-- C09 fails on a concrete history: write a cell of edge 5, read it, write a cell of edge 6, read
again: the second read still reports edge 5. -/
theorem C09_reread_violated :
    ∃ (w : World) (path : Str) (s1 s2 : QStruct), RealElements s1 ∧ RealElements s2 ∧
      w.cache path = none ∧
      let w1 := (w.write path s1 false).2
      let w2 := (w1.read path).2
      let w3 := (w2.write path s2 false).2
      (w3.read path).1 = .ok s1 ∧ s1.a ≠ s2.a ∧ (w3.files path = some (toPwmat s2 false).1) := by
  have hre : ∀ v, RealElements ⟨v, ⟨0, 5, 0⟩, ⟨0, 0, 5⟩, [⟨chars% "Si", ⟨0, 0, 0⟩⟩], none⟩ := by
    intro v t ht
    simp only [List.mem_cons, List.not_mem_nil, or_false] at ht
    subst ht
    exact ⟨14, by decide, by decide +kernel⟩
  refine ⟨⟨fun _ => none, fun _ => none⟩, chars% "a", ⟨⟨5, 0, 0⟩, ⟨0, 5, 0⟩, ⟨0, 0, 5⟩,
    [⟨chars% "Si", ⟨0, 0, 0⟩⟩], none⟩, ⟨⟨6, 0, 0⟩, ⟨0, 5, 0⟩, ⟨0, 0, 5⟩,
    [⟨chars% "Si", ⟨0, 0, 0⟩⟩], none⟩, hre _, hre _, rfl, ?_⟩
  decide +kernel

/-! ## C48 -/

/-- C48 fails for every text: `from_str` never returns a structure. Whenever the atom count is found
it raises `AttributeError` (attribute never set), otherwise `AttributeError` as well. -/
theorem C48_from_str_never_succeeds (text : Str) : fromStr text true = .error .attributeError := by
  unfold fromStr
  simp only [if_true]
  have hs : ∀ t : Str, searchAtoms t = .error .attributeError ∨ ∃ n, searchAtoms t = .ok n := by
    intro t
    induction t with
    | nil => left; rfl
    | cons c cs ih =>
      unfold searchAtoms
      simp only
      split
      · exact Or.inr ⟨_, rfl⟩
      · exact ih
  unfold acStr
  rcases hs text with h | ⟨n, h⟩
  · rw [h]; rfl
  · rw [h]; rfl

/-- C48 fails on a well-formed frame text, which the file reader accepts. -/
theorem C48_from_str_violated : ∃ text s, fromFile (fileLines text) (fileLines text) = .ok s ∧
    fromStr text true = .error .attributeError :=
  ⟨(toPwmat sampleStruct false).1, readBack sampleStruct, by decide +kernel,
    C48_from_str_never_succeeds _⟩

/-! ## C60 -/

/-- C60 fails: a file that announces three atoms and lists one is read without error, as a
structure with one atom. -/
theorem C60_truncated_accepted :
    ∃ text s, acNumAtoms (fileLines text) = .ok 3 ∧
      fromFile (fileLines text) (fileLines text) = .ok s ∧ s.sites.length = 1 :=
  ⟨chars% "3 atoms\nLattice\n1 0 0\n0 1 0\n0 0 1\nPosition\n14 0 0 0 1 1 1\n",
   ⟨⟨1, 0, 0⟩, ⟨0, 1, 0⟩, ⟨0, 0, 1⟩, [⟨chars% "Si", ⟨0, 0, 0⟩⟩], none⟩,
   by decide +kernel, by decide +kernel, rfl⟩

/-- C60, what holds: if the file has at least as many rows after the POSITION row as announced
atoms, then exactly that many atoms are returned. -/
theorem C60_enough_rows_partial (rows : List Str) (info : ACInfo) (n p : Nat)
    (h : acExtractor rows rows = .ok info) (hn : info.numAtoms = n)
    (hp : FirstRow rows (chars% "POSITION") p) (hrows : p + 1 + n ≤ rows.length) :
    info.types.length = n := by
  unfold acExtractor at h
  rw [bind_eq_ok] at h
  obtain ⟨n', h1, h⟩ := h
  rw [bind_eq_ok] at h
  obtain ⟨b, h2, h⟩ := h
  rw [bind_eq_ok] at h
  obtain ⟨t, h3, h⟩ := h
  rw [bind_eq_ok] at h
  obtain ⟨c, h4, h⟩ := h
  cases h
  simp only at hn
  subst hn
  unfold acTypes at h3
  rw [pyGet_lineLocate_zero.2 ⟨p, rfl, hp⟩, ok_bind, sliceN_nonneg, mapM_eq_ok] at h3
  have := h3.length_eq
  simp only [List.length_take, List.length_drop] at this
  simp only
  omega

/-- C60: exactly how many atoms an accepted file has: as many as announced, or as there are rows after the
POSITION row, whichever is less. So the claim holds exactly for files with enough rows. -/
theorem C60_count_exact (rows : List Str) (info : ACInfo) (n p : Nat)
    (h : acExtractor rows rows = .ok info) (hn : info.numAtoms = n)
    (hp : FirstRow rows (chars% "POSITION") p) :
    info.types.length = min n (rows.length - (p + 1)) ∧
      (info.types.length = n ↔ p + 1 + n ≤ rows.length ∨ n = 0) := by
  have hlen : info.types.length = min n (rows.length - (p + 1)) := by
    unfold acExtractor at h
    rw [bind_eq_ok] at h
    obtain ⟨n', h1, h⟩ := h
    rw [bind_eq_ok] at h
    obtain ⟨b, h2, h⟩ := h
    rw [bind_eq_ok] at h
    obtain ⟨t, h3, h⟩ := h
    rw [bind_eq_ok] at h
    obtain ⟨c, h4, h⟩ := h
    cases h
    simp only at hn
    subst hn
    unfold acTypes at h3
    rw [pyGet_lineLocate_zero.2 ⟨p, rfl, hp⟩, ok_bind, sliceN_nonneg, mapM_eq_ok] at h3
    have := h3.length_eq
    simp only [List.length_take, List.length_drop] at this
    simp only
    omega
  exact ⟨hlen, by omega⟩

example : ∃ info, acExtractor (fileLines (toPwmat sampleStruct false).1)
    (fileLines (toPwmat sampleStruct false).1) = .ok info ∧ info.types.length = 2 := by
  obtain ⟨info, h⟩ : ∃ info, acExtractor (fileLines (toPwmat sampleStruct false).1)
      (fileLines (toPwmat sampleStruct false).1) = .ok info := ⟨_, by
        exact acExtractor_written sampleStruct [14, 8] [] rfl |> fun h => by
          have e : fileLines (toPwmat sampleStruct false).1 = fileRows sampleStruct [14, 8] := by
            decide +kernel
          rw [e]; simpa using h⟩
  exact ⟨info, h, C60_enough_rows_partial _ info 2 5 h (by
    have := acExtractor_written sampleStruct [14, 8] [] rfl
    have e : fileLines (toPwmat sampleStruct false).1 = fileRows sampleStruct [14, 8] := by
      decide +kernel
    rw [e] at h
    simp only [List.append_nil] at this
    rw [h] at this
    cases this; rfl) (by
    have e : fileLines (toPwmat sampleStruct false).1 = fileRows sampleStruct [14, 8] := by
      decide +kernel
    rw [e]; exact firstRow_position sampleStruct _) (by decide +kernel)⟩

/-! ## C61 -/

/-- C61: what a failing write leaves behind. If the species of sites before `k` are known and that
of site `k` is not (for example an oxidation-state label such as `Li+`), the call raises `KeyError`
and the file holds the header and the first `k` sites only. -/
theorem C61_failed_write_leaves_prefix_partial (s : QStruct) (pre post : List QSite) (bad : QSite)
    (zs : List Nat) (mag : Bool)
    (hs : s.sites = pre ++ bad :: post)
    (hpre : List.Forall₂ (fun s z => numberOf s.specie = .ok z) pre zs)
    (hbad : bad.specie ∉ periodicTable) :
    toPwmat s mag = ((headerRows s ++ (zs.zip pre).map (fun p => siteText p.1 p.2.frac)).flatten,
      some .keyError) := by
  unfold toPwmat pwmatWrites
  rw [hs, List.map_append, siteRows_ok hpre, List.map_cons]
  have : siteRow bad = .error .keyError := by
    unfold siteRow
    rw [((C05_numberOf bad.specie).2).2 hbad]
    rfl
  rw [this, List.append_assoc, List.append_assoc, ← List.append_assoc, ← List.map_append, runWrites_ok]
  simp [runWrites]

/-- C61 fails: a write that raises leaves a file that reads back without error as a structure with
fewer atoms, and whatever the path held before is gone. -/
theorem C61_failed_write_readable :
    ∃ (w : World) (path : Str) (s : QStruct), s.sites.length = 2 ∧ w.cache path = none ∧
      (w.write path s false).1 = some .keyError ∧
      ∃ s', ((w.write path s false).2.read path).1 = .ok s' ∧ s'.sites.length = 1 :=
  ⟨⟨fun _ => some (toPwmat sampleStruct false).1, fun _ => none⟩, chars% "p",
   ⟨⟨1, 0, 0⟩, ⟨0, 1, 0⟩, ⟨0, 0, 1⟩,
     [⟨chars% "O", ⟨0, 0, 0⟩⟩, ⟨chars% "Li+", ⟨0, 0, 0⟩⟩], none⟩, rfl, rfl, by decide +kernel,
   ⟨⟨1, 0, 0⟩, ⟨0, 1, 0⟩, ⟨0, 0, 1⟩, [⟨chars% "O", ⟨0, 0, 0⟩⟩], none⟩, by decide +kernel, rfl⟩

end MaterSDK
