import Verif.Model.StructIO
import Verif.Lemmas.AC
import Verif.Lemmas.Split
import Verif.Props.Elements

/-! # Lemmas on the atom.config writer -/

namespace MaterSDK

theorem numChar_spaces {s : Str} (h : ∀ c ∈ s, numChar c = true) : ∀ c ∈ s, isSpace c = false :=
  fun c hc => numChar_not_space (h c hc)

theorem digits_numChar {s : Str} (h : ∀ c ∈ s, c.isDigit = true) : ∀ c ∈ s, numChar c = true :=
  fun c hc => by simp [numChar, h c hc]

/-- Characters that occur in rows of numbers. -/
def plainChar (c : Char) : Bool := numChar c || c = ' ' || c = '\n'

theorem plainChar_upper {c : Char} (h : plainChar c = true) : c.toUpper = c := by
  unfold plainChar numChar at h
  simp only [Bool.or_eq_true, decide_eq_true_eq] at h
  rcases h with (((((h | h) | h) | h) | h) | h) | h
  · unfold Char.isDigit at h
    simp only [Bool.and_eq_true, decide_eq_true_eq, ge_iff_le, UInt32.le_iff_toNat_le] at h
    have h2 : c.toNat ≤ 57 := h.2
    rcases toUpper_range c with ⟨h3, _, _⟩ | ⟨_, h3⟩
    · omega
    · exact h3
  all_goals subst h; decide

theorem ljust_mem {k : Nat} {s : Str} {c : Char} (h : c ∈ ljust k s) : c ∈ s ∨ c = ' ' := by
  unfold ljust at h
  rcases List.mem_append.1 h with h | h
  · exact Or.inl h
  · exact Or.inr (List.eq_of_mem_replicate h)

theorem ljust_plain {k : Nat} {s : Str} (h : ∀ c ∈ s, numChar c = true) :
    ∀ c ∈ ljust k s, numChar c = true ∨ c = ' ' := by
  intro c hc
  rcases ljust_mem hc with hc | hc
  · exact Or.inl (h c hc)
  · exact Or.inr hc

theorem latticeRow_body (v : Q3) : ∃ body, latticeRow v = body ++ ['\n'] ∧
    ∀ c ∈ body, numChar c = true ∨ c = ' ' := by
  refine ⟨_, rfl, ?_⟩
  intro c hc
  simp only [List.mem_append] at hc
  rcases hc with ((((hc | hc) | hc) | hc) | hc) | hc
  · right; simpa using hc
  · exact ljust_plain (fmtSci_chars 6 _) c hc
  · right; simpa using hc
  · exact ljust_plain (fmtSci_chars 6 _) c hc
  · right; simpa using hc
  · exact ljust_plain (fmtSci_chars 6 _) c hc

theorem siteText_body (z : Nat) (v : Q3) : ∃ body, siteText z v = body ++ ['\n'] ∧
    ∀ c ∈ body, numChar c = true ∨ c = ' ' := by
  refine ⟨(chars% "  ") ++ ljust 2 (showNat z) ++ (chars% "         ") ++ ljust 10 (fmtFixed 6 v.x) ++
    (chars% "         ") ++ ljust 10 (fmtFixed 6 v.y) ++ (chars% "         ") ++
    ljust 10 (fmtFixed 6 v.z) ++ (chars% "     1  1  1"), by simp [siteText], ?_⟩
  intro c hc
  simp only [List.mem_append] at hc
  rcases hc with (((((((hc | hc) | hc) | hc) | hc) | hc) | hc) | hc) | hc
  · right; simpa using hc
  · exact ljust_plain (digits_numChar (showNat_spec z).2.1) c hc
  · right; simpa using hc
  · exact ljust_plain (fmtFixed_chars 6 _) c hc
  · right; simpa using hc
  · exact ljust_plain (fmtFixed_chars 6 _) c hc
  · right; simpa using hc
  · exact ljust_plain (fmtFixed_chars 6 _) c hc
  · have : ∀ c ∈ (chars% "     1  1  1"), numChar c = true ∨ c = ' ' := by decide
    exact this c hc

theorem magText_body (z : Nat) (m : ℚ) : ∃ body, magText z m = body ++ ['\n'] ∧
    ∀ c ∈ body, numChar c = true ∨ c = ' ' := by
  refine ⟨_, rfl, ?_⟩
  intro c hc
  simp only [List.mem_append] at hc
  rcases hc with ((hc | hc) | hc) | hc
  · right; simpa using hc
  · exact ljust_plain (digits_numChar (showNat_spec z).2.1) c hc
  · right; simpa using hc
  · exact Or.inl (fmtFixed_chars 2 _ c hc)

theorem latticeRow_split (v : Q3) :
    split (latticeRow v) = [fmtSci 6 v.x, fmtSci 6 v.y, fmtSci 6 v.z] := by
  have hs := fun q => numChar_spaces (fmtSci_chars 6 q)
  have hn := fmtSci_ne_nil 6
  unfold latticeRow
  simp only [List.append_assoc, List.cons_append, List.nil_append]
  rw [split_space (by decide), split_space (by decide), split_space (by decide),
    split_ljust 14 (hn _) (hs _) (by decide), split_space (by decide), split_space (by decide),
    split_space (by decide), split_ljust 14 (hn _) (hs _) (by decide), split_space (by decide),
    split_space (by decide), split_space (by decide), split_ljust 14 (hn _) (hs _) (by decide)]
  rfl

theorem siteText_split (z : Nat) (v : Q3) :
    split (siteText z v) = [showNat z, fmtFixed 6 v.x, fmtFixed 6 v.y, fmtFixed 6 v.z,
      ['1'], ['1'], ['1']] := by
  have hs := fun q => numChar_spaces (fmtFixed_chars 6 q)
  have hn := fmtFixed_ne_nil 6
  obtain ⟨_, h2, h3⟩ := showNat_spec z
  have hz : ∀ c ∈ showNat z, isSpace c = false := fun c hc => digit_not_space (h2 c hc)
  unfold siteText
  simp only [List.append_assoc, List.cons_append, List.nil_append]
  rw [split_space (by decide), split_space (by decide), split_ljust 2 h3 hz (by decide)]
  iterate 8 rw [split_space (by decide)]
  rw [split_ljust 10 (hn _) (hs _) (by decide)]
  iterate 8 rw [split_space (by decide)]
  rw [split_ljust 10 (hn _) (hs _) (by decide)]
  iterate 8 rw [split_space (by decide)]
  rw [split_ljust 10 (hn _) (hs _) (by decide)]
  rfl

theorem magText_split (z : Nat) (m : ℚ) : split (magText z m) = [showNat z, fmtFixed 2 m] := by
  obtain ⟨_, h2, h3⟩ := showNat_spec z
  have hz : ∀ c ∈ showNat z, isSpace c = false := fun c hc => digit_not_space (h2 c hc)
  unfold magText
  simp only [List.append_assoc, List.cons_append, List.nil_append]
  rw [split_space (by decide), split_space (by decide), split_ljust 3 h3 hz (by decide),
    split_word (fmtFixed_ne_nil 2 m) (numChar_spaces (fmtFixed_chars 2 m)) (by decide)]
  rfl

theorem headRow_split (n : Nat) :
    split ((chars% "  ") ++ showNat n ++ (chars% " atoms\n")) = [showNat n, chars% "atoms"] := by
  obtain ⟨_, h2, h3⟩ := showNat_spec n
  have hz : ∀ c ∈ showNat n, isSpace c = false := fun c hc => digit_not_space (h2 c hc)
  simp only [List.cons_append, List.nil_append]
  rw [split_space (by decide), split_space (by decide), split_word h3 hz (by decide)]
  rfl

/-- A content containing a letter other than `E` is not in a row of numbers. -/
theorem not_in_plain {row content : Str} (h : ∃ body, row = body ++ ['\n'] ∧
    ∀ c ∈ body, numChar c = true ∨ c = ' ') {l : Char} (hl : l ∈ content)
    (hp : plainChar l = false) : ¬ content <:+: row.map Char.toUpper := by
  intro hi
  have hm := hi.subset hl
  obtain ⟨c, hc, rfl⟩ := List.mem_map.1 hm
  obtain ⟨body, rfl, hb⟩ := h
  have hpc : plainChar c = true := by
    unfold plainChar
    rcases List.mem_append.1 hc with hc | hc
    · rcases hb c hc with hb | hb <;> simp [hb]
    · simp at hc; simp [hc]
  rw [plainChar_upper hpc, hpc] at hp
  cases hp

theorem not_in_head (n : Nat) {content : Str} {l : Char} (hl : l ∈ content)
    (hp : plainChar l = false) (hp' : l ∉ (chars% "ATOMS")) :
    ¬ content <:+: ((chars% "  ") ++ showNat n ++ (chars% " atoms\n")).map Char.toUpper := by
  intro hi
  have hm := hi.subset hl
  obtain ⟨c, hc, rfl⟩ := List.mem_map.1 hm
  simp only [List.mem_append] at hc
  rcases hc with (hc | hc) | hc
  · have : c = ' ' := by simpa using hc
    subst this; exact absurd hp (by decide)
  · have hpc : plainChar c = true := by simp [plainChar, numChar, (showNat_spec n).2.1 c hc]
    rw [plainChar_upper hpc, hpc] at hp; cases hp
  · have : ∀ c ∈ (chars% " atoms\n"), plainChar c.toUpper = true ∨ c.toUpper ∈ (chars% "ATOMS") := by
      decide
    rcases this c hc with h | h
    · rw [h] at hp; cases hp
    · exact hp' h

/-- The file written for a structure whose sites have atomic numbers `zs`. -/
def fileRows (s : QStruct) (zs : List Nat) : List Str :=
  headerRows s ++ (zs.zip s.sites).map (fun p => siteText p.1 p.2.frac)

theorem runWrites_ok (rs : List Str) (rest : List (Except PyErr Str)) :
    runWrites (rs.map .ok ++ rest) = (rs.flatten ++ (runWrites rest).1, (runWrites rest).2) := by
  induction rs with
  | nil => simp
  | cons r rs ih =>
    simp only [List.map_cons, List.cons_append, runWrites]
    rw [ih]; simp

theorem siteRows_ok {sites : List QSite} {zs : List Nat}
    (h : List.Forall₂ (fun s z => numberOf s.specie = .ok z) sites zs) :
    sites.map siteRow = ((zs.zip sites).map (fun p => siteText p.1 p.2.frac)).map .ok := by
  induction h with
  | nil => rfl
  | cons h1 _ ih =>
    simp only [List.map_cons, List.zip_cons_cons]
    rw [ih]
    congr 1
    simp only [siteRow, h1]; rfl

theorem toPwmat_ok {s : QStruct} {zs : List Nat}
    (h : List.Forall₂ (fun s z => numberOf s.specie = .ok z) s.sites zs) :
    toPwmat s false = ((fileRows s zs).flatten, none) := by
  unfold toPwmat pwmatWrites fileRows
  rw [siteRows_ok h]
  simp only [Bool.false_eq_true, if_false]
  rw [← List.map_append, runWrites_ok]
  simp [runWrites]

theorem header_newline (s : QStruct) :
    ∀ r ∈ headerRows s, ∃ body, r = body ++ ['\n'] ∧ '\n' ∉ body := by
  have plain : ∀ {r : Str}, (∃ body, r = body ++ ['\n'] ∧ ∀ c ∈ body, numChar c = true ∨ c = ' ') →
      ∃ body, r = body ++ ['\n'] ∧ '\n' ∉ body := by
    rintro r ⟨body, e, hb⟩
    refine ⟨body, e, fun hn => ?_⟩
    rcases hb _ hn with h | h <;> exact absurd h (by decide)
  intro r hr
  simp only [headerRows, List.mem_cons, List.not_mem_nil, or_false] at hr
  rcases hr with rfl | rfl | rfl | rfl | rfl | rfl
  · refine ⟨(chars% "  ") ++ showNat s.sites.length ++ (chars% " atoms"), by simp, ?_⟩
    simp only [List.mem_append, not_or]
    refine ⟨⟨by decide, ?_⟩, by decide⟩
    intro h
    exact absurd ((showNat_spec _).2.1 _ h) (by decide)
  · exact ⟨chars% "Lattice vector (Angstrom)", rfl, by decide⟩
  · exact plain (latticeRow_body _)
  · exact plain (latticeRow_body _)
  · exact plain (latticeRow_body _)
  · exact ⟨chars% "Position (normalized), move_x, move_y, move_z", rfl, by decide⟩

theorem plain_newline {r : Str} (h : ∃ body, r = body ++ ['\n'] ∧ ∀ c ∈ body, numChar c = true ∨ c = ' ') :
    ∃ body, r = body ++ ['\n'] ∧ '\n' ∉ body := by
  obtain ⟨body, e, hb⟩ := h
  refine ⟨body, e, fun hn => ?_⟩
  rcases hb _ hn with h | h <;> exact absurd h (by decide)

theorem fileLines_fileRows (s : QStruct) (zs : List Nat) :
    fileLines (fileRows s zs).flatten = fileRows s zs := by
  apply fileLines_flatten_rows
  intro r hr
  unfold fileRows at hr
  rcases List.mem_append.1 hr with hr | hr
  · exact header_newline s r hr
  · obtain ⟨p, _, rfl⟩ := List.mem_map.1 hr
    exact plain_newline (siteText_body _ _)

theorem firstRow_lattice (s : QStruct) (tail : List Str) :
    FirstRow (headerRows s ++ tail) (chars% "LATTICE") 1 := by
  refine ⟨⟨chars% "Lattice vector (Angstrom)\n", rfl, by decide⟩, ?_⟩
  intro j hj row hrow
  have : j = 0 := by omega
  subst this
  simp only [headerRows, List.cons_append, List.getElem?_cons_zero, Option.some.injEq] at hrow
  subst hrow
  exact not_in_head _ (l := 'L') (by decide) (by decide) (by decide)

theorem firstRow_position (s : QStruct) (tail : List Str) :
    FirstRow (headerRows s ++ tail) (chars% "POSITION") 5 := by
  refine ⟨⟨chars% "Position (normalized), move_x, move_y, move_z\n", rfl, by decide⟩, ?_⟩
  intro j hj row hrow
  interval_cases j
  all_goals
    simp only [headerRows, List.cons_append, List.getElem?_cons_zero, List.getElem?_cons_succ,
      Option.some.injEq] at hrow
    subst hrow
  · exact not_in_head _ (l := 'P') (by decide) (by decide) (by decide)
  · decide
  · exact not_in_plain (latticeRow_body _) (l := 'P') (by decide) (by decide)
  · exact not_in_plain (latticeRow_body _) (l := 'P') (by decide) (by decide)
  · exact not_in_plain (latticeRow_body _) (l := 'P') (by decide) (by decide)

/-- The values read back for a triple printed in scientific or fixed format. -/
def sci3 (v : Q3) : List ℚ := [sciValue 6 v.x, sciValue 6 v.y, sciValue 6 v.z]
def fixed3 (v : Q3) : List ℚ := [fixedValue 6 v.x, fixedValue 6 v.y, fixedValue 6 v.z]

theorem latticeRow_read (v : Q3) : ((split (latticeRow v)).take 3).mapM parseFloat = .ok (sci3 v) := by
  rw [latticeRow_split]
  rw [mapM_eq_ok]
  exact .cons (parseFloat_fmtSci 6 _) (.cons (parseFloat_fmtSci 6 _)
    (.cons (parseFloat_fmtSci 6 _) .nil))

theorem siteText_coord (z : Nat) (v : Q3) : rowCoord (siteText z v) = .ok (fixed3 v) := by
  unfold rowCoord pySlice
  rw [siteText_split, mapM_eq_ok]
  exact .cons (parseFloat_fmtFixed 6 _) (.cons (parseFloat_fmtFixed 6 _)
    (.cons (parseFloat_fmtFixed 6 _) .nil))

theorem siteText_type (z : Nat) (v : Q3) : rowType (siteText z v) = .ok (z : Int) := by
  unfold rowType
  rw [siteText_split]
  exact parseInt_showNat z

theorem acExtractor_written (s : QStruct) (zs : List Nat) (tail : List Str)
    (hlen : zs.length = s.sites.length) :
    let rows := fileRows s zs ++ tail
    acExtractor rows rows = .ok ⟨s.sites.length, sci3 s.a ++ sci3 s.b ++ sci3 s.c,
      zs.map (fun (z : Nat) => (z : Int)), (s.sites.map (fun t => fixed3 t.frac)).flatten⟩ := by
  intro rows
  have hrows : rows = headerRows s ++ ((zs.zip s.sites).map (fun p => siteText p.1 p.2.frac) ++ tail) := by
    simp [rows, fileRows]
  have hblock : (rows.drop 6).take s.sites.length
      = (zs.zip s.sites).map (fun p => siteText p.1 p.2.frac) := by
    rw [hrows, List.drop_left' (by simp [headerRows]), List.take_left' (by simp [hlen])]
  have hn : acNumAtoms rows = .ok (s.sites.length : Int) := by
    unfold acNumAtoms getline
    rw [hrows]
    simp only [Nat.one_ne_zero, if_false, Nat.sub_self, headerRows, List.cons_append,
      List.getElem?_cons_zero, Option.getD_some]
    rw [show (' ' :: ' ' :: ([] ++ showNat s.sites.length ++ (chars% " atoms\n"))) =
      (chars% "  ") ++ showNat s.sites.length ++ (chars% " atoms\n") from rfl]
    rw [headRow_split]
    exact parseInt_showNat _
  have hL : pyGet (lineLocate rows (chars% "LATTICE")) 0 = .ok 2 :=
    pyGet_lineLocate_zero.2 ⟨1, rfl, by rw [hrows]; exact firstRow_lattice s _⟩
  have hP : pyGet (lineLocate rows (chars% "POSITION")) 0 = .ok 6 :=
    pyGet_lineLocate_zero.2 ⟨5, rfl, by rw [hrows]; exact firstRow_position s _⟩
  have hb : acBasis rows rows = .ok (sci3 s.a ++ sci3 s.b ++ sci3 s.c) := by
    unfold acBasis
    rw [hL, ok_bind]
    have : [2 + 1, 2 + 2, 2 + 3].mapM (fun k => ((split (getline rows k)).take 3).mapM parseFloat)
        = .ok [sci3 s.a, sci3 s.b, sci3 s.c] := by
      rw [mapM_eq_ok, hrows]
      exact .cons (latticeRow_read _) (.cons (latticeRow_read _) (.cons (latticeRow_read _) .nil))
    rw [this, ok_bind]
    simp; rfl
  have ht : acTypes (s.sites.length : Int) rows = .ok (zs.map (fun (z : Nat) => (z : Int))) := by
    unfold acTypes
    rw [hP, ok_bind, sliceN_nonneg, hblock, mapM_eq_ok]
    clear hn hL hP hb hblock hrows
    generalize s.sites = ss at hlen
    induction zs generalizing ss with
    | nil => simp
    | cons z zs ih =>
      cases ss with
      | nil => simp at hlen
      | cons t ts => exact .cons (siteText_type _ _) (ih ts (by simpa using hlen))
  have hc : acCoords (s.sites.length : Int) rows
      = .ok (s.sites.map (fun t => fixed3 t.frac)).flatten := by
    unfold acCoords
    rw [hP, ok_bind, sliceN_nonneg, hblock]
    have : ((zs.zip s.sites).map (fun p => siteText p.1 p.2.frac)).mapM rowCoord
        = .ok (s.sites.map (fun t => fixed3 t.frac)) := by
      rw [mapM_eq_ok]
      clear hn hL hP hb hblock hrows ht
      generalize s.sites = ss at hlen
      induction zs generalizing ss with
      | nil =>
        cases ss with
        | nil => simp
        | cons t ts => simp at hlen
      | cons z zs ih =>
        cases ss with
        | nil => simp at hlen
        | cons t ts => exact .cons (siteText_coord _ _) (ih ts (by simpa using hlen))
    rw [this, ok_bind]
    apply npFlat_of_uniform (n := 3)
    intro r hr
    obtain ⟨t, _, rfl⟩ := List.mem_map.1 hr
    rfl
  unfold acExtractor
  rw [hn, ok_bind, hb, ok_bind, ht, ok_bind, hc, ok_bind]
  rfl

theorem reshape3_flatten (sites : List QSite) :
    reshape3 (sites.map (fun t => fixed3 t.frac)).flatten
      = .ok (sites.map (fun t => ⟨fixedValue 6 t.frac.x, fixedValue 6 t.frac.y, fixedValue 6 t.frac.z⟩)) := by
  induction sites with
  | nil => rfl
  | cons t ts ih =>
    simp only [List.map_cons, List.flatten_cons, fixed3, List.cons_append, List.nil_append, reshape3]
    rw [show (fun t : QSite => [fixedValue 6 t.frac.x, fixedValue 6 t.frac.y, fixedValue 6 t.frac.z])
      = (fun t => fixed3 t.frac) from rfl, ih]
    rfl

end MaterSDK
