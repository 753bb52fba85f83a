import Verif.Props.StructIO

/-!
# C61 for every failing write
-/

set_option linter.unusedSectionVars false

namespace MaterSDK

/-- What the extractor reads from a header and fewer rows than announced. -/
theorem acExtractor_prefix (s : QStruct) (pre : List QSite) (zs : List Nat) (hlen : zs.length = pre.length)
    (hle : pre.length ≤ s.sites.length) :
    let rows := headerRows s ++ (zs.zip pre).map (fun p => siteText p.1 p.2.frac)
    acExtractor rows rows = .ok ⟨s.sites.length, sci3 s.a ++ sci3 s.b ++ sci3 s.c,
      zs.map (fun (z : Nat) => (z : Int)), (pre.map (fun t => fixed3 t.frac)).flatten⟩ := by
  intro rows
  have hrows : rows = headerRows s ++ (zs.zip pre).map (fun p => siteText p.1 p.2.frac) := rfl
  have hblock : (rows.drop 6).take s.sites.length
      = (zs.zip pre).map (fun p => siteText p.1 p.2.frac) := by
    rw [hrows, List.drop_left' (by simp [headerRows]), List.take_of_length_le (by simp [hlen, hle])]
  have hn : acNumAtoms rows = .ok (s.sites.length : Int) := by
    unfold acNumAtoms getline
    rw [hrows]
    simp only [Nat.one_ne_zero, if_false, Nat.sub_self, headerRows, List.cons_append,
      List.getElem?_cons_zero, Option.getD_some]
    rw [show (' ' :: ' ' :: ([] ++ showNat s.sites.length ++ (chars% " atoms\n"))) =
      (chars% "  ") ++ showNat s.sites.length ++ (chars% " atoms\n") from rfl]
    rw [headRow_split]
    exact parseInt_showNat _
  have hL : pyGet (lineLocate rows (chars% "LATTICE")) 0 = .ok 2 :=
    pyGet_lineLocate_zero.2 ⟨1, rfl, by rw [hrows]; exact firstRow_lattice s _⟩
  have hP : pyGet (lineLocate rows (chars% "POSITION")) 0 = .ok 6 :=
    pyGet_lineLocate_zero.2 ⟨5, rfl, by rw [hrows]; exact firstRow_position s _⟩
  have hb : acBasis rows rows = .ok (sci3 s.a ++ sci3 s.b ++ sci3 s.c) := by
    unfold acBasis
    rw [hL, ok_bind]
    have : [2 + 1, 2 + 2, 2 + 3].mapM (fun k => ((split (getline rows k)).take 3).mapM parseFloat)
        = .ok [sci3 s.a, sci3 s.b, sci3 s.c] := by
      rw [mapM_eq_ok, hrows]
      exact .cons (latticeRow_read _) (.cons (latticeRow_read _) (.cons (latticeRow_read _) .nil))
    rw [this, ok_bind]
    simp; rfl
  have ht : acTypes (s.sites.length : Int) rows = .ok (zs.map (fun (z : Nat) => (z : Int))) := by
    unfold acTypes
    rw [hP, ok_bind, sliceN_nonneg, hblock, mapM_eq_ok]
    clear hn hL hP hb hblock hrows rows hle
    induction zs generalizing pre with
    | nil => simp
    | cons z zs ih =>
      cases pre with
      | nil => simp at hlen
      | cons t ts => exact .cons (siteText_type _ _) (ih ts (by simpa using hlen))
  have hc : acCoords (s.sites.length : Int) rows
      = .ok (pre.map (fun t => fixed3 t.frac)).flatten := by
    unfold acCoords
    rw [hP, ok_bind, sliceN_nonneg, hblock]
    have : ((zs.zip pre).map (fun p => siteText p.1 p.2.frac)).mapM rowCoord
        = .ok (pre.map (fun t => fixed3 t.frac)) := by
      rw [mapM_eq_ok]
      clear hn hL hP hb hblock hrows ht rows hle
      induction zs generalizing pre with
      | nil =>
        cases pre with
        | nil => simp
        | cons t ts => simp at hlen
      | cons z zs ih =>
        cases pre with
        | nil => simp at hlen
        | cons t ts => exact .cons (siteText_coord _ _) (ih ts (by simpa using hlen))
    rw [this, ok_bind]
    apply npFlat_of_uniform (n := 3)
    intro r hr
    obtain ⟨t, _, rfl⟩ := List.mem_map.1 hr
    rfl
  unfold acExtractor
  rw [hn, ok_bind, hb, ok_bind, ht, ok_bind, hc, ok_bind]
  rfl

/-- The rows that reach the file. -/
theorem runWrites_rows (ws : List (Except PyErr Str)) :
    ∃ rs : List Str, (runWrites ws).1 = rs.flatten ∧ ∀ r ∈ rs, .ok r ∈ ws := by
  induction ws with
  | nil => exact ⟨[], rfl, by simp⟩
  | cons w ws ih =>
    cases w with
    | error e => exact ⟨[], rfl, by simp⟩
    | ok r =>
      obtain ⟨rs, h1, h2⟩ := ih
      refine ⟨r :: rs, ?_, ?_⟩
      · show r ++ (runWrites ws).1 = _
        rw [h1, List.flatten_cons]
      · intro x hx
        rcases List.mem_cons.1 hx with rfl | hx
        · simp
        · exact List.mem_cons_of_mem _ (h2 x hx)

/-- A list splits at the first element without the property. -/
theorem split_first {α : Type} (p : α → Prop) [DecidablePred p] (l : List α) (h : ∃ a ∈ l, ¬ p a) :
    ∃ pre a post, l = pre ++ a :: post ∧ (∀ x ∈ pre, p x) ∧ ¬ p a := by
  induction l with
  | nil => obtain ⟨a, ha, _⟩ := h; cases ha
  | cons b l ih =>
    by_cases hb : p b
    · obtain ⟨a, ha, hp⟩ := h
      obtain ⟨pre, a', post, h1, h2, h3⟩ := ih ⟨a, by
        rcases List.mem_cons.1 ha with rfl | ha
        · exact absurd hb hp
        · exact ha, hp⟩
      exact ⟨b :: pre, a', post, by rw [h1]; rfl, by simpa using ⟨hb, h2⟩, h3⟩
    · exact ⟨[], b, l, rfl, by simp, hb⟩

/-- C61 for every structure with a species that is not in the table, whatever the position of the first such
site: the write fails with `KeyError`, and what it leaves reads back, without error, as the structure of the
sites before that one. (Sites of the placeholder with number 0 are left out.) -/
theorem C61_every_failure (s : QStruct) (mag : Bool) (hbad : ∃ t ∈ s.sites, t.specie ∉ periodicTable)
    (h0 : ∀ t ∈ s.sites, periodicTable[0]? ≠ some t.specie) :
    ∃ pre bad post text, s.sites = pre ++ bad :: post ∧ (∀ t ∈ pre, t.specie ∈ periodicTable) ∧
      bad.specie ∉ periodicTable ∧ toPwmat s mag = (text, some .keyError) ∧
      fromFile (fileLines text) (fileLines text) = .ok (readBack { s with sites := pre }) := by
  obtain ⟨pre, bad, post, hs, hpre, hb⟩ := split_first (fun t : QSite => t.specie ∈ periodicTable) s.sites hbad
  have hreal : ∀ t ∈ pre, ∃ z, 1 ≤ z ∧ periodicTable[z]? = some t.specie := by
    intro t ht
    obtain ⟨z, hz⟩ := List.mem_iff_getElem?.1 (hpre t ht)
    refine ⟨z, ?_, hz⟩
    rcases Nat.eq_zero_or_pos z with rfl | hz'
    · exact absurd hz (h0 t (by rw [hs]; simp [ht]))
    · exact hz'
  obtain ⟨zs, e1, e2⟩ := realElements_numbers hreal
  refine ⟨pre, bad, post, _, hs, hpre, hb, C61_failed_write_leaves_prefix_partial s pre post bad zs mag hs e1 hb, ?_⟩
  rw [fileLines_flatten_rows]
  · unfold fromFile
    rw [acExtractor_prefix s pre zs e1.length_eq.symm (by rw [hs]; simp), ok_bind]
    exact buildStruct_written { s with sites := pre } s.sites.length e2
  · intro r hr
    rcases List.mem_append.1 hr with hr | hr
    · exact header_newline s r hr
    · obtain ⟨p, _, rfl⟩ := List.mem_map.1 hr
      exact plain_newline (siteText_body _ _)

/-- C61 for structures of real elements: whatever goes wrong with the magnetic moments, what is left reads back
with all atoms. So the claim fails exactly for the structures of `C61_every_failure`. -/
theorem C61_moments (s : QStruct) (mag : Bool) (h : RealElements s) :
    fromFile (fileLines (toPwmat s mag).1) (fileLines (toPwmat s mag).1) = .ok (readBack s) := by
  obtain ⟨zs, e1, e2⟩ := realElements_numbers h
  obtain ⟨tail, ht, hrows⟩ : ∃ tail : List Str, (toPwmat s mag).1 = (fileRows s zs ++ tail).flatten ∧
      ∀ r ∈ tail, ∃ body, r = body ++ ['\n'] ∧ '\n' ∉ body := by
    unfold toPwmat pwmatWrites
    rw [siteRows_ok e1, ← List.map_append, runWrites_ok]
    obtain ⟨rs, r1, r2⟩ := runWrites_rows (if mag then .ok (chars% "Magnetic\n") ::
      s.sites.zipIdx.map (fun p => magRow s.magmom p.2 p.1) else [])
    refine ⟨rs, ?_, ?_⟩
    · show _ ++ (runWrites _).1 = _
      rw [r1]
      simp only [fileRows, List.flatten_append]
    · intro r hr
      have := r2 r hr
      cases mag with
      | false => simp at this
      | true =>
        simp only [if_true, List.mem_cons, Except.ok.injEq] at this
        rcases this with rfl | this
        · exact ⟨chars% "Magnetic", rfl, by decide⟩
        · obtain ⟨p, _, hp⟩ := List.mem_map.1 this
          unfold magRow at hp
          obtain ⟨z, _, hp⟩ := bind_eq_ok.1 hp
          cases hm : s.magmom with
          | none => rw [hm] at hp; cases hp
          | some ms =>
            rw [hm] at hp
            obtain ⟨m, _, hp⟩ := bind_eq_ok.1 hp
            cases hp
            exact plain_newline (magText_body _ _)
  rw [ht, fileLines_flatten_rows]
  · have hx := acExtractor_written s zs tail e1.length_eq.symm
    simp only at hx
    unfold fromFile
    rw [hx, ok_bind, buildStruct_written s _ e2]
  · intro r hr
    rcases List.mem_append.1 hr with hr | hr
    · unfold fileRows at hr
      rcases List.mem_append.1 hr with hr | hr
      · exact header_newline s r hr
      · obtain ⟨p, _, rfl⟩ := List.mem_map.1 hr
        exact plain_newline (siteText_body _ _)
    · exact hrows r hr

/-- Oxygen, then lithium with an oxidation state. -/
def chargedStruct : QStruct := ⟨⟨1, 0, 0⟩, ⟨0, 1, 0⟩, ⟨0, 0, 1⟩,
  [⟨chars% "O", ⟨0, 0, 0⟩⟩, ⟨chars% "Li+", ⟨0, 0, 0⟩⟩], none⟩

example := C61_every_failure chargedStruct false ⟨⟨chars% "Li+", ⟨0, 0, 0⟩⟩, by decide, by decide +kernel⟩
  (by decide +kernel)

/-- Moments are asked for but missing: the write fails and the file has all atoms. -/
example : (toPwmat { sampleStruct with magmom := none } true).2 = some .keyError := by decide +kernel

end MaterSDK
