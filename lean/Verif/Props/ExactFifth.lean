import Verif.Props.StructIO
import Verif.Props.Dos

/-! # C09, C58, C80: exactly when they hold -/

namespace MaterSDK

/-! ## C09 -/

/-- What reading gives when the cached rows are those of `s1` and the file is that of `s2`. -/
theorem acExtractor_mixed (s1 s2 : QStruct) (zs1 zs2 : List Nat) (hlen : zs2.length = s2.sites.length) :
    acExtractor (fileRows s1 zs1) (fileRows s2 zs2) = .ok ⟨s1.sites.length, sci3 s1.a ++ sci3 s1.b ++ sci3 s1.c,
      (zs2.take s1.sites.length).map (fun (z : Nat) => (z : Int)),
      ((s2.sites.take s1.sites.length).map (fun t => fixed3 t.frac)).flatten⟩ := by
  have hblock : ((fileRows s2 zs2).drop 6).take s1.sites.length
      = ((zs2.take s1.sites.length).zip (s2.sites.take s1.sites.length)).map
          (fun p => siteText p.1 p.2.frac) := by
    unfold fileRows
    rw [List.drop_left' (by simp [headerRows]), ← List.map_take, List.zip, List.take_zipWith]
  have hlen' : (zs2.take s1.sites.length).length = (s2.sites.take s1.sites.length).length := by simp [hlen]
  have hn : acNumAtoms (fileRows s1 zs1) = .ok (s1.sites.length : Int) := by
    unfold acNumAtoms getline fileRows
    simp only [Nat.one_ne_zero, if_false, Nat.sub_self, headerRows, List.cons_append,
      List.getElem?_cons_zero, Option.getD_some]
    rw [show (' ' :: ' ' :: ([] ++ showNat s1.sites.length ++ (chars% " atoms\n"))) =
      (chars% "  ") ++ showNat s1.sites.length ++ (chars% " atoms\n") from rfl]
    rw [headRow_split]
    exact parseInt_showNat _
  have hL : pyGet (lineLocate (fileRows s2 zs2) (chars% "LATTICE")) 0 = .ok 2 :=
    pyGet_lineLocate_zero.2 ⟨1, rfl, firstRow_lattice s2 _⟩
  have hP : pyGet (lineLocate (fileRows s2 zs2) (chars% "POSITION")) 0 = .ok 6 :=
    pyGet_lineLocate_zero.2 ⟨5, rfl, firstRow_position s2 _⟩
  have hb : acBasis (fileRows s1 zs1) (fileRows s2 zs2) = .ok (sci3 s1.a ++ sci3 s1.b ++ sci3 s1.c) := by
    unfold acBasis
    rw [hL, ok_bind]
    have : [2 + 1, 2 + 2, 2 + 3].mapM (fun k => ((split (getline (fileRows s1 zs1) k)).take 3).mapM parseFloat)
        = .ok [sci3 s1.a, sci3 s1.b, sci3 s1.c] := by
      rw [mapM_eq_ok]
      exact .cons (latticeRow_read _) (.cons (latticeRow_read _) (.cons (latticeRow_read _) .nil))
    rw [this, ok_bind]
    simp; rfl
  have ht : acTypes (s1.sites.length : Int) (fileRows s2 zs2)
      = .ok ((zs2.take s1.sites.length).map (fun (z : Nat) => (z : Int))) := by
    unfold acTypes
    rw [hP, ok_bind, sliceN_nonneg, hblock, mapM_eq_ok]
    clear hn hL hP hb hblock
    revert hlen'
    generalize zs2.take s1.sites.length = zs
    generalize s2.sites.take s1.sites.length = ss
    intro hlen'
    induction zs generalizing ss with
    | nil => simp
    | cons z zs ih =>
      cases ss with
      | nil => simp at hlen'
      | cons t ts => exact .cons (siteText_type _ _) (ih ts (by simpa using hlen'))
  have hc : acCoords (s1.sites.length : Int) (fileRows s2 zs2)
      = .ok ((s2.sites.take s1.sites.length).map (fun t => fixed3 t.frac)).flatten := by
    unfold acCoords
    rw [hP, ok_bind, sliceN_nonneg, hblock]
    clear hn hL hP hb hblock ht
    revert hlen'
    generalize zs2.take s1.sites.length = zs
    generalize s2.sites.take s1.sites.length = ss
    intro hlen'
    have : ((zs.zip ss).map (fun p => siteText p.1 p.2.frac)).mapM rowCoord
        = .ok (ss.map (fun t => fixed3 t.frac)) := by
      rw [mapM_eq_ok]
      induction zs generalizing ss with
      | nil =>
        cases ss with
        | nil => simp
        | cons t ts => simp at hlen'
      | cons z zs ih =>
        cases ss with
        | nil => simp at hlen'
        | cons t ts => exact .cons (siteText_coord _ _) (ih ts (by simpa using hlen'))
    rw [this, ok_bind]
    apply npFlat_of_uniform (n := 3)
    intro r hr
    obtain ⟨t, _, rfl⟩ := List.mem_map.1 hr
    rfl
  unfold acExtractor
  rw [hn, ok_bind, hb, ok_bind, ht, ok_bind, hc, ok_bind]
  rfl

theorem toPwmat_sites_take {s : QStruct} (h : RealElements s) (n : ℕ) :
    RealElements { s with sites := s.sites.take n } := by
  intro t ht
  exact h t (List.mem_of_mem_take ht)

/-- C09, every pair of structures: write `s1`, read it, write `s2` to the same path, read again. The second
read succeeds; it reports the lattice of `s1` and, of the atoms of `s2`, the first as many as `s1` has. So it
reports what was written exactly when `s2` has no more atoms than `s1` and both lattices are printed alike. -/
theorem C09_reread_exact (w : World) (path : Str) (s1 s2 : QStruct) (h1 : RealElements s1)
    (h2 : RealElements s2) (hc : w.cache path = none) :
    let w1 := (w.write path s1 false).2
    let w2 := (w1.read path).2
    let w3 := (w2.write path s2 false).2
    (w3.read path).1 = .ok { readBack s1 with sites := (readBack s2).sites.take s1.sites.length } ∧
    ((w3.read path).1 = .ok (readBack s2) ↔ s2.sites.length ≤ s1.sites.length ∧
      (readBack s1).a = (readBack s2).a ∧ (readBack s1).b = (readBack s2).b ∧
      (readBack s1).c = (readBack s2).c) := by
  intro w1 w2 w3
  obtain ⟨zs1, a1, b1⟩ := realElements_numbers h1
  obtain ⟨zs2, a2, b2⟩ := realElements_numbers h2
  have hcache : w2.cache path = some (fileRows s1 zs1) := by
    simp only [w2, w1, World.write, World.read, World.getlines, hc, if_true, toPwmat_ok a1,
      fileLines_fileRows]
  have hr : (w3.read path).1 = .ok { readBack s1 with sites := (readBack s2).sites.take s1.sites.length } := by
    have e := C09_stale_after_rewrite w2 path s2 _ hcache
    rw [toPwmat_ok a2, fileLines_fileRows] at e
    refine e.trans ?_
    unfold fromFile
    rw [acExtractor_mixed s1 s2 zs1 zs2 a2.length_eq.symm, ok_bind]
    have hb : ((zs2.take s1.sites.length).map (fun (z : Nat) => (z : Int))).mapM elementOf
        = .ok ((s2.sites.take s1.sites.length).map QSite.specie) := by
      rw [mapM_eq_ok] at b2 ⊢
      rw [List.map_take, List.map_take]
      exact List.forall₂_take _ b2
    have := buildStruct_written { s1 with sites := s2.sites.take s1.sites.length } (s1.sites.length : Int) hb
    refine this.trans ?_
    simp only [readBack, List.map_take]
  refine ⟨hr, ?_⟩
  rw [hr, Except.ok.injEq]
  have hl : (readBack s2).sites.length = s2.sites.length := by simp [readBack]
  constructor
  · intro e
    refine ⟨?_, by rw [← e], by rw [← e], by rw [← e]⟩
    have := congrArg (fun s : QStruct => s.sites.length) e
    simp only [List.length_take, hl] at this
    omega
  · rintro ⟨e0, ea, eb, ec⟩
    have e4 : (readBack s2).sites.take s1.sites.length = (readBack s2).sites :=
      List.take_of_length_le (by omega)
    rw [e4]
    have : readBack s2 = ⟨(readBack s2).a, (readBack s2).b, (readBack s2).c, (readBack s2).sites, none⟩ := rfl
    rw [this, ← ea, ← eb, ← ec]
    rfl

/-- A silicon atom, then two: the second atom is lost. -/
example : RealElements ⟨⟨5, 0, 0⟩, ⟨0, 5, 0⟩, ⟨0, 0, 5⟩, [⟨chars% "Si", ⟨0, 0, 0⟩⟩], none⟩ ∧
    RealElements ⟨⟨5, 0, 0⟩, ⟨0, 5, 0⟩, ⟨0, 0, 5⟩,
      [⟨chars% "Si", ⟨0, 0, 0⟩⟩, ⟨chars% "Si", ⟨1 / 2, 0, 0⟩⟩], none⟩ := by
  constructor <;>
  · intro t ht
    refine ⟨14, by decide, ?_⟩
    simp only [List.mem_cons, List.not_mem_nil, or_false] at ht
    first | (subst ht; decide +kernel) | (rcases ht with rfl | rfl <;> decide +kernel)

/-! ## C58 -/

theorem filter_ones_pos (p : Str → Bool) (l : List (Str × ℚ))
    (hl : ∀ cv ∈ l, cv.2 = 1) (c : Str) (hc : c ∈ l.map Prod.fst) (hp : p c = true) :
    0 < ((l.filter (fun cv => p cv.1)).map Prod.snd).sum := by
  obtain ⟨cv, hcv, rfl⟩ := List.mem_map.1 hc
  have hnn : ∀ v ∈ (l.filter (fun cv => p cv.1)).map Prod.snd, (0 : ℚ) ≤ v := by
    intro v hv
    obtain ⟨x, hx, rfl⟩ := List.mem_map.1 hv
    rw [hl x (List.mem_filter.1 hx).1]
    norm_num
  have hm : (1 : ℚ) ∈ (l.filter (fun cv => p cv.1)).map Prod.snd :=
    List.mem_map.2 ⟨cv, List.mem_filter.2 ⟨hcv, hp⟩, hl cv hcv⟩
  exact lt_of_lt_of_le one_pos (List.single_le_sum hnn 1 hm)

theorem filter_ones_nonneg (p : Str → Bool) (l : List (Str × ℚ)) (hl : ∀ cv ∈ l, cv.2 = 1) :
    0 ≤ ((l.filter (fun cv => p cv.1)).map Prod.snd).sum := by
  refine List.sum_nonneg ?_
  intro v hv
  obtain ⟨x, hx, rfl⟩ := List.mem_map.1 hv
  rw [hl x (List.mem_filter.1 hx).1]
  norm_num

/-- In a table full of ones the strangers of an element add up to 0 only if it has none. -/
theorem strangerSum_ones (skip : ℕ) (cols : List Str) (el : Str)
    (h : strangerSum skip cols el (List.replicate cols.length 1) = 0) :
    (∀ d ∈ cols.take skip, ¬ el <+: d) ∧ (∀ d ∈ cols.drop skip, el <+: symbolOf d → symbolOf d = el) := by
  have hz : cols.zip (List.replicate cols.length (1 : ℚ)) = cols.map (fun c => (c, 1)) := by
    induction cols with
    | nil => rfl
    | cons c cs ih =>
      simp only [List.length_cons, List.replicate_succ, List.zip_cons_cons, List.map_cons]
      rw [show cs.zip (List.replicate cs.length (1 : ℚ)) = cs.map (fun c => (c, 1)) from ?_]
      clear ih h
      induction cs with
      | nil => rfl
      | cons c cs ih =>
        simp only [List.length_cons, List.replicate_succ, List.zip_cons_cons, List.map_cons, ih]
  unfold strangerSum at h
  rw [hz, ← List.map_take, ← List.map_drop] at h
  have o1 : ∀ cv ∈ (cols.take skip).map (fun c => (c, (1 : ℚ))), cv.2 = 1 := by
    intro cv hcv
    obtain ⟨c, _, rfl⟩ := List.mem_map.1 hcv
    rfl
  have o2 : ∀ cv ∈ (cols.drop skip).map (fun c => (c, (1 : ℚ))), cv.2 = 1 := by
    intro cv hcv
    obtain ⟨c, _, rfl⟩ := List.mem_map.1 hcv
    rfl
  have f1 : ∀ l : List Str, (l.map (fun c => (c, (1 : ℚ)))).map Prod.fst = l := by
    intro l
    rw [List.map_map]
    exact List.map_id l
  have n1 := filter_ones_nonneg (fun c => el.isPrefixOf c) _ o1
  have n2 := filter_ones_nonneg (fun c => decide (el.isPrefixOf c ∧ symbolOf c ≠ el)) _ o2
  constructor
  · intro d hd hp
    have := filter_ones_pos (fun c => el.isPrefixOf c) _ o1 d (by rw [f1]; exact hd)
      (List.isPrefixOf_iff_prefix.2 hp)
    linarith
  · intro d hd hp
    by_contra hne
    have := filter_ones_pos (fun c => decide (el.isPrefixOf c ∧ symbolOf c ≠ el)) _ o2 d
      (by rw [f1]; exact hd)
      (by
        rw [decide_eq_true_iff]
        exact ⟨List.isPrefixOf_iff_prefix.2 (hp.trans (symbolOf_prefix d)), hne⟩)
    linarith

/-- C58 (DOS), every list of column names: the sums are right for all numbers exactly when no symbol is the
beginning of another symbol or of the names of the first two columns. -/
theorem C58_dos_exact (O : SetOrder) (cols : List Str) (hE : chars% "Energy" ∈ cols) :
    (∀ rows : List (List ℚ), (∀ r ∈ rows, r.length = cols.length) →
      ∃ els : List Str, (∀ x, x ∈ els ↔ ∃ c ∈ cols.drop 2, symbolOf c = x) ∧
        getPdosElements O ⟨cols, rows⟩ = .ok ⟨chars% "Energy" :: els, rows.map (fun r =>
          r.getD (cols.idxOf (chars% "Energy")) 0 :: els.map (fun el => ownSum 2 cols el r))⟩) ↔
    (∀ c ∈ cols.drop 2, ∀ d ∈ cols.take 2, ¬ symbolOf c <+: d) ∧
    (∀ c ∈ cols.drop 2, ∀ d ∈ cols.drop 2, symbolOf c <+: symbolOf d → symbolOf d = symbolOf c) := by
  constructor
  · intro h
    obtain ⟨els, hm, he⟩ := h [List.replicate cols.length 1] (by simp)
    obtain ⟨els', hn', hm', he'⟩ := C58_dos_values O ⟨cols, [List.replicate cols.length 1]⟩ hE
    rw [he'] at he
    simp only [Except.ok.injEq, Frame.mk.injEq, List.cons.injEq, true_and, List.map_cons, List.map_nil,
      and_true] at he
    obtain ⟨rfl, he⟩ := he
    rw [List.map_inj_left] at he
    have hz : ∀ c ∈ cols.drop 2, strangerSum 2 cols (symbolOf c) (List.replicate cols.length 1) = 0 := by
      intro c hc
      have := he (symbolOf c) ((hm _).2 ⟨c, hc, rfl⟩)
      linarith
    exact ⟨fun c hc => (strangerSum_ones _ _ _ (hz c hc)).1, fun c hc => (strangerSum_ones _ _ _ (hz c hc)).2⟩
  · rintro ⟨h1, h2⟩ rows -
    obtain ⟨els, -, hm, he⟩ := C58_dos_partial O ⟨cols, rows⟩ hE h1 h2
    exact ⟨els, hm, he⟩

example : ¬ (∀ c ∈ [chars% "Energy", chars% "Total", chars% "S-3S", chars% "Si-3S"].drop 2,
    ∀ d ∈ [chars% "Energy", chars% "Total", chars% "S-3S", chars% "Si-3S"].drop 2,
    symbolOf c <+: symbolOf d → symbolOf d = symbolOf c) := by decide +kernel

/-- C58 (fat bands), every list of orbital names: likewise. -/
theorem C58_fat_exact (O : SetOrder) (rest : List Str) :
    let cols := [chars% "KPOINT", chars% "ENERGY", chars% "weight_tot"] ++ rest
    (∀ rows : List (List ℚ), (∀ r ∈ rows, r.length = cols.length) →
      ∃ els : List Str, fatElements O ⟨cols, rows⟩ = .ok els ∧ (∀ x, x ∈ els ↔ ∃ c ∈ rest, symbolOf c = x) ∧
        fatElementFrame ⟨cols, rows⟩ els
          = .ok ⟨[chars% "KPOINT", chars% "ENERGY", chars% "weight_tot"] ++ els, rows.map (fun r =>
            [r.getD 0 0, r.getD 1 0, r.getD 2 0] ++ els.map (fun el => ownSum 3 cols el r))⟩) ↔
    (∀ c ∈ rest, ∀ d ∈ [chars% "KPOINT", chars% "ENERGY", chars% "weight_tot"], ¬ symbolOf c <+: d) ∧
    (∀ c ∈ rest, ∀ d ∈ rest, symbolOf c <+: symbolOf d → symbolOf d = symbolOf c) := by
  intro cols
  have ht : cols.take 3 = [chars% "KPOINT", chars% "ENERGY", chars% "weight_tot"] := rfl
  have hd : cols.drop 3 = rest := rfl
  constructor
  · intro h
    obtain ⟨els, h1, hm, he⟩ := h [List.replicate cols.length 1] (by simp)
    obtain ⟨els', h1', -, -, he'⟩ := C58_fat_values O rest [List.replicate cols.length 1]
    have e : els' = els := by
      have := h1'.symm.trans h1
      simpa using this
    subst e
    have := he'.symm.trans he
    simp only [Except.ok.injEq, Frame.mk.injEq, true_and, List.map_cons, List.map_nil, List.cons.injEq,
      and_true, List.cons_append, List.nil_append] at this
    rw [List.map_inj_left] at this
    have hz : ∀ c ∈ rest, strangerSum 3 cols (symbolOf c) (List.replicate cols.length 1) = 0 := by
      intro c hc
      have e : ownSum 3 cols (symbolOf c) (List.replicate cols.length 1)
          + strangerSum 3 cols (symbolOf c) (List.replicate cols.length 1)
          = ownSum 3 cols (symbolOf c) (List.replicate cols.length 1) :=
        this (symbolOf c) ((hm _).2 ⟨c, hc, rfl⟩)
      linarith
    refine ⟨fun c hc => ?_, fun c hc => ?_⟩
    · rw [← ht]
      exact (strangerSum_ones _ _ _ (hz c hc)).1
    · have := (strangerSum_ones _ _ _ (hz c hc)).2
      rwa [hd] at this
  · rintro ⟨h1, h2⟩ rows -
    obtain ⟨els, e1, -, hm, he⟩ := C58_fat_values O rest rows
    refine ⟨els, e1, hm, he.trans ?_⟩
    congr 2
    refine List.map_congr_left (fun r _ => ?_)
    congr 1
    refine List.map_congr_left (fun el hel => ?_)
    obtain ⟨c, hc, rfl⟩ := (hm el).1 hel
    rw [strangerSum_zero 3 cols _ r (symbolOf_no_dash c) (by rw [ht]; exact h1 c hc)
      (by rw [hd]; exact h2 c hc), add_zero]

example : (∀ c ∈ [chars% "Ga-4Px", chars% "As-4Py"], ∀ d ∈ [chars% "KPOINT", chars% "ENERGY",
    chars% "weight_tot"], ¬ symbolOf c <+: d) := by decide +kernel

/-! ## C80 -/

/-- C80 is violated for every file whose header has `#` glued to the word `Energy`: the file is read, the
first column is called `#Energy`, and the total density of states and the densities by element are refused
with `KeyError`. -/
theorem C80_glued_always (O : SetOrder) (first : Str) (rest : List Str) (names : List Str)
    (vals : List (List ℚ)) (hfirst : split first = (chars% "#Energy") :: names)
    (hn : ((chars% "#Energy") :: names).Nodup) (hhash : ['#'] ∉ names) (hE : chars% "Energy" ∉ names)
    (hvals : List.Forall₂ (fun r vs => List.Forall₂ (fun x v => parseFloat x = .ok v) (split r) vs) rest vals)
    (hw : ∀ vs ∈ vals, vs.length = names.length + 1) :
    ∃ f, dosFrame (first :: rest) = .ok f ∧ f = ⟨(chars% "#Energy") :: names, vals⟩ ∧
      getTdos f = .error .keyError ∧ getPdosElements O f = .error .keyError := by
  have hE' : chars% "Energy" ∉ (chars% "#Energy") :: names := by
    rw [List.mem_cons, not_or]
    exact ⟨by decide, hE⟩
  refine ⟨_, C80_file_partial first rest _ vals (Or.inr hfirst) hn (by simp) ?_ hvals (by simpa using hw), rfl,
    ?_, ?_⟩
  · rw [List.mem_cons, not_or]
    exact ⟨by decide, hhash⟩
  · exact (C80_tdos _).2.2 (Or.inl hE')
  · exact C58_dos_no_energy O _ hE'

example : split (chars% "#Energy Total Mo-4D\n") = (chars% "#Energy") :: [chars% "Total", chars% "Mo-4D"] ∧
    ((chars% "#Energy") :: [chars% "Total", chars% "Mo-4D"]).Nodup := by decide +kernel

end MaterSDK
