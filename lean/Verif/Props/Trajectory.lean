import Verif.Lemmas.TrajectoryAux
import Verif.Props.Movement
import Verif.Props.StructIO

/-!
# C44 - C47, C63: the numbers read from trajectory frames
-/

namespace MaterSDK

/-! ## C44 -/

/-- C44, one frame. For a frame whose first row is a header row in the current format (any count,
time, energies, any widths of blanks) followed by anything: the per-frame reader, the energy code of
the all-frames reader and the frame-string extractor read the same total energy, the first value
after the label; the first two also read the other two energies.
Partial: the all-frames reader as a whole does not return (`C44_all_frames_reader_raises`). -/
theorem C44_energies_agree_partial (h : Header) (n : Nat) (et ep ek : ℚ) (hr : h.Reads n et ep ek)
    (rest : Str) :
    frameEnergy (h.row ++ '\n' :: rest) = .ok (et, ep, ek) ∧
    allFramesEnergy (h.row ++ '\n' :: rest) = .ok (et, ep, ek) ∧
    ∃ a, acStr (h.row ++ '\n' :: rest) = .ok a ∧ a.numAtoms = n ∧ a.getEtot = .ok et := by
  have hnl := header_no_newline h hr
  have e1 : strip h.etot = h.etot := hr.etot.strip
  have e2 : strip h.ep = h.ep := hr.ep.strip
  have e3 : strip h.ek = h.ek := hr.ek.strip
  have e4 : strip (h.ek ++ [',']) = h.ek ++ [','] := strip_of_no_space (noSpace_comma hr.ek.noSpace)
  have d : (h.ek ++ [',']).dropLast = h.ek := by simp
  refine ⟨?_, ?_, ?_⟩
  · unfold frameEnergy
    rw [firstLine_eq hnl, ok_bind, header_split h hr]
    simp only [pyGet, List.getElem?_cons_succ, List.getElem?_cons_zero, ok_bind, e1, e2, d, e3,
      hr.etot.1, hr.ep.1, hr.ek.1]
    rfl
  · unfold allFramesEnergy
    rw [firstLine_eq hnl, ok_bind]
    simp only [header_listLocate h hr]
    rw [header_split h hr]
    have hl : pyGetI (h.ek ++ [',']) (-1) = .ok ',' := by
      unfold pyGetI
      simp [pyGet]
    simp only [pyGet, List.getElem?_cons_succ, List.getElem?_cons_zero, ok_bind, e1, e2, e4,
      hr.etot.1, hr.ep.1, hr.ek.1, hl, if_true, d]
    rfl
  · refine ⟨⟨splitCh '\n' (h.row ++ '\n' :: rest), n⟩, ?_, rfl, ?_⟩
    · unfold acStr
      have : h.row ++ '\n' :: rest = blanks h.g0 ++ (h.count ++ ((chars% " atoms") ++
          ((chars% ",Iteration (fs) =") ++ blanks (h.g1 + 1) ++ h.time ++
    (chars% ", Etot,Ep,Ek (eV) =") ++ blanks (h.g2 + 1) ++ h.etot ++ blanks (h.g3 + 1) ++ h.ep ++
    blanks (h.g4 + 1) ++ h.ek ++ (chars% ", SCF =") ++ blanks (h.g5 + 1) ++ h.scf ++
    '\n' :: rest))) := by simp [Header.row]
      have hs : searchAtoms (h.row ++ '\n' :: rest) = .ok n := by
        rw [this, searchAtoms_blanks, searchAtoms_count hr.count]
      rw [hs]; rfl
    · unfold ACStr.getEtot
      simp only [firstLine_eq hnl, ok_bind, header_locateEk h hr]
      rw [header_splitComma h hr]
      simp only [pyGet, List.getElem?_cons_succ, List.getElem?_cons_zero, ok_bind,
        header_EkWord h hr, e1, hr.etot.1]

/-- C44 through the trajectory API: for a loaded trajectory whose `i`-th frame starts with such a
header, `get_frame_energy(i)` returns the three energies. -/
theorem C44_get_frame_energy_partial (text : Str) (m : Movement) (hm : Movement.load text = .ok m)
    (i : Nat) (h : Header) (n : Nat) (et ep ek : ℚ) (hr : h.Reads n et ep ek) (rest : Str)
    (hf : m.allFrameStrs[i]? = some (h.row ++ '\n' :: rest)) :
    m.energyOf i = .ok (et, ep, ek) := by
  unfold Movement.energyOf
  rw [(C02_movement_random_eq_sequential text m hm i).1 _ hf, ok_bind]
  exact (C44_energies_agree_partial h n et ep ek hr rest).1

/-- C44, what is missing: `get_all_frame_structures_info` raises on every loaded trajectory, because
it builds every structure with `DStructure.from_str` first. -/
theorem C44_all_frames_reader_raises (text : Str) (m : Movement) (hm : Movement.load text = .ok m) :
    m.allInfo = .error .attributeError := by
  have hne : m.allFrameStrs ≠ [] := by
    obtain ⟨groups, rest, hc⟩ := cut_exists (fileLines text)
    have hg : groups ≠ [] := by
      rintro rfl
      have hn : ∀ r ∈ fileLines text, ¬ IsSep r := by
        intro r hr; rw [hc.whole] at hr; exact hc.tail r (by simpa using hr)
      rw [(C01_no_separator_rejected text hn).1] at hm
      cases hm
    have hs : m.allFrameStrs = groups.map List.flatten := by
      simp only [Movement.load, chunkSizes_cut hc hg] at hm
      cases hm
      show seqFrames _ (fileLines text) = _
      rw [hc.whole, seqFrames_cut]
    rw [hs]; simpa using hg
  obtain ⟨f, fs, hf⟩ := List.exists_cons_of_ne_nil hne
  unfold Movement.allInfo
  rw [hf, List.mapM_cons]
  have : infoStep f = .error .attributeError := by
    unfold infoStep
    rw [C48_from_str_never_succeeds]; rfl
  rw [this]; rfl

/-- C44, the old header format: the per-frame reader and the extractor raise `IndexError` (no wrong
number is returned). -/
theorem C44_old_format_rejected (h : Header) (n : Nat) (et ep ek : ℚ) (hr : h.Reads n et ep ek)
    (rest : Str) :
    frameEnergy (h.oldRow ++ '\n' :: rest) = .error .indexError ∧
    ∀ a, acStr (h.oldRow ++ '\n' :: rest) = .ok a → a.getEtot = .error .indexError := by
  have hnl := oldHeader_no_newline h hr
  constructor
  · unfold frameEnergy
    rw [firstLine_eq hnl, ok_bind, oldHeader_split h hr]
    rfl
  · intro a ha
    unfold acStr at ha
    rw [bind_eq_ok] at ha
    obtain ⟨_, _, ha⟩ := ha
    cases ha
    unfold ACStr.getEtot
    simp only [firstLine_eq hnl, ok_bind]
    have hno : NoRow (splitCh ',' h.oldRow) (chars% "EK (EV) =") := by
      intro part hp hin
      have hc : '(' ∈ upper part := hin.subset (by decide)
      unfold upper at hc
      obtain ⟨d, hd, he⟩ := List.mem_map.1 hc
      rw [toUpper_eq_of_not_upper (by decide) he] at hd
      exact oldHeader_no_paren h hr (mem_of_splitCh hp hd)
    rw [listLocate_noRow hno]; rfl

/-- A header row as PWmat writes it. -/
def sampleHeader : Header where
  count := chars% "72"
  time := chars% "-0.1000000000E+01"
  etot := chars% "-0.1188642969E+05"
  ep := chars% "-0.1188642969E+05"
  ek := chars% "0.2500000000E+00"
  scf := chars% "16"
  g0 := 2
  g1 := 2
  g2 := 2
  g3 := 1
  g4 := 2
  g5 := 4

example : sampleHeader.row =
  chars% "  72 atoms,Iteration (fs) =   -0.1000000000E+01, Etot,Ep,Ek (eV) =   -0.1188642969E+05  -0.1188642969E+05   0.2500000000E+00, SCF =     16" := by
  decide +kernel

example : sampleHeader.Reads 72 (-1188642969/100000) (-1188642969/100000) (1/4) where
  count := ⟨by decide, by decide, by decide +kernel⟩
  time := ⟨-1, by decide +kernel, by decide +kernel⟩
  etot := ⟨by decide +kernel, by decide +kernel⟩
  ep := ⟨by decide +kernel, by decide +kernel⟩
  ek := ⟨by decide +kernel, by decide +kernel⟩
  scf := ⟨16, by decide, by decide, by decide +kernel⟩

/-! ## C45 and C63 -/

/-- C63: whenever `get_frames_info` returns, the labels of `get_info_labels` name its arrays in
order; every array has one row per frame; and for every frame `i`, `get_frame_info(i)` returns and
consists, in the same order, of row `i` of each array. -/
theorem C63_frame_info_is_row (text : Str) (m : MVExtractor) (hm : MVExtractor.load text = .ok m)
    (arrs : List (Kind × List (List ℚ))) (h : m.framesInfo = .ok arrs) :
    m.infoLabels = arrs.map (fun p => labelOf p.1) ∧
    (∀ p ∈ arrs, p.2.length = m.numFrames) ∧
    ∀ i < m.numFrames, m.frameInfo i = .ok (arrs.map (fun p => (p.1, (p.2[i]?).getD []))) := by
  obtain ⟨hmag, _⟩ := load_marks hm
  obtain ⟨hkeys, hcols⟩ := framesInfo_ok hmag h
  have hnum := (C02_mvextractor_random_eq_sequential text m hm 0).1
  refine ⟨?_, ?_, ?_⟩
  · have : arrs.map (fun p => labelOf p.1) = m.kinds.map labelOf := by
      rw [← hkeys, List.map_map]; rfl
    rw [this, MVExtractor.kinds, MVExtractor.infoLabels, hmag]
    cases m.virialMark <;> cases m.eatomsMark <;> rfl
  · intro p hp
    rw [← (hcols p hp).1.length_eq, hnum]
  · intro i hi
    rw [← hnum] at hi
    have hf : m.allFrameStrs[i]? = some m.allFrameStrs[i] := List.getElem?_eq_getElem hi
    have hfs := (C02_mvextractor_random_eq_sequential text m hm i).2.1 _ hf
    have hnd : (arrs.map Prod.fst).Nodup := by
      rw [hkeys, kinds_eq hmag]
      cases m.virialMark <;> cases m.eatomsMark <;> decide
    -- the value of a kind, looked up in the arrays
    have key : ∀ p ∈ arrs, ((arrs.find? (fun q => q.1 = p.1)).map Prod.snd) = some p.2 := by
      intro p hp
      clear hkeys hcols h
      induction arrs with
      | nil => simp at hp
      | cons q qs ih =>
        rw [List.map_cons, List.nodup_cons] at hnd
        by_cases hq : q.1 = p.1
        · have : p = q := by
            rcases List.mem_cons.1 hp with e | e
            · exact e
            · exact absurd (List.mem_map.2 ⟨p, e, hq.symm⟩) hnd.1
          subst this; simp
        · rw [List.find?_cons_of_neg (by simpa using hq)]
          refine ih hnd.2 ?_
          rcases List.mem_cons.1 hp with e | e
          · exact absurd (by rw [e]) hq
          · exact e
    let w : Kind → List ℚ := fun k =>
      ((((arrs.find? (fun q => q.1 = k)).map Prod.snd).getD [])[i]?).getD []
    have hw : ∀ p ∈ arrs, w p.1 = (p.2[i]?).getD [] := by
      intro p hp; simp only [w, key p hp, Option.getD_some]
    have hread : ∀ k ∈ m.kinds, readKind k m.allFrameStrs[i] = .ok (w k) := by
      intro k hk
      rw [← hkeys, List.mem_map] at hk
      obtain ⟨p, hp, rfl⟩ := hk
      obtain ⟨v, hv, hv'⟩ := forall₂_get (hcols p hp).1 hf
      rw [hw p hp, hv]; exact hv'
    rw [frameInfo_of_kinds hmag hfs hread, ← hkeys, List.map_map]
    congr 1
    apply List.map_congr_left
    intro p hp
    simp only [Function.comp, hw p hp]

/-- C63, the labels in words: the five labels that are always there, then `virial` and `etaoms` (so
spelled) if the first frame has them; the arrays come in the same order, and row `i` of an array is the
datum of that name of frame `i`. -/
theorem C63_labels (text : Str) (m : MVExtractor) (hm : MVExtractor.load text = .ok m)
    (arrs : List (Kind × List (List ℚ))) (h : m.framesInfo = .ok arrs) :
    m.infoLabels = [chars% "box", chars% "types", chars% "coords", chars% "etot", chars% "fatoms"] ++
      (if m.virialMark then [chars% "virial"] else []) ++
      (if m.eatomsMark then [chars% "etaoms"] else []) ∧
    arrs.map Prod.fst = [Kind.box, .types, .coords, .etot, .fatoms] ++
      (if m.virialMark then [Kind.virial] else []) ++ (if m.eatomsMark then [Kind.eatoms] else []) ∧
    ∀ p ∈ arrs, List.Forall₂ (fun f v => readKind p.1 f = .ok v) m.allFrameStrs p.2 := by
  obtain ⟨hmag, _⟩ := load_marks hm
  obtain ⟨hkeys, hcols⟩ := framesInfo_ok hmag h
  refine ⟨?_, ?_, fun p hp => (hcols p hp).1⟩
  · rw [MVExtractor.infoLabels, hmag]
    cases m.virialMark <;> cases m.eatomsMark <;> rfl
  · rw [hkeys, MVExtractor.kinds, hmag]
    cases m.virialMark <;> cases m.eatomsMark <;> rfl

/-- C45 for `MVExtractor`: an array of virials is returned iff the first frame carries stress; it has
one row per frame and row `i` is the virial of frame `i`. If a later frame carries none, the call
raises (`C45_missing_stress_raises`). -/
theorem C45_mvextractor_aligned_partial (text : Str) (m : MVExtractor)
    (hm : MVExtractor.load text = .ok m) (arrs : List (Kind × List (List ℚ)))
    (h : m.framesInfo = .ok arrs) :
    (Kind.virial ∈ arrs.map Prod.fst ↔
      ∃ f a v, m.allFrameStrs[0]? = some f ∧ acStr f = .ok a ∧ a.getVirial = .ok v) ∧
    ∀ vs, (Kind.virial, vs) ∈ arrs → vs.length = m.numFrames ∧
      ∀ (i : Nat) (f : Str), m.allFrameStrs[i]? = some f →
        ∃ a v, acStr f = .ok a ∧ a.getVirial = .ok v ∧ vs[i]? = some v := by
  obtain ⟨hmag, f0, a0, hf0, ha0, hv0, _⟩ := load_marks hm
  obtain ⟨hkeys, hcols⟩ := framesInfo_ok hmag h
  have h02 := C02_mvextractor_random_eq_sequential text m hm 0
  have hnum := h02.1
  have hf00 : m.allFrameStrs[0]? = some f0 := by
    cases hx : m.allFrameStrs[0]? with
    | none =>
      exfalso
      have := h02.2.2 (by rw [← hnum]; simpa using hx)
      rw [show ((0 : Nat) : Int) = 0 from rfl, hf0] at this
      cases this
    | some f =>
      have := h02.2.1 f hx
      rw [show ((0 : Nat) : Int) = 0 from rfl, hf0] at this
      cases this; rfl
  refine ⟨?_, ?_⟩
  · rw [hkeys, kinds_eq hmag]
    constructor
    · intro hk
      have hvm : m.virialMark = true := by
        cases hx : m.virialMark with
        | true => rfl
        | false =>
          exfalso
          rw [hx] at hk
          cases hy : m.eatomsMark <;> rw [hy] at hk <;> revert hk <;> decide
      rw [hvm] at hv0
      obtain ⟨v, hv⟩ := markOf_true.1 hv0
      exact ⟨f0, a0, v, hf00, ha0, hv⟩
    · rintro ⟨f, a, v, h1, h2, h3⟩
      rw [hf00] at h1; cases h1
      rw [ha0] at h2; cases h2
      have := markOf_true.2 ⟨v, h3⟩
      rw [hv0] at this
      rw [Except.ok.inj this]; simp
  · intro vs hvs
    have hc := (hcols _ hvs).1
    refine ⟨by rw [← hc.length_eq, hnum], ?_⟩
    intro i f hf
    obtain ⟨v, hv, hv'⟩ := forall₂_get hc hf
    obtain ⟨a, ha⟩ := readKind_acStr hv'
    simp only [readKind, ha, ok_bind] at hv'
    exact ⟨a, v, ha, hv', hv⟩

/-- C45: if the first frame carries stress and some frame does not (or the extractor cannot read it),
no array of virials is returned: the call raises. -/
theorem C45_missing_stress_raises (text : Str) (m : MVExtractor) (hm : MVExtractor.load text = .ok m)
    (f0 : Str) (a0 : ACStr) (v0 : List ℚ) (h0 : m.allFrameStrs[0]? = some f0)
    (ha0 : acStr f0 = .ok a0) (hv0 : a0.getVirial = .ok v0) (f : Str) (hf : f ∈ m.allFrameStrs)
    (hmiss : ∀ a v, acStr f = .ok a → a.getVirial ≠ .ok v) : ∃ e, m.framesInfo = .error e := by
  cases hx : m.framesInfo with
  | error e => exact ⟨e, rfl⟩
  | ok arrs =>
    exfalso
    obtain ⟨hk, hal⟩ := C45_mvextractor_aligned_partial text m hm arrs hx
    obtain ⟨⟨k, vs⟩, hp, hk'⟩ := List.mem_map.1 (hk.2 ⟨f0, a0, v0, h0, ha0, hv0⟩)
    simp only at hk'
    subst hk'
    obtain ⟨i, hi⟩ := List.mem_iff_getElem?.1 hf
    obtain ⟨a, v, h1, h2, _⟩ := (hal vs hp).2 i f hi
    exact hmiss a v h1 h2

/-- C45 for `Movement.get_frame_virial(i)`: when it returns, it looked at frame `i`; either the row
after the first `LATTICE VECTOR` row has exactly three words and the result is the zero tensor, or
its rows are the last three words of the three rows after that row. -/
theorem C45_get_frame_virial_partial (text : Str) (m : Movement) (hm : Movement.load text = .ok m)
    (i : Nat) (f : Str) (hf : m.allFrameStrs[i]? = some f) (v : List (List ℚ))
    (h : m.virialOf i = .ok v) :
    ∃ l r1, FirstRow (splitCh '\n' f) (chars% "LATTICE VECTOR") l ∧
      (splitCh '\n' f)[l + 1]? = some r1 ∧
      (((split r1).length = 3 ∧ v = [[0, 0, 0], [0, 0, 0], [0, 0, 0]]) ∨
       ((split r1).length ≠ 3 ∧ ∃ r2 r3 x y z, (splitCh '\n' f)[l + 2]? = some r2 ∧
          (splitCh '\n' f)[l + 3]? = some r3 ∧ v = [x, y, z] ∧
          ReadsAs ((pyLastN (split r1) 3).map strip) x ∧
          ReadsAs ((pyLastN (split r2) 3).map strip) y ∧
          ReadsAs ((pyLastN (split r3) 3).map strip) z)) := by
  unfold Movement.virialOf at h
  rw [(C02_movement_random_eq_sequential text m hm i).1 f hf, ok_bind] at h
  unfold frameVirial at h
  simp only at h
  rw [bind_eq_ok] at h
  obtain ⟨l, hl, h⟩ := h
  rw [bind_eq_ok] at h
  obtain ⟨r1, h1, h⟩ := h
  refine ⟨l, r1, pyGet_listLocate_zero.1 hl, pyGet_eq_ok.1 h1, ?_⟩
  have hlast : ∀ (r : Str) (x : List ℚ), last3 r = .ok x → ReadsAs ((pyLastN (split r) 3).map strip) x := by
    intro r x hx
    unfold last3 at hx
    rw [mapM_eq_ok] at hx
    unfold ReadsAs
    rw [List.forall₂_map_left_iff]
    exact hx
  split at h
  · rename_i h3
    cases h
    exact Or.inl ⟨h3, rfl⟩
  · rename_i h3
    right
    refine ⟨h3, ?_⟩
    rw [bind_eq_ok] at h
    obtain ⟨x, hx, h⟩ := h
    rw [bind_eq_ok] at h
    obtain ⟨r2, h2, h⟩ := h
    rw [bind_eq_ok] at h
    obtain ⟨y, hy, h⟩ := h
    rw [bind_eq_ok] at h
    obtain ⟨r3, h3', h⟩ := h
    rw [bind_eq_ok] at h
    obtain ⟨z, hz, h⟩ := h
    unfold vstack3 at h
    split at h
    · cases h
      exact ⟨r2, r3, x, y, z, pyGet_eq_ok.1 h2, pyGet_eq_ok.1 h3', rfl, hlast _ _ hx, hlast _ _ hy,
        hlast _ _ hz⟩
    · cases h

/-- Two frames of one atom; only the second carries stress. -/
def frameNoStress : Str :=
  chars% "1 atoms,Iteration (fs) = 0.0, Etot,Ep,Ek (eV) = -1.0 -1.5 0.5, SCF = 4\nLattice vector\n5 0 0\n0 5 0\n0 0 5\nPosition\n14 0.25 0.5 0.75 1 1 1\nForce\n14 1 2 3\n--------------------------------------\n"
def frameStress : Str :=
  chars% "1 atoms,Iteration (fs) = 1.0, Etot,Ep,Ek (eV) = -2.0 -2.5 0.5, SCF = 4\nLattice vector (Angstrom)\n5 0 0 stress (eV): 1 2 3\n0 5 0 stress (eV): 4 5 6\n0 0 5 stress (eV): 7 8 9\nPosition\n14 0.5 0.5 0.75 1 1 1\nForce\n14 4 5 6\n--------------------------------------\n"

/-- C45 fails for the list built by `get_all_frame_structures_info`: the virial of a frame without
stress is skipped, so entry 0 of the list is the virial of frame 1. -/
theorem C45_all_frames_list_shifted :
    [frameNoStress, frameStress].mapM allFramesVirial = .ok [none, some [[1, 2, 3], [4, 5, 6], [7, 8, 9]]] ∧
    ([none, some [[1, 2, 3], [4, 5, 6], [7, 8, 9]]] : List (Option (List (List ℚ)))).filterMap id =
      [[[1, 2, 3], [4, 5, 6], [7, 8, 9]]] := by
  constructor <;> decide +kernel

example : (MVExtractor.load (frameStress ++ frameStress)).bind (fun m => m.framesInfo) =
    .ok [(.box, [[5, 0, 0, 0, 5, 0, 0, 0, 5], [5, 0, 0, 0, 5, 0, 0, 0, 5]]), (.types, [[14], [14]]),
      (.coords, [[1/2, 1/2, 3/4], [1/2, 1/2, 3/4]]), (.etot, [[-2], [-2]]),
      (.fatoms, [[4, 5, 6], [4, 5, 6]]),
      (.virial, [[1, 2, 3, 4, 5, 6, 7, 8, 9], [1, 2, 3, 4, 5, 6, 7, 8, 9]])] := by decide +kernel
/-- Stress in the first frame only. -/
example : (MVExtractor.load (frameStress ++ frameNoStress)).bind (fun m => m.framesInfo) =
    .error .attributeError := by decide +kernel
/-- Stress in the second frame only: no virial array. -/
example : (MVExtractor.load (frameNoStress ++ frameStress)).bind (fun m => m.framesInfo.map (·.map Prod.fst)) =
    .ok [.box, .types, .coords, .etot, .fatoms] := by decide +kernel
example : (Movement.load (frameNoStress ++ frameStress)).bind (fun m => m.virialOf 0) =
    .ok [[0, 0, 0], [0, 0, 0], [0, 0, 0]] := by decide +kernel
example : (Movement.load (frameNoStress ++ frameStress)).bind (fun m => m.virialOf 1) =
    .ok [[1, 2, 3], [4, 5, 6], [7, 8, 9]] := by decide +kernel
example : (Movement.load (frameNoStress ++ frameStress)).bind (fun m => m.allInfo.map (fun _ => ())) =
    .error .attributeError := by decide +kernel

/-! ## C46 -/

/-- The `n` rows after row `l`. -/
def forceRows (a : ACStr) (l : Nat) : List Str := (a.strs.drop (l + 1)).take a.numAtoms

/-- C46, well-formed block: if each of the rows after the first FORCE row has three numbers after
its first word, they are returned, row after row. Partial: malformed blocks are not reported
(`C46_malformed_gives_zeros`). -/
theorem C46_forces_read_partial (text : Str) (a : ACStr) (_ha : acStr text = .ok a) (l : Nat)
    (hl : FirstRow (splitCh '\n' text) (chars% "FORCE") l) (fs : List (List ℚ))
    (h : List.Forall₂ (fun row f => 4 ≤ (split row).length ∧
      ReadsAs (((split row).drop 1).take 3) f) (forceRows a l) fs) :
    a.getFatoms = fs.flatten ∧
    ∀ (k j : Nat) (row w : Str), (forceRows a l)[k]? = some row → j < 3 →
      (split row)[j + 1]? = some w → ∃ q, parseFloat w = .ok q ∧ a.getFatoms[3 * k + j]? = some q := by
  have hs : a.strs = splitCh '\n' text := by
    unfold acStr at _ha
    rw [bind_eq_ok] at _ha
    obtain ⟨n, _, h⟩ := _ha
    cases h; rfl
  have hlen : ∀ f ∈ fs, f.length = 3 := by
    intro f hf
    obtain ⟨i, hi⟩ := List.mem_iff_getElem?.1 hf
    obtain ⟨row, _, h4, hr⟩ := forall₂_get' h hi
    rw [← List.Forall₂.length_eq hr]; simp; omega
  have hb : a.block l = forceRows a l := by
    unfold ACStr.block forceRows pySlice
    rw [show l + a.numAtoms + 1 - (l + 1) = a.numAtoms by omega]
  have hm : (a.block l).mapM rowCoord = .ok fs := by
    rw [mapM_eq_ok, hb]
    refine h.imp ?_
    intro row f hrf
    unfold rowCoord pySlice
    rw [mapM_eq_ok]
    exact hrf.2
  have hf : a.getFatoms = fs.flatten := by
    unfold ACStr.getFatoms ACStr.fatomsBody
    rw [hs, pyGet_listLocate_zero.2 hl, ok_bind, hm, ok_bind, npFlat_of_uniform hlen]
  refine ⟨hf, ?_⟩
  intro k j row w hrow hj hw
  obtain ⟨f, hfk, h4, hr⟩ := forall₂_get h hrow
  have hwd : (((split row).drop 1).take 3)[j]? = some w := by
    rw [List.getElem?_take_of_lt hj, List.getElem?_drop, Nat.add_comm]; exact hw
  obtain ⟨q, hq1, hq2⟩ := forall₂_get hr hwd
  refine ⟨q, hq2, ?_⟩
  rw [hf, flatten_get_of_uniform hlen hfk hj, hq1]

/-- C46 fails in general: whenever there is no FORCE row, or some row of the block has an unreadable
word among words 2 to 4, or two rows have different numbers of such words, the extractor reports
`3 n` zeros instead of an error. -/
theorem C46_malformed_gives_zeros (text : Str) (a : ACStr) (ha : acStr text = .ok a)
    (h : NoRow (splitCh '\n' text) (chars% "FORCE") ∨
      ∃ l, FirstRow (splitCh '\n' text) (chars% "FORCE") l ∧
        ((∃ row ∈ forceRows a l, ∃ w ∈ ((split row).drop 1).take 3, ∃ e, parseFloat w = .error e) ∨
         (∃ row ∈ forceRows a l, ∃ row' ∈ forceRows a l,
            (((split row).drop 1).take 3).length ≠ (((split row').drop 1).take 3).length))) :
    a.getFatoms = List.replicate (3 * a.numAtoms) 0 := by
  have hs : a.strs = splitCh '\n' text := by
    unfold acStr at ha
    rw [bind_eq_ok] at ha
    obtain ⟨n, _, h⟩ := ha
    cases h; rfl
  have hb : ∀ l, a.block l = forceRows a l := by
    intro l
    unfold ACStr.block forceRows pySlice
    rw [show l + a.numAtoms + 1 - (l + 1) = a.numAtoms by omega]
  have herr : ∃ e, a.fatomsBody = .error e := by
    unfold ACStr.fatomsBody
    rcases h with h | ⟨l, hl, h⟩
    · rw [hs, listLocate_noRow h]; exact ⟨_, rfl⟩
    · rw [hs, pyGet_listLocate_zero.2 hl, ok_bind, hb]
      cases hx : (forceRows a l).mapM rowCoord with
      | error e => exact ⟨e, rfl⟩
      | ok cs =>
        rw [ok_bind]
        rw [mapM_eq_ok] at hx
        cases hy : npFlat cs with
        | error e => exact ⟨e, rfl⟩
        | ok fl =>
          exfalso
          rcases h with ⟨row, hrow, w, hw, e, he⟩ | ⟨row, hrow, row', hrow', hne⟩
          · obtain ⟨i, hi⟩ := List.mem_iff_getElem?.1 hrow
            obtain ⟨c, _, hc⟩ := forall₂_get hx hi
            unfold rowCoord pySlice at hc
            rw [mapM_eq_ok] at hc
            obtain ⟨j, hj⟩ := List.mem_iff_getElem?.1 hw
            obtain ⟨q, _, hq⟩ := forall₂_get hc hj
            rw [he] at hq; cases hq
          · obtain ⟨i, hi⟩ := List.mem_iff_getElem?.1 hrow
            obtain ⟨i', hi'⟩ := List.mem_iff_getElem?.1 hrow'
            obtain ⟨c, hc1, hc⟩ := forall₂_get hx hi
            obtain ⟨c', hc1', hc'⟩ := forall₂_get hx hi'
            unfold rowCoord pySlice at hc hc'
            rw [mapM_eq_ok] at hc hc'
            have := (npFlat_eq_ok hy).2 c (List.mem_of_getElem? hc1) c' (List.mem_of_getElem? hc1')
            rw [← hc.length_eq, ← hc'.length_eq] at this
            exact hne this
  obtain ⟨e, he⟩ := herr
  unfold ACStr.getFatoms
  rw [he, Nat.mul_comm]

/-- A frame of two atoms whose second force row ends after two numbers. -/
def frameShortForce : Str :=
  chars% "2 atoms,Iteration\nLattice\n5 0 0\n0 5 0\n0 0 5\nPosition\n14 0 0 0 1 1 1\n8 0 0 0.5 1 1 1\nForce\n14 1 2 3\n8 4 5\n"
/-- A frame of two atoms with two complete force rows. -/
def frameForces : Str :=
  chars% "2 atoms,Iteration\nLattice\n5 0 0\n0 5 0\n0 0 5\nPosition\n14 0 0 0 1 1 1\n8 0 0 0.5 1 1 1\nForce\n14 1 2 3\n8 4 5 6.5\n"

/-- C46 fails: a concrete malformed frame is read as zero forces, indistinguishable from a frame at
rest. -/
theorem C46_malformed_violated :
    (acStr frameShortForce).map ACStr.getFatoms = .ok [0, 0, 0, 0, 0, 0] := by decide +kernel

example : (acStr frameForces).map ACStr.getFatoms = .ok [1, 2, 3, 4, 5, 13/2] := by decide +kernel
example : (acStr frameForces).map (fun a => forceRows a 8) = .ok [chars% "14 1 2 3", chars% "8 4 5 6.5"] := by
  decide +kernel
example : (acStr frameShortForce).map (fun a => (forceRows a 8).map (fun r => (((split r).drop 1).take 3).length))
    = .ok [3, 2] := by decide +kernel

/-! ## C47 -/

/-- C47 fails on every frame: `get_magmoms` of the frame-string extractor always raises. -/
theorem C47_magmoms_never_returned (text : Str) (a : ACStr) (_ha : acStr text = .ok a) :
    a.getMagmoms = .error .attributeError := rfl

/-- Consequently no trajectory reader reports moments, whatever the frames contain. -/
theorem C47_no_magmoms_array (text : Str) (m : MVExtractor) (hm : MVExtractor.load text = .ok m)
    (arrs : List (Kind × List (List ℚ))) (h : m.framesInfo = .ok arrs) :
    m.magmomsMark = false ∧ Kind.magmoms ∉ arrs.map Prod.fst := by
  obtain ⟨hmag, _⟩ := load_marks hm
  refine ⟨hmag, ?_⟩
  rw [(framesInfo_ok hmag h).1, kinds_eq hmag]
  cases m.virialMark <;> cases m.eatomsMark <;> decide

/-- C47 fails: a frame with a complete magnetic block. -/
theorem C47_magmoms_violated :
    (acStr (chars% "1 atoms\nLattice\n5 0 0\n0 5 0\n0 0 5\nPosition\n26 0 0 0 1 1 1\nMAGNETIC\n26 2.5\n")).bind
      (fun a => a.getMagmoms) = .error .attributeError := by decide +kernel

end MaterSDK
