import Verif.Lemmas.DatasetFlow

/-!
# C203, C204: from trajectory files to a data set
-/

namespace MaterSDK

/-- An optional array of a group. -/
theorem group_opt {k : Kind} (mark : MVExtractor → Bool) (p : InfoSet → Option (List (List ℚ)))
    (Z : List (InfoSet × MVExtractor)) (h : ∀ z ∈ Z, OptRows (mark z.2) k z.2.allFrameStrs (p z.1)) :
    ((∀ z ∈ Z, mark z.2 = true) → ∃ vs : List (List (List ℚ)), (Z.map Prod.fst).map p = vs.map some ∧
      List.Forall₂ (fun f v => readKind k f = .ok v) ((Z.map Prod.snd).flatMap MVExtractor.allFrameStrs)
        vs.flatten) ∧
    ((∃ z ∈ Z, mark z.2 = false) → ∃ s ∈ Z.map Prod.fst, p s = none) := by
  constructor
  · intro hm
    induction Z with
    | nil => exact ⟨[], rfl, by simp⟩
    | cons z Z ih =>
      obtain ⟨vs, h1, h2⟩ := ih (fun z hz => h z (List.mem_cons_of_mem _ hz))
        (fun z hz => hm z (List.mem_cons_of_mem _ hz))
      have hz := h z (by simp)
      rw [hm z (by simp)] at hz
      cases hv : p z.1 with
      | none => rw [hv] at hz; exact absurd hz (by simp [OptRows])
      | some v =>
        rw [hv] at hz
        refine ⟨v :: vs, by simp only [List.map_cons, hv, h1], ?_⟩
        simp only [List.map_cons, List.flatMap_cons, List.flatten_cons]
        exact List.rel_append hz h2
  · rintro ⟨z, hz, hm⟩
    refine ⟨z.1, List.mem_map_of_mem hz, ?_⟩
    have := h z hz
    rw [hm] at this
    cases hv : p z.1 with
    | none => rfl
    | some v => rw [hv] at this; exact absurd this (by simp [OptRows])

theorem forall₂_map_snd {α β γ : Type} {R : α → γ → Prop} {l : List α} {Z : List (β × γ)}
    (h : List.Forall₂ (fun t z => R t z.2) l Z) : List.Forall₂ R l (Z.map Prod.snd) := by
  rw [List.forall₂_map_right_iff]; exact h

theorem forall₂_and_mem {α β : Type} {R : α → β → Prop} {l : List α} {l' : List β} (h : List.Forall₂ R l l') :
    List.Forall₂ (fun a b => R a b ∧ b ∈ l') l l' := by
  induction h with
  | nil => exact .nil
  | cons h _ ih => exact .cons ⟨h, by simp⟩ (ih.imp (fun _ _ hx => ⟨hx.1, List.mem_cons_of_mem _ hx.2⟩))

/-- The files, the folders and the parts. -/
theorem flow_written (texts : List Str) (groups : List InfoSet) (existing : List Str) (p : ℕ) (hp : 1 ≤ p)
    (ws : List Written) (h : infoSetsFromDir texts = .ok groups)
    (hw : infoSetsToDir groups existing (some (p : ℤ)) = .ok ws) :
    ∃ (trajs : List MVExtractor) (byFolder : List (List MVExtractor)),
      List.Forall₂ (fun t m => MVExtractor.load t = .ok m) texts trajs ∧
      byFolder.flatten.Perm trajs ∧ (∀ ms ∈ byFolder, ms.Sublist trajs ∧ ms ≠ []) ∧
      List.Forall₂ (fun w ms => w.parts.length = (cutIn p (ms.flatMap MVExtractor.allFrameStrs)).length ∧
        List.Forall₂ (fun part c => PartSays w.typeMap part.2 c) w.parts
          (cutIn p (ms.flatMap MVExtractor.allFrameStrs)) ∧
        (((∀ m ∈ ms, m.virialMark = true) → List.Forall₂ (fun part c =>
            FileSays (fun f v => readKind .virial f = .ok v) (chars% "virial.npy") part.2 c) w.parts
              (cutIn p (ms.flatMap MVExtractor.allFrameStrs))) ∧
          ((∃ m ∈ ms, m.virialMark = false) → ∀ part ∈ w.parts, FileMissing (chars% "virial.npy") part.2)) ∧
        (((∀ m ∈ ms, m.eatomsMark = true) → List.Forall₂ (fun part c =>
            FileSays (fun f v => readKind .eatoms f = .ok v) (chars% "eatom.npy") part.2 c) w.parts
              (cutIn p (ms.flatMap MVExtractor.allFrameStrs))) ∧
          ((∃ m ∈ ms, m.eatomsMark = false) → ∀ part ∈ w.parts, FileMissing (chars% "eatom.npy") part.2)))
        ws byFolder ∧
      (ws.map Written.folder).Nodup ∧ ∀ w ∈ ws, w.folder ∉ existing := by
  obtain ⟨ks, Z, hload, hZ, keys, hnd, hcov, hk⟩ := dir_flow h
  obtain ⟨hgo, hex⟩ := go_ok (size := (p : ℤ)) (gs := groups) (ex := existing) (ws := ws) hw
  refine ⟨Z.map Prod.snd, keys.map (fun k => (Z.filter (fun z => z.1.formula = k)).map Prod.snd),
    forall₂_map_snd hload, ?_, ?_, ?_, ?_, ?_⟩
  · have := (flatMap_filter_perm keys hnd (fun z : InfoSet × MVExtractor => z.1.formula) Z hcov).map Prod.snd
    rw [List.map_flatMap] at this
    rwa [List.flatMap_def] at this
  · intro ms hms
    obtain ⟨k, hkm, rfl⟩ := List.mem_map.1 hms
    refine ⟨(List.filter_sublist).map _, ?_⟩
    obtain ⟨i, hi⟩ := List.mem_iff_getElem?.1 hkm
    obtain ⟨g, _, _, _, z, hz, hzk⟩ := forall₂_get hk hi
    exact List.ne_nil_of_mem (List.mem_map.2 ⟨z, List.mem_filter.2 ⟨hz, by simpa using hzk⟩, rfl⟩)
  · rw [List.forall₂_map_right_iff]
    have hcomp := forall₂_comp hk hgo
    refine hcomp.flip.imp ?_
    rintro w k ⟨g, ⟨hg, hks, -⟩, ex', hto⟩
    obtain ⟨-, -, htm, hparts⟩ := toDir_bounds hp hto
    generalize hF : Z.filter (fun z => z.1.formula = k) = Zk at hg ⊢
    have hZk : ∀ z ∈ Zk, z ∈ Z := by
      intro z hz
      rw [← hF] at hz
      exact (List.mem_filter.1 hz).1
    have hsay : SetSays ks ((Zk.map Prod.snd).flatMap MVExtractor.allFrameStrs) g := by
      rw [List.flatMap_def]
      refine setSays_group hg ?_
      rw [List.map_map, List.forall₂_map_left_iff, List.forall₂_map_right_iff, List.forall₂_same]
      exact fun z hz => (hZ z (hZk z hz)).1
    have hlen := hparts.length_eq
    obtain ⟨v1, v2⟩ := group_opt (k := .virial) MVExtractor.virialMark InfoSet.virial Zk
      (fun z hz => (hZ z (hZk z hz)).2.2.1)
    obtain ⟨e1, e2⟩ := group_opt (k := .eatoms) MVExtractor.eatomsMark InfoSet.eatom Zk
      (fun z hz => (hZ z (hZk z hz)).2.2.2.1)
    obtain ⟨-, -, -, -, -, fv, fe, -, -⟩ := C38_files g
    have hmiss : ∀ nm : Str, (∀ r, (nm, r) ∉ g.arrays) → ∀ part ∈ w.parts, FileMissing nm part.2 := by
      intro nm hno part hpart hin
      obtain ⟨i, hi⟩ := List.mem_iff_getElem?.1 hpart
      obtain ⟨b, _, hb⟩ := forall₂_get hparts hi
      rw [hb, List.map_map] at hin
      obtain ⟨a, ha, rfl⟩ := List.mem_map.1 hin
      exact hno a.2 ha
    refine ⟨?_, ?_, ⟨?_, ?_⟩, ⟨?_, ?_⟩⟩
    · rw [hlen]; unfold cutIn; rw [List.length_map, hsay.count]
    · rw [htm, hks]
      exact parts_file hsay.count hparts (setSays_part hsay)
    · intro hm
      obtain ⟨vs, a, b⟩ := v1 (fun z hz => hm z.2 (List.mem_map_of_mem hz))
      exact parts_file hsay.count hparts (fun i j => file_slice ((fv _).2 ⟨_, hg.virial.1 vs a, rfl⟩) b i j)
    · rintro ⟨m, hm, hmark⟩
      obtain ⟨z, hz, rfl⟩ := List.mem_map.1 hm
      have := hg.virial.2 (v2 ⟨z, hz, hmark⟩)
      refine hmiss _ (fun r hr => ?_)
      obtain ⟨a, ha, _⟩ := (fv r).1 hr
      rw [this] at ha
      cases ha
    · intro hm
      obtain ⟨vs, a, b⟩ := e1 (fun z hz => hm z.2 (List.mem_map_of_mem hz))
      exact parts_file hsay.count hparts (fun i j => file_slice ((fe _).2 ⟨_, hg.eatom.1 vs a, rfl⟩) b i j)
    · rintro ⟨m, hm, hmark⟩
      obtain ⟨z, hz, rfl⟩ := List.mem_map.1 hm
      have := hg.eatom.2 (e2 ⟨z, hz, hmark⟩)
      refine hmiss _ (fun r hr => ?_)
      obtain ⟨a, ha, _⟩ := (fe r).1 hr
      rw [this] at ha
      cases ha
  · have : ws.map Written.folder = keys := by
      have hcomp := forall₂_comp hk hgo
      have : List.Forall₂ (fun k w => w.folder = k) keys ws := by
        refine hcomp.imp ?_
        rintro k w ⟨g, ⟨hg, -⟩, ex', hto⟩
        rw [(toDir_bounds hp hto).2.1, hg.formula]
      clear * - this
      induction this with
      | nil => rfl
      | cons h _ ih => rw [List.map_cons, h, ih]
    rw [this]; exact hnd
  · intro w hwm
    obtain ⟨i, hi⟩ := List.mem_iff_getElem?.1 hwm
    obtain ⟨g, hgi, ex', hto⟩ := forall₂_get' hgo hi
    rw [(toDir_bounds hp hto).2.1]
    exact hex g (List.mem_of_getElem? hgi)

/-! ## C203 -/

/-- C203: `InfoSets.from_dir` followed by `to_dir` with a part size `p ≥ 1`.  The trajectory files found are
distributed over the folders, every file into exactly one, in the order in which they were found; the part folders
of a folder cut the frames of its files into pieces of `p` (the last possibly shorter, none empty), and the files of
a part folder hold for each of its frames, in order, the box, coordinates, total energy, forces and elements which
the frame states.  No folder is written twice or over an existing one. -/
theorem C203_every_frame_once (texts : List Str) (groups : List InfoSet) (existing : List Str) (p : ℕ)
    (hp : 1 ≤ p) (ws : List Written) (h : infoSetsFromDir texts = .ok groups)
    (hw : infoSetsToDir groups existing (some (p : ℤ)) = .ok ws) :
    ∃ (trajs : List MVExtractor) (byFolder : List (List MVExtractor)),
      List.Forall₂ (fun t m => MVExtractor.load t = .ok m) texts trajs ∧
      byFolder.flatten.Perm trajs ∧ (∀ ms ∈ byFolder, ms.Sublist trajs ∧ ms ≠ []) ∧
      List.Forall₂ (fun w ms => ∃ parts, Chunks p (ms.flatMap MVExtractor.allFrameStrs) parts ∧
        List.Forall₂ (fun part c => PartSays w.typeMap part.2 c) w.parts parts) ws byFolder ∧
      (ws.map Written.folder).Nodup ∧ ∀ w ∈ ws, w.folder ∉ existing := by
  obtain ⟨trajs, byFolder, h1, h2, h3, h4, h5, h6⟩ := flow_written texts groups existing p hp ws h hw
  exact ⟨trajs, byFolder, h1, h2, h3, h4.imp (fun w ms hw => ⟨_, cutBounds_chunks _ p hp, hw.2.1⟩), h5, h6⟩

/-- C203, without a part size: one part folder with all frames of its files in each folder. -/
theorem C203_default (texts : List Str) (groups : List InfoSet) (existing : List Str)
    (ws : List Written) (h : infoSetsFromDir texts = .ok groups) (hne : texts ≠ [])
    (hw : infoSetsToDir groups existing none = .ok ws) :
    ∃ (trajs : List MVExtractor) (byFolder : List (List MVExtractor)),
      List.Forall₂ (fun t m => MVExtractor.load t = .ok m) texts trajs ∧
      byFolder.flatten.Perm trajs ∧ (∀ ms ∈ byFolder, ms.Sublist trajs ∧ ms ≠ []) ∧
      List.Forall₂ (fun w ms => ∃ part, w.parts = [part] ∧
        PartSays w.typeMap part.2 (ms.flatMap MVExtractor.allFrameStrs)) ws byFolder ∧
      (ws.map Written.folder).Nodup ∧ ∀ w ∈ ws, w.folder ∉ existing := by
  obtain ⟨ks, Z, hload, hZ, keys, hnd, hcov, hk⟩ := dir_flow h
  have htot : totalFrames groups = ((Z.map Prod.snd).flatMap MVExtractor.allFrameStrs).length := by
    have e1 : groups.map InfoSet.numFrames = keys.map (fun k =>
        ((Z.filter (fun z => z.1.formula = k)).map (fun z => z.1.numFrames)).sum) := by
      clear hcov hnd h hw
      induction hk with
      | nil => rfl
      | cons h _ ih => rw [List.map_cons, List.map_cons, ih, h.1.numFrames, List.map_map]; rfl
    unfold totalFrames
    rw [e1, sum_by_key keys hnd (fun z : InfoSet × MVExtractor => z.1.formula) (fun z => z.1.numFrames) Z hcov,
      List.length_flatMap, List.map_map]
    congr 1
    exact List.map_congr_left (fun z hz => (hZ z hz).1.count)
  have hpos : 1 ≤ totalFrames groups := by
    obtain ⟨z, hz⟩ : ∃ z, z ∈ Z := by
      cases hload with
      | nil => exact absurd rfl hne
      | cons _ _ => exact ⟨_, List.mem_cons_self⟩
    have h0 := (hZ z hz).2.1
    rw [(hZ z hz).1.count] at h0
    rw [htot]
    obtain ⟨f, hf⟩ := List.exists_mem_of_length_pos (Nat.pos_of_ne_zero h0)
    exact List.length_pos_of_mem (List.mem_flatMap.2 ⟨z.2, List.mem_map_of_mem hz, hf⟩)
  have hw' : infoSetsToDir groups existing (some ((totalFrames groups : ℕ) : ℤ)) = .ok ws := hw
  obtain ⟨trajs, byFolder, h1, h2, h3, h4, h5, h6⟩ :=
    C203_every_frame_once texts groups existing _ hpos ws h hw'
  refine ⟨trajs, byFolder, h1, h2, h3, ?_, h5, h6⟩
  have htr : trajs = Z.map Prod.snd := by
    have hl := forall₂_map_snd (R := fun t m => MVExtractor.load t = .ok m) hload
    generalize Z.map Prod.snd = Y at hl
    clear * - h1 hl
    induction h1 generalizing Y with
    | nil => cases hl; rfl
    | cons h _ ih =>
      cases hl with
      | cons h' t =>
        rw [h] at h'
        rw [Except.ok.inj h', ih _ t]
  have hsub : ∀ ms ∈ byFolder, (ms.flatMap MVExtractor.allFrameStrs).length ≤ totalFrames groups ∧
      ms.flatMap MVExtractor.allFrameStrs ≠ [] := by
    intro ms hms
    obtain ⟨a, b⟩ := h3 ms hms
    refine ⟨?_, ?_⟩
    · rw [htot, ← htr, List.length_flatMap, List.length_flatMap]
      exact (a.map _).sum_le_sum (fun _ _ => Nat.zero_le _)
    · obtain ⟨m, hm⟩ := List.exists_mem_of_ne_nil _ b
      have hmt : m ∈ Z.map Prod.snd := htr ▸ a.subset hm
      obtain ⟨z, hz, rfl⟩ := List.mem_map.1 hmt
      have h0 := (hZ z hz).2.1
      rw [(hZ z hz).1.count] at h0
      obtain ⟨f, hf⟩ := List.exists_mem_of_length_pos (Nat.pos_of_ne_zero h0)
      exact List.ne_nil_of_mem (List.mem_flatMap.2 ⟨z.2, hm, hf⟩)
  have hone : ∀ (l : List Str) (parts : List (List Str)), l ≠ [] → l.length ≤ totalFrames groups →
      Chunks (totalFrames groups) l parts → parts = [l] := by
    intro l parts hl hle hc
    rcases parts with _ | ⟨a, _ | ⟨b, rest⟩⟩
    · exact absurd hc.whole.symm hl
    · have := hc.whole
      simp only [List.flatten_cons, List.flatten_nil, List.append_nil] at this
      rw [this]
    · have e1 := hc.full a (by simp)
      have e2 := hc.nonempty b (by simp)
      have e3 : (a ++ (b ++ rest.flatten)).length ≤ totalFrames groups := by
        have := hc.whole
        simp only [List.flatten_cons] at this
        rw [this]; exact hle
      have e4 := List.length_pos_iff.2 e2
      simp only [List.length_append] at e3
      omega
  have key : List.Forall₂ (fun w ms => ∃ part, w.parts = [part] ∧
        PartSays w.typeMap part.2 (ms.flatMap MVExtractor.allFrameStrs)) ws byFolder := by
    clear h2 h3 h5 h6 hw hw'
    induction h4 with
    | nil => exact .nil
    | cons h _ ih =>
      refine .cons ?_ (ih (fun ms hms => hsub ms (List.mem_cons_of_mem _ hms)))
      obtain ⟨parts, hc, hp⟩ := h
      obtain ⟨hle, hn⟩ := hsub _ List.mem_cons_self
      rw [hone _ parts hn hle hc] at hp
      generalize hq : Written.parts _ = q at hp
      cases hp with
      | cons h0 h' => cases h'; exact ⟨_, rfl, h0⟩
  exact key

/-- C203: writing succeeds for every part size other than 0 exactly if none of the folders is there. -/
theorem C203_written_iff (texts : List Str) (groups : List InfoSet) (existing : List Str) (p : ℤ) (hp : p ≠ 0)
    (h : infoSetsFromDir texts = .ok groups) :
    (∃ ws, infoSetsToDir groups existing (some p) = .ok ws) ↔ ∀ g ∈ groups, g.formula ∉ existing := by
  obtain ⟨_, _, _, _, hnd, _⟩ := C41_groups texts groups h
  constructor
  · rintro ⟨ws, hw⟩
    exact (go_ok (size := p) hw).2
  · exact fun hex => go_succeeds hp groups existing hnd hex

/-- C203: the other part sizes and an existing folder are errors. -/
theorem C203_rejected (g : InfoSet) (groups : List InfoSet) (existing : List Str) (ps : Option ℤ) :
    infoSetsToDir (g :: groups) existing (some 0) = .error .zeroDivision ∧
    (ps ≠ some 0 → 1 ≤ g.numFrames → g.formula ∈ existing →
      infoSetsToDir (g :: groups) existing ps = .error .osError) := by
  constructor
  · show (g.toDir existing (some 0) >>= _) = _
    rw [(C38_rejected g existing none).1]
    rfl
  · intro h0 hn hex
    cases ps with
    | some p =>
      show (g.toDir existing (some p) >>= _) = _
      rw [(C38_rejected g existing _).2 h0 hex]
      rfl
    | none =>
      show (g.toDir existing (some (totalFrames (g :: groups) : ℤ)) >>= _) = _
      rw [(C38_rejected g existing _).2 _ hex]
      · rfl
      · intro h
        have := Option.some.inj h
        simp only [totalFrames, List.map_cons, List.sum_cons] at this
        omega

set_option synthInstance.maxSize 1024 in
/-- Two silicon trajectories (one of two frames) and an oxygen one, parts of two frames. -/
example : (infoSetsFromDir [frameNoStress, frameO, frameStress ++ frameStress]).bind
    (fun gs => (infoSetsToDir gs [chars% "Si2"] (some 2)).map (fun ws => ws.map (fun w =>
      (w.folder, w.typeMap, w.parts.map (fun part => (part.1, part.2.filter (fun a => a.1 = chars% "etot.npy"))))))) =
    .ok [(chars% "Si1O0", [chars% "Si", chars% "O"],
          [(chars% "part.000", [(chars% "etot.npy", .nums [[-1], [-2]])]),
           (chars% "part.001", [(chars% "etot.npy", .nums [[-2]])])]),
         (chars% "Si0O1", [chars% "Si", chars% "O"],
          [(chars% "part.000", [(chars% "etot.npy", .nums [[-4]])])])] := by
  decide +kernel

/-! ## C204 -/

theorem load_nonempty_first {text : Str} {m : MVExtractor} (hm : MVExtractor.load text = .ok m) :
    ∃ f0 a0, m.allFrameStrs[0]? = some f0 ∧ acStr f0 = .ok a0 ∧
      (m.virialMark = true ↔ ∃ v, a0.getVirial = .ok v) ∧ (m.eatomsMark = true ↔ ∃ v, a0.getEatoms = .ok v) := by
  obtain ⟨hmag, f0, a0, hf0, ha0, hv0, he0⟩ := load_marks hm
  have h02 := C02_mvextractor_random_eq_sequential text m hm 0
  have hnum := h02.1
  refine ⟨f0, a0, ?_, ha0, ?_, ?_⟩
  · cases hx : m.allFrameStrs[0]? with
    | none =>
      exfalso
      have := h02.2.2 (by rw [← hnum]; simpa using hx)
      rw [show ((0 : Nat) : Int) = 0 from rfl, hf0] at this
      cases this
    | some f =>
      have := h02.2.1 f hx
      rw [show ((0 : Nat) : Int) = 0 from rfl, hf0] at this
      cases this; rfl
  · constructor
    · intro h; rw [h] at hv0; exact markOf_true.1 hv0
    · intro h
      have := markOf_true.2 h
      rw [hv0] at this
      exact Except.ok.inj this
  · constructor
    · intro h; rw [h] at he0; exact markOf_true.1 he0
    · intro h
      have := markOf_true.2 h
      rw [he0] at this
      exact Except.ok.inj this

theorem optRows_states {b : Bool} {k : Kind} {fs : List Str} {x : Option (List (List ℚ))}
    (h : OptRows b k fs x) (hb : b = true) : ∀ f ∈ fs, ∃ v, readKind k f = .ok v := by
  subst hb
  cases x with
  | none => exact absurd h (by simp [OptRows])
  | some rows =>
    intro f hf
    obtain ⟨i, hi⟩ := List.mem_iff_getElem?.1 hf
    obtain ⟨v, _, hv⟩ := forall₂_get (show List.Forall₂ _ fs rows from h) hi
    exact ⟨v, hv⟩

/-- A trajectory found has the mark of an optional quantity if and only if all its frames state it. -/
theorem dir_marks {texts : List Str} {groups : List InfoSet} {trajs : List MVExtractor}
    (h : infoSetsFromDir texts = .ok groups)
    (hl : List.Forall₂ (fun t m => MVExtractor.load t = .ok m) texts trajs) :
    ∀ m ∈ trajs, (m.virialMark = true ↔ ∀ f ∈ m.allFrameStrs, ∃ v, readKind .virial f = .ok v) ∧
      (m.eatomsMark = true ↔ ∀ f ∈ m.allFrameStrs, ∃ v, readKind .eatoms f = .ok v) := by
  obtain ⟨ks, Z, hload, hZ, -⟩ := dir_flow h
  intro m hm
  obtain ⟨i, hi⟩ := List.mem_iff_getElem?.1 hm
  obtain ⟨t, ht, hmt⟩ := forall₂_get' hl hi
  obtain ⟨z, hz, hzt⟩ := forall₂_get hload ht
  rw [hmt] at hzt
  obtain rfl := Except.ok.inj hzt
  obtain ⟨-, -, hv, he, -⟩ := hZ z (List.mem_of_getElem? hz)
  obtain ⟨f0, a0, hf0, ha0, h1, h2⟩ := load_nonempty_first hmt
  have hf : f0 ∈ z.2.allFrameStrs := List.mem_of_getElem? hf0
  refine ⟨⟨optRows_states hv, fun hall => h1.2 ?_⟩, ⟨optRows_states he, fun hall => h2.2 ?_⟩⟩
  · obtain ⟨v, hv'⟩ := hall f0 hf
    simp only [readKind, ha0, ok_bind] at hv'
    exact ⟨v, hv'⟩
  · obtain ⟨v, hv'⟩ := hall f0 hf
    simp only [readKind, ha0, ok_bind] at hv'
    exact ⟨v, hv'⟩

/-- C204, exactly: the parts of a folder have the file of virials (atomic energies) if and only if every frame of
every trajectory merged into the folder states them, and then the file holds them frame by frame; a single frame
without them takes the file away from all parts of the folder.
Partial: the values which the other frames state are then lost (`C204_violated`). -/
theorem C204_optional_exact_partial (texts : List Str) (groups : List InfoSet) (existing : List Str) (p : ℕ)
    (hp : 1 ≤ p) (ws : List Written) (h : infoSetsFromDir texts = .ok groups)
    (hw : infoSetsToDir groups existing (some (p : ℤ)) = .ok ws) :
    ∃ (trajs : List MVExtractor) (byFolder : List (List MVExtractor)),
      List.Forall₂ (fun t m => MVExtractor.load t = .ok m) texts trajs ∧
      byFolder.flatten.Perm trajs ∧
      List.Forall₂ (fun w ms => ∃ parts, Chunks p (ms.flatMap MVExtractor.allFrameStrs) parts ∧
        List.Forall₂ (fun part c => PartSays w.typeMap part.2 c) w.parts parts ∧
        ((∀ f ∈ ms.flatMap MVExtractor.allFrameStrs, ∃ v, readKind .virial f = .ok v) →
          List.Forall₂ (fun part c =>
            FileSays (fun f v => readKind .virial f = .ok v) (chars% "virial.npy") part.2 c) w.parts parts) ∧
        ((∃ f ∈ ms.flatMap MVExtractor.allFrameStrs, ∀ v, readKind .virial f ≠ .ok v) →
          ∀ part ∈ w.parts, FileMissing (chars% "virial.npy") part.2) ∧
        ((∀ f ∈ ms.flatMap MVExtractor.allFrameStrs, ∃ v, readKind .eatoms f = .ok v) →
          List.Forall₂ (fun part c =>
            FileSays (fun f v => readKind .eatoms f = .ok v) (chars% "eatom.npy") part.2 c) w.parts parts) ∧
        ((∃ f ∈ ms.flatMap MVExtractor.allFrameStrs, ∀ v, readKind .eatoms f ≠ .ok v) →
          ∀ part ∈ w.parts, FileMissing (chars% "eatom.npy") part.2)) ws byFolder := by
  obtain ⟨trajs, byFolder, h1, h2, h3, h4, -⟩ := flow_written texts groups existing p hp ws h hw
  have hmk := dir_marks h h1
  have h4' := forall₂_and_mem h4
  refine ⟨trajs, byFolder, h1, h2, h4'.imp ?_⟩
  rintro w ms ⟨⟨-, hpart, ⟨v1, v2⟩, e1, e2⟩, hms⟩
  have hin : ∀ m ∈ ms, m ∈ trajs := fun m hm => (h3 ms hms).1.subset hm
  refine ⟨_, cutBounds_chunks _ p hp, hpart, ?_, ?_, ?_, ?_⟩
  · exact fun hall => v1 (fun m hm => (hmk m (hin m hm)).1.2
      (fun f hf => hall f (List.mem_flatMap.2 ⟨m, hm, hf⟩)))
  · rintro ⟨f, hf, hno⟩
    obtain ⟨m, hm, hfm⟩ := List.mem_flatMap.1 hf
    refine v2 ⟨m, hm, Bool.eq_false_iff.2 (fun ht => ?_)⟩
    obtain ⟨v, hv⟩ := (hmk m (hin m hm)).1.1 ht f hfm
    exact hno v hv
  · exact fun hall => e1 (fun m hm => (hmk m (hin m hm)).2.2
      (fun f hf => hall f (List.mem_flatMap.2 ⟨m, hm, hf⟩)))
  · rintro ⟨f, hf, hno⟩
    obtain ⟨m, hm, hfm⟩ := List.mem_flatMap.1 hf
    refine e2 ⟨m, hm, Bool.eq_false_iff.2 (fun ht => ?_)⟩
    obtain ⟨v, hv⟩ := (hmk m (hin m hm)).2.1 ht f hfm
    exact hno v hv

/-- C204 fails: two silicon trajectories, one with a stress; alone it is written, together with the other one
it is dropped without an error. -/
theorem C204_violated :
    readKind .virial frameStress = .ok [1, 2, 3, 4, 5, 6, 7, 8, 9] ∧
    (infoSetsFromDir [frameStress]).bind (fun gs => (infoSetsToDir gs [] (some 1)).map (fun ws =>
      ws.map (fun w => w.parts.map (fun part => part.2.filter (fun a => a.1 = chars% "virial.npy"))))) =
      .ok [[[(chars% "virial.npy", .nums [[1, 2, 3, 4, 5, 6, 7, 8, 9]])]]] ∧
    (infoSetsFromDir [frameStress, frameNoStress]).bind (fun gs => (infoSetsToDir gs [] (some 1)).map (fun ws =>
      ws.map (fun w => w.parts.map (fun part => part.2.map Prod.fst)))) =
      .ok [[[chars% "box.npy", chars% "types.npy", chars% "coord.npy", chars% "etot.npy", chars% "fatom.npy"],
            [chars% "box.npy", chars% "types.npy", chars% "coord.npy", chars% "etot.npy", chars% "fatom.npy"]]] := by
  decide +kernel

end MaterSDK
