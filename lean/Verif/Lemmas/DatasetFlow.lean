import Verif.Props.Dataset
import Verif.Spec.DatasetFlow

/-! # From trajectory files to part folders -/

namespace MaterSDK

/-- What an `InfoSet` holds of some frames. -/
structure SetSays (keys : List Str) (fs : List Str) (s : InfoSet) : Prop where
  box : List.Forall₂ (fun f v => readKind .box f = .ok v) fs s.box
  coord : List.Forall₂ (fun f v => readKind .coords f = .ok v) fs s.coord
  etot : List.Forall₂ (fun f v => readKind .etot f = .ok v) fs s.etot
  fatom : List.Forall₂ (fun f v => readKind .fatoms f = .ok v) fs s.fatom
  types : List.Forall₂ (TypesSay keys) fs s.types
  count : s.numFrames = fs.length

theorem forall₂_comp {α β γ : Type} {R : α → β → Prop} {S : β → γ → Prop} {l1 : List α} {l2 : List β}
    {l3 : List γ} (h1 : List.Forall₂ R l1 l2) (h2 : List.Forall₂ S l2 l3) :
    List.Forall₂ (fun a c => ∃ b, R a b ∧ S b c) l1 l3 := by
  induction h1 generalizing l3 with
  | nil => cases h2; exact .nil
  | cons h _ ih => cases h2 with | cons h' t => exact .cons ⟨_, h, h'⟩ (ih t)

/-- One file. -/
theorem setSays_file {t : Str} {numbers : List ℤ} {s : InfoSet} (hnd : numbers.Nodup)
    (h : infoSetFromFile t (some numbers) = .ok s) :
    ∃ m ks, MVExtractor.load t = .ok m ∧ numbers.mapM specieOf = .ok ks ∧
      s.formulaDict.map Prod.fst = ks ∧ SetSays ks m.allFrameStrs s ∧
      OptRows m.virialMark .virial m.allFrameStrs s.virial ∧
      OptRows m.eatomsMark .eatoms m.allFrameStrs s.eatom ∧ s.magmom = none := by
  obtain ⟨m, T, t0, ns, ks, hm, hr, _, hns, _, hks, _, hd⟩ :=
    infoSet_composition h (by rintro _ ⟨⟩; exact hnd)
  have := hns _ rfl
  subst this
  have hkeys : s.formulaDict.map Prod.fst = ks := by
    rw [hd, List.map_fst_zip (by simp [mapM_length hks])]
  refine ⟨m, ks, hm, hks, hkeys, ⟨hr.box, hr.coord, hr.etot, hr.fatom, ?_, ?_⟩, hr.virial, hr.eatom, hr.magmom⟩
  · refine forall₂_comp hr.types ((mapM_eq_ok.1 hr.index).imp ?_)
    intro row stored hrow
    refine (mapM_eq_ok.1 hrow).imp ?_
    intro t j hj
    obtain ⟨sym, h1, h2⟩ := forall₂_get (mapM_eq_ok.1 hks) (pyIndex_ok hj)
    exact ⟨sym, h1, h2⟩
  · rw [hr.count, ← hr.box.length_eq]

theorem forall₂_flatten_map {α β γ : Type} {R : α → β → Prop} {P : List α → γ → Prop} (g : γ → List β)
    (hP : ∀ a c, P a c → List.Forall₂ R a (g c)) {F : List (List α)} {ms : List γ}
    (h : List.Forall₂ P F ms) : List.Forall₂ R F.flatten ((ms.map g).flatten) := by
  induction h with
  | nil => exact .nil
  | cons h _ ih =>
    simp only [List.flatten_cons, List.map_cons]
    exact List.rel_append (hP _ _ h) ih

/-- A group. -/
theorem setSays_group {keys : List Str} {f : Str} {members : List InfoSet} {g : InfoSet}
    (hg : IsGroup f members g) {F : List (List Str)} (h : List.Forall₂ (SetSays keys) F members) :
    SetSays keys F.flatten g := by
  refine ⟨?_, ?_, ?_, ?_, ?_, ?_⟩
  · rw [hg.box]; exact forall₂_flatten_map InfoSet.box (fun _ _ h => h.box) h
  · rw [hg.coord]; exact forall₂_flatten_map InfoSet.coord (fun _ _ h => h.coord) h
  · rw [hg.etot]; exact forall₂_flatten_map InfoSet.etot (fun _ _ h => h.etot) h
  · rw [hg.fatom]; exact forall₂_flatten_map InfoSet.fatom (fun _ _ h => h.fatom) h
  · rw [hg.types]; exact forall₂_flatten_map InfoSet.types (fun _ _ h => h.types) h
  · rw [hg.numFrames]
    clear hg
    induction h with
    | nil => rfl
    | cons h _ ih => simp only [List.map_cons, List.sum_cons, List.flatten_cons, List.length_append, ih, h.count]

/-! ## Writing -/

/-- The parts of a list. -/
def cutIn (p : ℕ) {α : Type} (l : List α) : List (List α) :=
  (cutBounds l.length p).map (fun b => pySlice l b.1 b.2)

theorem forall₂_slice {α β : Type} {R : α → β → Prop} {l : List α} {r : List β} (h : List.Forall₂ R l r)
    (i j : ℕ) : List.Forall₂ R (pySlice l i j) (pySlice r i j) := by
  unfold pySlice
  exact List.forall₂_take _ (List.forall₂_drop _ h)

/-- The part folders and the bounds. -/
theorem toDir_bounds {s : InfoSet} {existing : List Str} {p : ℕ} (hp : 1 ≤ p) {w : Written}
    (h : s.toDir existing (some (p : ℤ)) = .ok w) :
    s.formula ∉ existing ∧ w.folder = s.formula ∧ w.typeMap = s.formulaDict.map Prod.fst ∧
      List.Forall₂ (fun (part : Str × List (Str × Rows)) (b : ℕ × ℕ) =>
        part.2 = s.arrays.map (fun a => (a.1, a.2.slice b.1 b.2))) w.parts (cutBounds s.numFrames p) := by
  obtain ⟨bounds, hb, hf, rfl⟩ := toDir_parts h
  rw [partBounds_some _ _ hp] at hb
  have hb := Except.ok.inj hb
  subst hb
  refine ⟨hf, rfl, rfl, ?_⟩
  simp only
  generalize cutBounds s.numFrames p = bs
  generalize 0 = start
  induction bs generalizing start with
  | nil => exact .nil
  | cons b bs ih =>
    simp only [List.map_cons, List.zipIdx_cons]
    exact .cons (by simp) (ih _)

theorem parts_file {s : InfoSet} {p : ℕ} {parts : List (Str × List (Str × Rows))} {fs : List Str}
    (hc : s.numFrames = fs.length) (hparts : List.Forall₂ (fun (part : Str × List (Str × Rows)) (b : ℕ × ℕ) =>
        part.2 = s.arrays.map (fun a => (a.1, a.2.slice b.1 b.2))) parts (cutBounds s.numFrames p))
    {P : List (Str × Rows) → List Str → Prop}
    (hP : ∀ i j, P (s.arrays.map (fun a => (a.1, a.2.slice i j))) (pySlice fs i j)) :
    List.Forall₂ (fun part c => P part.2 c) parts (cutIn p fs) := by
  unfold cutIn
  rw [← hc, List.forall₂_map_right_iff]
  refine hparts.imp ?_
  intro part b hb
  rw [hb]
  exact hP _ _

theorem file_slice {s : InfoSet} {fs : List Str} {R : Str → List ℚ → Prop} {nm : Str} {rows : List (List ℚ)}
    (hm : (nm, Rows.nums rows) ∈ s.arrays) (hr : List.Forall₂ R fs rows) (i j : ℕ) :
    FileSays R nm (s.arrays.map (fun a => (a.1, a.2.slice i j))) (pySlice fs i j) :=
  ⟨pySlice rows i j, List.mem_map.2 ⟨_, hm, rfl⟩, forall₂_slice hr i j⟩

theorem setSays_part {keys : List Str} {fs : List Str} {s : InfoSet} (h : SetSays keys fs s) (i j : ℕ) :
    PartSays keys (s.arrays.map (fun a => (a.1, a.2.slice i j))) (pySlice fs i j) := by
  obtain ⟨a1, a2, a3, a4, a5, -, -, -, a6⟩ := C38_files s
  refine ⟨file_slice a1 h.box i j, file_slice a3 h.coord i j, file_slice a4 h.etot i j,
    file_slice a5 h.fatom i j, ⟨pySlice s.types i j, List.mem_map.2 ⟨_, a2, rfl⟩, forall₂_slice h.types i j⟩, ?_⟩
  rw [List.map_map]
  exact a6

/-! ## Several sets -/

theorem go_ok {size : ℤ} : ∀ {gs : List InfoSet} {ex : List Str} {ws : List Written},
    infoSetsToDir.go size gs ex = .ok ws →
    List.Forall₂ (fun g w => ∃ ex', g.toDir ex' (some size) = .ok w) gs ws ∧ (∀ g ∈ gs, g.formula ∉ ex)
  | [], ex, ws, h => by
    have := Except.ok.inj h
    subst this
    exact ⟨.nil, by simp⟩
  | g :: gs, ex, ws, h => by
    unfold infoSetsToDir.go at h
    rw [bind_eq_ok] at h
    obtain ⟨w, hw, h⟩ := h
    rw [bind_eq_ok] at h
    obtain ⟨ws', hws, h⟩ := h
    have := Except.ok.inj h
    subst this
    obtain ⟨h1, h2⟩ := go_ok hws
    refine ⟨.cons ⟨ex, hw⟩ h1, ?_⟩
    intro x hx
    rcases List.mem_cons.1 hx with rfl | hx
    · obtain ⟨_, _, hf, _⟩ := toDir_parts hw
      exact hf
    · intro hin
      exact h2 x hx (List.mem_append_left _ hin)

theorem go_succeeds {size : ℤ} (hsize : size ≠ 0) : ∀ (gs : List InfoSet) (ex : List Str),
    (gs.map InfoSet.formula).Nodup → (∀ g ∈ gs, g.formula ∉ ex) →
    ∃ ws, infoSetsToDir.go size gs ex = .ok ws
  | [], ex, _, _ => ⟨[], rfl⟩
  | g :: gs, ex, hnd, hex => by
    rw [List.map_cons, List.nodup_cons] at hnd
    obtain ⟨ws, hws⟩ := go_succeeds hsize gs (ex ++ [g.formula]) hnd.2 (by
      intro x hx hin
      rcases List.mem_append.1 hin with hin | hin
      · exact hex x (List.mem_cons_of_mem _ hx) hin
      · rw [List.mem_singleton] at hin
        exact hnd.1 (hin ▸ List.mem_map_of_mem hx))
    obtain ⟨w, hw⟩ : ∃ w, g.toDir ex (some size) = .ok w := by
      unfold InfoSet.toDir partBounds
      simp only [hsize, if_false, ok_bind]
      rw [if_neg (hex g (by simp))]
      exact ⟨_, rfl⟩
    refine ⟨w :: ws, ?_⟩
    unfold infoSetsToDir.go
    rw [hw, ok_bind, hws, ok_bind]
    rfl

/-- Grouping by a key only reorders. -/
theorem flatMap_filter_perm {α β : Type} [DecidableEq α] (keys : List α) (hnd : keys.Nodup) (key : β → α)
    (l : List β) (h : ∀ b ∈ l, key b ∈ keys) :
    (keys.flatMap (fun k => l.filter (fun b => key b = k))).Perm l := by
  classical
  rw [List.perm_iff_count]
  intro a
  rw [List.count_flatMap]
  by_cases ha : a ∈ l
  · have e : (List.count a ∘ fun k => l.filter (fun b => decide (key b = k)))
        = fun k => if key a = k then l.count a else 0 := by
      funext k
      by_cases hk : key a = k
      · simp only [Function.comp, hk, if_true]
        exact List.count_filter (by simp [hk])
      · simp only [Function.comp, hk, if_false]
        rw [List.count_eq_zero]
        intro hm
        exact hk (by simpa using (List.mem_filter.1 hm).2)
    rw [e, sum_ite_nodup keys (key a) _ hnd (h a ha)]
  · rw [List.count_eq_zero.2 ha]
    rw [List.sum_eq_zero]
    intro x hx
    obtain ⟨k, _, rfl⟩ := List.mem_map.1 hx
    rw [Function.comp, List.count_eq_zero]
    exact fun hm => ha (List.mem_filter.1 hm).1

/-- What all files and all folders have to do with each other. -/
theorem dir_flow {texts : List Str} {groups : List InfoSet} (h : infoSetsFromDir texts = .ok groups) :
    ∃ (ks : List Str) (Z : List (InfoSet × MVExtractor)),
      List.Forall₂ (fun t z => MVExtractor.load t = .ok z.2) texts Z ∧
      (∀ z ∈ Z, SetSays ks z.2.allFrameStrs z.1 ∧ z.1.numFrames ≠ 0 ∧
        OptRows z.2.virialMark .virial z.2.allFrameStrs z.1.virial ∧
        OptRows z.2.eatomsMark .eatoms z.2.allFrameStrs z.1.eatom ∧ z.1.magmom = none) ∧
      ∃ keys : List Str, keys.Nodup ∧ (∀ z ∈ Z, z.1.formula ∈ keys) ∧
        List.Forall₂ (fun k g => IsGroup k ((Z.filter (fun z => z.1.formula = k)).map Prod.fst) g ∧
          g.formulaDict.map Prod.fst = ks ∧ ∃ z ∈ Z, z.1.formula = k) keys groups := by
  unfold infoSetsFromDir at h
  rw [bind_eq_ok] at h
  obtain ⟨first, -, h⟩ := h
  rw [bind_eq_ok] at h
  obtain ⟨numbers, hn, h⟩ := h
  rw [bind_eq_ok] at h
  obtain ⟨sets, hs, h⟩ := h
  have hnd := (gather_nodup first numbers hn).1
  have hg := reduceSets_groups h
  replace hs := mapM_eq_ok.1 hs
  clear h
  obtain ⟨ks, hks⟩ : ∃ ks : List Str, sets ≠ [] → numbers.mapM specieOf = .ok ks := by
    cases hs with
    | nil => exact ⟨[], fun h => absurd rfl h⟩
    | cons h0 _ =>
      obtain ⟨_, ks, _, hks, _⟩ := setSays_file hnd h0
      exact ⟨ks, fun _ => hks⟩
  have hall : ∃ ms : List MVExtractor, List.Forall₂ (fun (s : InfoSet) (tm : Str × MVExtractor) =>
      MVExtractor.load tm.1 = .ok tm.2 ∧ s.formulaDict.map Prod.fst = ks ∧
      SetSays ks tm.2.allFrameStrs s ∧ s.numFrames ≠ 0 ∧
        OptRows tm.2.virialMark .virial tm.2.allFrameStrs s.virial ∧
        OptRows tm.2.eatomsMark .eatoms tm.2.allFrameStrs s.eatom ∧ s.magmom = none) sets (texts.zip ms) ∧
      ms.length = texts.length := by
    have hks' : ∀ s ∈ sets, numbers.mapM specieOf = .ok ks := fun s hs => hks (List.ne_nil_of_mem hs)
    clear hks hg
    induction hs with
    | nil => exact ⟨[], .nil, rfl⟩
    | cons h0 _ ih =>
      obtain ⟨ms, ih, hl⟩ := ih (fun s hs => hks' s (List.mem_cons_of_mem _ hs))
      obtain ⟨m, ks', hm, hk, hd, hsay, hv, he, hmg⟩ := setSays_file hnd h0
      rw [hks' _ (List.mem_cons_self)] at hk
      have := Except.ok.inj hk
      subst this
      refine ⟨m :: ms, .cons ⟨hm, hd, hsay, ?_, hv, he, hmg⟩ ih, by simp [hl]⟩
      obtain ⟨_, T, t0, _, hm', hr, ht0, _⟩ := infoSet_ok h0
      rw [hm] at hm'
      have := Except.ok.inj hm'
      subst this
      rw [hsay.count, hr.types.length_eq]
      intro h0
      rw [List.length_eq_zero_iff.1 h0] at ht0
      simp at ht0
  obtain ⟨ms, hms, hl⟩ := hall
  have hlen : sets.length = ms.length := by rw [hl, hs.length_eq]
  have hfst : (sets.zip ms).map Prod.fst = sets := List.map_fst_zip (by omega)
  have hpair : ∀ z ∈ sets.zip ms, z.1.formulaDict.map Prod.fst = ks ∧
      SetSays ks z.2.allFrameStrs z.1 ∧ z.1.numFrames ≠ 0 ∧
        OptRows z.2.virialMark .virial z.2.allFrameStrs z.1.virial ∧
        OptRows z.2.eatomsMark .eatoms z.2.allFrameStrs z.1.eatom ∧ z.1.magmom = none := by
    clear hfst hg hks hs hn hnd
    revert hms hl hlen
    generalize texts = ts
    intro hms hl hlen
    induction ms generalizing ts sets with
    | nil => simp
    | cons m ms ih =>
      cases ts with
      | nil => simp at hl
      | cons t ts =>
        cases hms with
        | cons h0 hr =>
          intro z hz
          rcases List.mem_cons.1 hz with rfl | hz
          · exact h0.2
          · exact ih _ ts hr (by simpa using hl) (by simpa using hlen) z hz
  refine ⟨ks, sets.zip ms, ?_, fun z hz => (hpair z hz).2, counterKeys (sets.map InfoSet.formula),
    counterKeys_nodup _, ?_, ?_⟩
  · clear hfst hg hks hpair hn hnd
    revert hms hl hlen hs
    generalize texts = ts
    intro hs hms hl hlen
    induction ms generalizing ts sets with
    | nil =>
      obtain rfl : ts = [] := List.length_eq_zero_iff.1 (by simpa using hl.symm)
      simp
    | cons m ms ih =>
      cases ts with
      | nil => simp at hl
      | cons t ts =>
        cases hms with
        | cons h0 hr =>
          cases hs with
          | cons _ hs' => exact .cons h0.1 (ih _ ts hs' hr (by simpa using hl) (by simpa using hlen))
  · intro z hz
    exact (mem_counterKeys _ _).2 (List.mem_map.2 ⟨z.1, by
      rw [← hfst]; exact List.mem_map_of_mem hz, rfl⟩)
  · have hmem : ∀ k ∈ counterKeys (sets.map InfoSet.formula), ∃ z ∈ sets.zip ms, z.1.formula = k := by
      intro k hk
      obtain ⟨s, hs1, hs2⟩ := List.mem_map.1 ((mem_counterKeys _ _).1 hk)
      rw [← hfst] at hs1
      obtain ⟨z, hz, rfl⟩ := List.mem_map.1 hs1
      exact ⟨z, hz, hs2⟩
    have hkeys : ∀ s ∈ sets, s.formulaDict.map Prod.fst = ks := by
      intro s hs1
      rw [← hfst] at hs1
      obtain ⟨z, hz, rfl⟩ := List.mem_map.1 hs1
      exact (hpair z hz).1
    have hfil : ∀ k : Str, sets.filter (fun s => s.formula = k)
        = ((sets.zip ms).filter (fun z => z.1.formula = k)).map Prod.fst := by
      intro k
      conv_lhs => rw [← hfst, List.filter_map]
      rfl
    generalize counterKeys (sets.map InfoSet.formula) = keys at hg hmem
    induction hg with
    | nil => exact .nil
    | cons h0 _ ih =>
      refine .cons ⟨?_, ?_, hmem _ (by simp)⟩ (ih (fun k hk => hmem k (List.mem_cons_of_mem _ hk)))
      · rw [← hfil]; exact h0.1
      · rcases h0.2 with ⟨s, hs1, rfl⟩ | ⟨_, last, hl', hd⟩
        · refine hkeys _ ?_
          exact (List.mem_filter.1 (hs1 ▸ List.mem_singleton_self _)).1
        · rw [hd]
          exact hkeys _ (List.mem_of_getLast? hl')

end MaterSDK
