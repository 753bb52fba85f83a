import Verif.Lemmas.Trajectory
import Verif.Lemmas.Movement
import Verif.Lemmas.StructIO

/-! # Lemmas on the readers of a trajectory -/

namespace MaterSDK

theorem firstLine_eq {row rest : Str} (h : '\n' ∉ row) :
    pyGet (splitCh '\n' (row ++ '\n' :: rest)) 0 = .ok row := by
  rw [splitCh_sep h]; rfl

theorem header_listLocate (h : Header) {n : Nat} {et ep ek : ℚ} (hr : h.Reads n et ep ek) :
    listLocate (split h.row) (chars% "=") = [3, 7, 12] := by
  obtain ⟨t, ht⟩ := hr.time
  obtain ⟨k, hk⟩ := hr.scf
  rw [header_split h hr]
  have e0 : strIn (chars% "=") (upper h.count) = false :=
    strIn_false_of_char (c := '=') (by decide) (upper_ne_eq (hr.count.not_mem (by decide)))
  have e1 : strIn (chars% "=") (upper (h.time ++ [','])) = false :=
    strIn_false_of_char (c := '=') (by decide)
      (upper_ne_eq (mem_append_single (ht.not_mem (by decide) (by decide)) (by decide)))
  have e2 : strIn (chars% "=") (upper h.etot) = false :=
    strIn_false_of_char (c := '=') (by decide) (upper_ne_eq (hr.etot.not_mem (by decide) (by decide)))
  have e3 : strIn (chars% "=") (upper h.ep) = false :=
    strIn_false_of_char (c := '=') (by decide) (upper_ne_eq (hr.ep.not_mem (by decide) (by decide)))
  have e4 : strIn (chars% "=") (upper (h.ek ++ [','])) = false :=
    strIn_false_of_char (c := '=') (by decide)
      (upper_ne_eq (mem_append_single (hr.ek.not_mem (by decide) (by decide)) (by decide)))
  have e5 : strIn (chars% "=") (upper h.scf) = false :=
    strIn_false_of_char (c := '=') (by decide) (upper_ne_eq (hk.not_mem (by decide)))
  unfold listLocate
  simp only [listLocateFrom, e0, e1, e2, e3, e4, e5,
    show strIn (chars% "=") (upper (chars% "atoms,Iteration")) = false from by decide,
    show strIn (chars% "=") (upper (chars% "(fs)")) = false from by decide,
    show strIn (chars% "=") (upper (chars% "=")) = true from by decide,
    show strIn (chars% "=") (upper (chars% "Etot,Ep,Ek")) = false from by decide,
    show strIn (chars% "=") (upper (chars% "(eV)")) = false from by decide,
    show strIn (chars% "=") (upper (chars% "SCF")) = false from by decide,
    Bool.false_eq_true, if_false, if_true]

theorem forall_append {p : Char → Prop} {a b : Str} (ha : ∀ c ∈ a, p c) (hb : ∀ c ∈ b, p c) :
    ∀ c ∈ a ++ b, p c := by
  intro c hc
  rcases List.mem_append.1 hc with h | h
  · exact ha c h
  · exact hb c h

theorem header_locateEk (h : Header) {n : Nat} {et ep ek : ℚ} (hr : h.Reads n et ep ek) :
    pyGet (listLocate (splitCh ',' h.row) (chars% "EK (EV) =")) 0 = .ok 4 := by
  obtain ⟨t, ht⟩ := hr.time
  obtain ⟨k, hk⟩ := hr.scf
  rw [header_splitComma h hr]
  have e0 : strIn (chars% "EK (EV) =") (upper (blanks h.g0 ++ h.count ++ (chars% " atoms"))) = false :=
    strIn_false_of_char (c := 'K') (by decide)
      (forall_append (forall_append (blanks_upper_ne _ (by decide)) (hr.count.upper_ne (by decide)))
        (by decide))
  have e1 : strIn (chars% "EK (EV) =")
      (upper ((chars% "Iteration (fs) =") ++ blanks (h.g1 + 1) ++ h.time)) = false :=
    strIn_false_of_char (c := 'K') (by decide)
      (forall_append (forall_append (by decide) (blanks_upper_ne _ (by decide)))
        (ht.upper_ne (by decide) (by decide)))
  have e4 : strIn (chars% "EK (EV) =") (upper ((chars% "Ek (eV) =") ++ blanks (h.g2 + 1) ++ h.etot ++
      blanks (h.g3 + 1) ++ h.ep ++ blanks (h.g4 + 1) ++ h.ek)) = true := by
    rw [strIn_iff]
    unfold upper
    simp only [List.append_assoc, List.map_append]
    exact (List.prefix_append _ _).isInfix
  unfold listLocate
  simp only [listLocateFrom, e0, e1, e4,
    show strIn (chars% "EK (EV) =") (upper (chars% " Etot")) = false from by decide,
    show strIn (chars% "EK (EV) =") (upper (chars% "Ep")) = false from by decide,
    Bool.false_eq_true, if_false, if_true]
  rfl

theorem header_EkWord (h : Header) {n : Nat} {et ep ek : ℚ} (hr : h.Reads n et ep ek) :
    (split ((chars% "Ek (eV) =") ++ blanks (h.g2 + 1) ++ h.etot ++
      blanks (h.g3 + 1) ++ h.ep ++ blanks (h.g4 + 1) ++ h.ek))[3]? = some h.etot := by
  have e : (chars% "Ek (eV) =") ++ blanks (h.g2 + 1) ++ h.etot ++
      blanks (h.g3 + 1) ++ h.ep ++ blanks (h.g4 + 1) ++ h.ek = (chars% "Ek") ++ (blanks (0 + 1) ++
      ((chars% "(eV)") ++ (blanks (0 + 1) ++ ((chars% "=") ++ (blanks (h.g2 + 1) ++ (h.etot ++
      (blanks (h.g3 + 1) ++ (h.ep ++ (blanks (h.g4 + 1) ++ h.ek))))))))) := by
    have b1 : blanks (0 + 1) = [' '] := rfl
    simp [b1]
  rw [e, split_word_blanks (by decide) (by decide), split_word_blanks (by decide) (by decide),
    split_word_blanks (by decide) (by decide), split_word_blanks hr.etot.ne_nil hr.etot.noSpace]
  rfl

/-! ## Frames of an extractor -/

theorem markOf_magmoms (a : ACStr) : markOf a.getMagmoms = .ok false := rfl

theorem load_marks {text : Str} {m : MVExtractor} (h : MVExtractor.load text = .ok m) :
    m.magmomsMark = false ∧ ∃ f a, m.frameStr 0 = .ok f ∧ acStr f = .ok a ∧
      markOf a.getVirial = .ok m.virialMark ∧ markOf a.getEatoms = .ok m.eatomsMark := by
  unfold MVExtractor.load at h
  rw [bind_eq_ok] at h
  obtain ⟨sizes, _, h⟩ := h
  rw [bind_eq_ok] at h
  obtain ⟨⟨v, e, mm⟩, hx, h⟩ := h
  cases h
  unfold findExtra at hx
  rw [bind_eq_ok] at hx
  obtain ⟨f0, hf0, hx⟩ := hx
  rw [bind_eq_ok] at hx
  obtain ⟨a, ha, hx⟩ := hx
  rw [bind_eq_ok] at hx
  obtain ⟨v', hv, hx⟩ := hx
  rw [bind_eq_ok] at hx
  obtain ⟨e', he, hx⟩ := hx
  rw [markOf_magmoms, ok_bind] at hx
  cases hx
  exact ⟨rfl, f0, a, hf0, ha, hv, he⟩

theorem markOf_true {α : Type} {r : Except PyErr α} : markOf r = .ok true ↔ ∃ x, r = .ok x := by
  constructor
  · intro h
    cases r with
    | ok x => exact ⟨x, rfl⟩
    | error e => cases e <;> cases h
  · rintro ⟨x, rfl⟩; rfl

theorem markOf_false {α : Type} {r : Except PyErr α} :
    markOf r = .ok false ↔ r = .error .attributeError := by
  constructor
  · intro h
    cases r with
    | ok x => cases h
    | error e => cases e <;> first | rfl | cases h
  · rintro rfl; rfl

/-- What the frame-string extractor returns for one kind of data. -/
def readKind (k : Kind) (f : Str) : Except PyErr (List ℚ) := do
  let a ← acStr f
  match k with
  | .box => a.getBasis
  | .types => do return (← a.getTypes).map (fun (t : Int) => (t : ℚ))
  | .coords => a.getCoords
  | .etot => do return [← a.getEtot]
  | .fatoms => .ok a.getFatoms
  | .virial => a.getVirial
  | .eatoms => a.getEatoms
  | .magmoms => a.getMagmoms

/-- A record: for each kind the value of the frame. -/
def IsRecord (ks : List Kind) (f : Str) (r : List (Kind × List ℚ)) : Prop :=
  List.Forall₂ (fun k p => p.1 = k ∧ readKind k f = .ok p.2) ks r

theorem optKind_false (k : Kind) (r : Except PyErr (List ℚ)) : optKind false k r = .ok [] := rfl

theorem optKind_ok {b : Bool} {k : Kind} {r : Except PyErr (List ℚ)} {x : List (Kind × List ℚ)}
    (h : optKind b k r = .ok x) : (b = false ∧ x = []) ∨ (b = true ∧ ∃ v, r = .ok v ∧ x = [(k, v)]) := by
  cases b with
  | false => cases h; exact .inl ⟨rfl, rfl⟩
  | true =>
    cases r with
    | error e => cases h
    | ok v => cases h; exact .inr ⟨rfl, v, rfl, rfl⟩

theorem chunkInfo_ok {m : MVExtractor} (hm : m.magmomsMark = false) {f : Str}
    {r : List (Kind × List ℚ)} (h : m.chunkInfo f = .ok r) :
    IsRecord ([.box, .coords, .types, .etot, .fatoms] ++ (if m.virialMark then [.virial] else []) ++
      (if m.eatomsMark then [.eatoms] else [])) f r := by
  unfold MVExtractor.chunkInfo at h
  rw [bind_eq_ok] at h
  obtain ⟨a, ha, h⟩ := h
  rw [bind_eq_ok] at h
  obtain ⟨box, h1, h⟩ := h
  rw [bind_eq_ok] at h
  obtain ⟨coords, h2, h⟩ := h
  rw [bind_eq_ok] at h
  obtain ⟨types, h3, h⟩ := h
  rw [bind_eq_ok] at h
  obtain ⟨etot, h4, h⟩ := h
  rw [bind_eq_ok] at h
  obtain ⟨vir, h5, h⟩ := h
  rw [bind_eq_ok] at h
  obtain ⟨eat, h6, h⟩ := h
  rw [hm, optKind_false, ok_bind] at h
  cases h
  unfold IsRecord
  rw [List.append_nil]
  refine List.rel_append (List.rel_append ?_ ?_) ?_
  · refine .cons ⟨rfl, ?_⟩ (.cons ⟨rfl, ?_⟩ (.cons ⟨rfl, ?_⟩ (.cons ⟨rfl, ?_⟩ (.cons ⟨rfl, ?_⟩ .nil))))
    · simp only [readKind, ha, ok_bind, h1]
    · simp only [readKind, ha, ok_bind, h2]
    · simp only [readKind, ha, ok_bind, h3]; rfl
    · simp only [readKind, ha, ok_bind, h4]; rfl
    · simp only [readKind, ha, ok_bind]
  · obtain ⟨hb, rfl⟩ | ⟨hb, v, hv, rfl⟩ := optKind_ok h5
    · rw [hb]; exact .nil
    · rw [hb]; exact .cons ⟨rfl, by simp only [readKind, ha, ok_bind, hv]⟩ .nil
  · obtain ⟨hb, rfl⟩ | ⟨hb, v, hv, rfl⟩ := optKind_ok h6
    · rw [hb]; exact .nil
    · rw [hb]; exact .cons ⟨rfl, by simp only [readKind, ha, ok_bind, hv]⟩ .nil

theorem kinds_eq {m : MVExtractor} (hm : m.magmomsMark = false) :
    m.kinds = [.box, .types, .coords, .etot, .fatoms] ++ (if m.virialMark then [.virial] else []) ++
      (if m.eatomsMark then [.eatoms] else []) := by
  simp [MVExtractor.kinds, hm]

theorem readKind_acStr {k : Kind} {f : Str} {v : List ℚ} (h : readKind k f = .ok v) :
    ∃ a, acStr f = .ok a := by
  unfold readKind at h
  rw [bind_eq_ok] at h
  obtain ⟨a, ha, _⟩ := h
  exact ⟨a, ha⟩

/-- A frame from which every kind of the extractor can be read has a frame record in the order of the
arrays. -/
theorem frameInfo_of_kinds {m : MVExtractor} (hm : m.magmomsMark = false) {i : Int} {f : Str}
    (hf : m.frameStr i = .ok f) {w : Kind → List ℚ} (h : ∀ k ∈ m.kinds, readKind k f = .ok (w k)) :
    m.frameInfo i = .ok (m.kinds.map (fun k => (k, w k))) := by
  have hk := kinds_eq hm
  obtain ⟨a, ha⟩ := readKind_acStr (h .box (by rw [hk]; simp))
  have h1 := h .box (by rw [hk]; simp)
  have h2 := h .types (by rw [hk]; simp)
  have h3 := h .coords (by rw [hk]; simp)
  have h4 := h .etot (by rw [hk]; simp)
  have h5 := h .fatoms (by rw [hk]; simp)
  simp only [readKind, ha, ok_bind] at h1 h2 h3 h4 h5
  rw [bind_eq_ok] at h2 h4
  obtain ⟨types, h2, h2'⟩ := h2
  obtain ⟨etot, h4, h4'⟩ := h4
  have h2'' : types.map (fun (t : Int) => (t : ℚ)) = w .types := Except.ok.inj h2'
  have h4'' : [etot] = w .etot := Except.ok.inj h4'
  have h5'' : a.getFatoms = w .fatoms := Except.ok.inj h5
  have hv : optKind m.virialMark .virial a.getVirial =
      .ok ((if m.virialMark then [Kind.virial] else []).map (fun k => (k, w k))) := by
    cases hvm : m.virialMark with
    | false => rfl
    | true =>
      have := h .virial (by rw [hk, hvm]; simp)
      simp only [readKind, ha, ok_bind] at this
      rw [this]; rfl
  have he : optKind m.eatomsMark .eatoms a.getEatoms =
      .ok ((if m.eatomsMark then [Kind.eatoms] else []).map (fun k => (k, w k))) := by
    cases hvm : m.eatomsMark with
    | false => rfl
    | true =>
      have := h .eatoms (by rw [hk, hvm]; simp)
      simp only [readKind, ha, ok_bind] at this
      rw [this]; rfl
  unfold MVExtractor.frameInfo
  simp only [hf, ok_bind, ha, h1, h2, h3, h4, hm, optKind_false, hv, he]
  rw [hk, h2'', h4'', h5'']
  simp only [List.map_append, List.append_nil]
  rfl

theorem record_lookup {ks : List Kind} {f : Str} {r : List (Kind × List ℚ)} (h : IsRecord ks f r)
    {k : Kind} (hk : k ∈ ks) :
    ∃ v, readKind k f = .ok v ∧ (r.find? (fun p => p.1 = k)).map Prod.snd = some v := by
  unfold IsRecord at h
  induction h with
  | nil => simp at hk
  | @cons x y l l' h1 h2 ih =>
    obtain ⟨rfl, h1'⟩ := h1
    by_cases hx : y.1 = k
    · subst hx
      exact ⟨y.2, h1', by simp⟩
    · rcases List.mem_cons.1 hk with e | e
      · exact absurd e.symm hx
      · obtain ⟨v, hv, hv'⟩ := ih e
        refine ⟨v, hv, ?_⟩
        rw [List.find?_cons_of_neg (by simpa using hx)]
        exact hv'

theorem column_forall₂ {k : Kind} {fs : List Str} {recs : List (List (Kind × List ℚ))}
    (h : List.Forall₂ (fun f r => ∃ v, readKind k f = .ok v ∧
      (r.find? (fun p => p.1 = k)).map Prod.snd = some v) fs recs) :
    List.Forall₂ (fun f v => readKind k f = .ok v) fs (column k recs) := by
  induction h with
  | nil => exact .nil
  | cons h1 h2 ih =>
    obtain ⟨v, hv, hr⟩ := h1
    unfold column
    rw [List.filterMap_cons]
    simp only [hr]
    exact .cons hv ih

theorem npStack_ok {rows out : List (List ℚ)} (h : npStack rows = .ok out) :
    out = rows ∧ ∀ r ∈ rows, ∀ r' ∈ rows, r.length = r'.length := by
  unfold npStack at h
  split at h
  · cases h; simp
  · split at h
    · rename_i r rs hr
      cases h
      refine ⟨rfl, ?_⟩
      have hc : ∀ x ∈ r :: rs, x.length = r.length := by
        intro x hx
        rcases List.mem_cons.1 hx with rfl | hx
        · rfl
        · simpa using List.all_eq_true.1 hr x hx
      intro a ha b hb
      rw [hc a ha, hc b hb]
    · cases h

/-- What `get_frames_info` returns. -/
theorem framesInfo_ok {m : MVExtractor} (hm : m.magmomsMark = false)
    {arrs : List (Kind × List (List ℚ))} (h : m.framesInfo = .ok arrs) :
    arrs.map Prod.fst = m.kinds ∧
    ∀ p ∈ arrs, List.Forall₂ (fun f v => readKind p.1 f = .ok v) m.allFrameStrs p.2 ∧
      ∀ r ∈ p.2, ∀ r' ∈ p.2, r.length = r'.length := by
  unfold MVExtractor.framesInfo at h
  rw [bind_eq_ok] at h
  obtain ⟨recs, hr, h⟩ := h
  rw [mapM_eq_ok] at hr h
  have hcol : ∀ k ∈ m.kinds, List.Forall₂ (fun f v => readKind k f = .ok v) m.allFrameStrs
      (column k recs) := by
    intro k hk
    apply column_forall₂
    refine hr.imp ?_
    intro f r hfr
    refine record_lookup (chunkInfo_ok hm hfr) ?_
    rw [kinds_eq hm] at hk
    simp only [List.mem_append, List.mem_cons, List.not_mem_nil, or_false] at hk ⊢
    tauto
  constructor
  · clear hcol
    generalize m.kinds = ks at h
    induction h with
    | nil => rfl
    | cons h1 h2 ih =>
      rw [bind_eq_ok] at h1
      obtain ⟨s, hs, h1⟩ := h1
      cases h1
      rw [List.map_cons, ih]
  · intro p hp
    obtain ⟨j, hj⟩ := List.mem_iff_getElem?.1 hp
    obtain ⟨k, hk, hkp⟩ := forall₂_get' h hj
    rw [bind_eq_ok] at hkp
    obtain ⟨s, hs, hkp⟩ := hkp
    cases hkp
    obtain ⟨rfl, hu⟩ := npStack_ok hs
    exact ⟨hcol k (List.mem_of_getElem? hk), hu⟩

end MaterSDK
