import Verif.Spec.MtpParam
import Verif.Lemmas.Num
import Verif.Lemmas.Except

/-! # Reading an MTP parameter file -/

namespace MaterSDK

/-! ## Single extractions -/

theorem ignoreTo_found {d : Char} : ∀ {n : ℕ} {pre post : Str}, d ∉ pre → pre.length < n →
    ignoreTo d n (pre ++ d :: post) = post
  | 0, _, _, _, h => absurd h (by omega)
  | n + 1, [], post, _, _ => by simp [ignoreTo]
  | n + 1, c :: pre, post, hd, hl => by
    have hc : c ≠ d := by intro h; exact hd (by simp [h])
    simp only [List.cons_append, ignoreTo, hc, if_false]
    exact ignoreTo_found (fun h => hd (by simp [h])) (by simp at hl; omega)

theorem ignoreTo_suffix (d : Char) : ∀ (n : ℕ) (s : Str), ignoreTo d n s <:+ s
  | 0, s => by simp [ignoreTo]
  | n + 1, [] => by simp [ignoreTo]
  | n + 1, c :: cs => by
    simp only [ignoreTo]
    split
    · exact List.suffix_cons c cs
    · exact (ignoreTo_suffix d n cs).trans (List.suffix_cons c cs)

theorem skipHeader_suffix : ∀ (k : ℕ) (s : Str), skipHeader k s <:+ s
  | 0, s => by simp [skipHeader]
  | k + 1, s => by
    simp only [skipHeader]
    exact (skipHeader_suffix k _).trans (ignoreTo_suffix _ _ _)

theorem isEol_cases {eol : Str} (h : IsEol eol) :
    ∃ pre, eol = pre ++ ['\n'] ∧ pre.length ≤ 1 ∧ ∀ c ∈ pre, c = '\r' := by
  rcases h with rfl | rfl
  · exact ⟨[], by simp⟩
  · exact ⟨['\r'], by simp⟩

theorem isEol_space {eol : Str} (h : IsEol eol) : ∀ c ∈ eol, isSpace c = true := by
  rcases h with rfl | rfl <;> decide

theorem isEol_ne_nil {eol : Str} (h : IsEol eol) : eol ≠ [] := by
  rcases h with rfl | rfl <;> decide

theorem skipHeader_lines {eol : Str} (he : IsEol eol) : ∀ (header : List Str) (rest : Str),
    (∀ l ∈ header, '\n' ∉ l ∧ l.length < 4998) →
    skipHeader header.length (header.flatMap (fun l => l ++ eol) ++ rest) = rest
  | [], rest, _ => by simp [skipHeader]
  | l :: ls, rest, h => by
    obtain ⟨pre, rfl, hp, hc⟩ := isEol_cases he
    have hl := h l (by simp)
    have e : ((l :: ls).flatMap (fun l => l ++ (pre ++ ['\n'])) ++ rest)
        = (l ++ pre) ++ '\n' :: (ls.flatMap (fun l => l ++ (pre ++ ['\n'])) ++ rest) := by
      simp
    simp only [List.length_cons, skipHeader]
    rw [e, ignoreTo_found]
    · exact skipHeader_lines he ls rest (fun l' hl' => h l' (by simp [hl']))
    · intro hm
      rcases List.mem_append.1 hm with hm | hm
      · exact hl.1 hm
      · have := hc _ hm; exact absurd this (by decide)
    · simp; omega

theorem span_append {p : Char → Bool} : ∀ {a b : Str}, (∀ c ∈ a, p c = true) →
    (∀ c, b.head? = some c → p c = false) → (a ++ b).span p = (a, b) := by
  intro a b ha hb
  rw [List.span_eq_takeWhile_dropWhile]
  have e1 : (a ++ b).takeWhile p = a := by
    rw [List.takeWhile_append_of_pos ha]
    cases b with
    | nil => simp
    | cons c cs => simp [hb c rfl]
  have e2 : (a ++ b).dropWhile p = b := by
    rw [List.dropWhile_append_of_pos ha]
    cases b with
    | nil => simp
    | cons c cs => simp [hb c rfl]
  rw [e1, e2]

theorem dropWhile_space {ws s : Str} (hw : ∀ c ∈ ws, isSpace c = true)
    (hs : ∀ c, s.head? = some c → isSpace c = false) : (ws ++ s).dropWhile isSpace = s := by
  rw [List.dropWhile_append_of_pos hw]
  cases s with
  | nil => simp
  | cons c cs => simp [hs c rfl]

theorem readKeyword_found {ws w r : Str} (hw : ∀ c ∈ ws, isSpace c = true) (hne : w ≠ [])
    (hns : ∀ c ∈ w, isSpace c = false) : readKeyword w (ws ++ (w ++ ' ' :: r)) = .ok (' ' :: r) := by
  unfold readKeyword
  rw [dropWhile_space hw, span_append]
  · simp
  · intro c hc; simp [hns c hc]
  · intro c hc; simp at hc; subst hc; decide
  · intro c hc
    cases w with
    | nil => exact absurd rfl hne
    | cons x xs => simp at hc; subst hc; exact hns _ (by simp)

theorem readKeyword_ok {w s r : Str} (h : readKeyword w s = .ok r) : ∃ a, s = a ++ w ++ r := by
  unfold readKeyword at h
  rw [List.span_eq_takeWhile_dropWhile] at h
  simp only at h
  split at h
  · rename_i hw
    refine ⟨s.takeWhile isSpace, ?_⟩
    rw [← hw, ← Except.ok.inj h, List.append_assoc, List.takeWhile_append_dropWhile,
      List.takeWhile_append_dropWhile]
  · exact absurd h (by simp)

theorem readKeyword_error {w s : Str} (h : ¬ w <:+: s) : readKeyword w s = .error .exception := by
  cases hr : readKeyword w s with
  | ok r =>
    obtain ⟨a, ha⟩ := readKeyword_ok hr
    exact absurd ⟨a, r, ha.symm⟩ h
  | error e =>
    unfold readKeyword at hr
    rw [List.span_eq_takeWhile_dropWhile] at hr
    simp only at hr
    split at hr
    · exact absurd hr (by simp)
    · exact congrArg _ (Except.error.inj hr).symm

theorem showInt_head (v : ℤ) : ∀ c, (showInt v).head? = some c → isSpace c = false ∧ c ≠ '{' := by
  obtain ⟨_, hd, hne⟩ := showNat_spec v.natAbs
  intro c hc
  unfold showInt at hc
  split at hc
  · simp at hc; subst hc; decide
  · have : c ∈ showNat v.natAbs := List.mem_of_head? hc
    exact ⟨digit_not_space (hd _ this), digit_ne (hd _ this) (by decide)⟩

theorem showInt_ne_nil (v : ℤ) : showInt v ≠ [] := by
  unfold showInt
  split
  · simp
  · exact (showNat_spec _).2.2

theorem showInt_chars (v : ℤ) : ∀ c ∈ showInt v, c = '-' ∨ c.isDigit = true := by
  obtain ⟨_, hd, _⟩ := showNat_spec v.natAbs
  intro c hc
  unfold showInt at hc
  split at hc
  · rcases List.mem_cons.1 hc with h | h
    · exact .inl h
    · exact .inr (hd _ h)
  · exact .inr (hd _ hc)

/-- The value of a sign and digits. -/
def signedVal (neg : Bool) (ds : Str) : ℤ := if neg then -(natOfDigits ds : ℤ) else natOfDigits ds

theorem readInt_eq {s ds r : Str} {neg : Bool} {u : Str} (h1 : takeSign (s.dropWhile isSpace) = (neg, u))
    (h2 : u.span Char.isDigit = (ds, r)) :
    readInt s = if ds ≠ [] ∧ -2147483648 ≤ signedVal neg ds ∧ signedVal neg ds ≤ 2147483647
      then .ok (signedVal neg ds, r) else .error .exception := by
  unfold readInt
  rw [h1]
  simp only
  rw [h2]
  rfl

theorem readInt_found {ws r : Str} {v : ℤ} (hw : ∀ c ∈ ws, isSpace c = true) (hv : IsInt32 v)
    (hr : ∀ c, r.head? = some c → c.isDigit = false) :
    readInt (ws ++ (showInt v ++ r)) = .ok (v, r) := by
  obtain ⟨hn, hd, hne⟩ := showNat_spec v.natAbs
  have hs : (showNat v.natAbs ++ r).span Char.isDigit = (showNat v.natAbs, r) :=
    span_append hd hr
  have hdw : (ws ++ (showInt v ++ r)).dropWhile isSpace = showInt v ++ r := by
    apply dropWhile_space hw
    intro c hc
    apply (showInt_head v c _).1
    cases h : showInt v with
    | nil => exact absurd h (showInt_ne_nil v)
    | cons x xs => rw [h] at hc; simpa using hc
  unfold IsInt32 at hv
  by_cases hneg : v < 0
  · have ht : takeSign ((ws ++ (showInt v ++ r)).dropWhile isSpace) = (true, showNat v.natAbs ++ r) := by
      rw [hdw]; unfold showInt; rw [if_pos hneg]; rfl
    rw [readInt_eq ht hs]
    have e : signedVal true (showNat v.natAbs) = v := by
      unfold signedVal; rw [hn, if_pos rfl]; omega
    rw [e, if_pos ⟨hne, hv.1, hv.2⟩]
  · have ht : takeSign ((ws ++ (showInt v ++ r)).dropWhile isSpace) = (false, showNat v.natAbs ++ r) := by
      rw [hdw]; unfold showInt; rw [if_neg hneg]
      cases h : showNat v.natAbs with
      | nil => exact absurd h hne
      | cons x xs => exact takeSign_digits (hd x (by simp [h]))
    rw [readInt_eq ht hs]
    have e : signedVal false (showNat v.natAbs) = v := by
      unfold signedVal; rw [hn, if_neg (by decide)]; omega
    rw [e, if_pos ⟨hne, hv.1, hv.2⟩]

theorem takeSign_suffix (s : Str) : (takeSign s).2 <:+ s := by
  unfold takeSign
  split
  · exact List.suffix_cons _ _
  · exact List.suffix_cons _ _
  · exact List.suffix_refl _

theorem readInt_ok {s r : Str} {v : ℤ} (h : readInt s = .ok (v, r)) : r <:+ s ∧ IsInt32 v := by
  rcases ht : takeSign (s.dropWhile isSpace) with ⟨neg, u⟩
  have hu : u <:+ s.dropWhile isSpace := by
    have := takeSign_suffix (s.dropWhile isSpace)
    rw [ht] at this; exact this
  rw [readInt_eq ht (List.span_eq_takeWhile_dropWhile ..)] at h
  split at h
  · rename_i hc
    have h' := Except.ok.inj h
    rw [Prod.mk.injEq] at h'
    refine ⟨?_, ?_⟩
    · rw [← h'.2]
      exact ((List.dropWhile_suffix _).trans hu).trans (List.dropWhile_suffix _)
    · rw [← h'.1]; exact hc.2
  · exact absurd h (by simp)

theorem readInt_error_cases (s : Str) :
    readInt s = .error .exception ∨ ∃ v r, readInt s = .ok (v, r) := by
  rcases ht : takeSign (s.dropWhile isSpace) with ⟨neg, u⟩
  rw [readInt_eq ht (List.span_eq_takeWhile_dropWhile ..)]
  split
  · exact .inr ⟨_, _, rfl⟩
  · exact .inl rfl

/-- No number begins here. -/
theorem readInt_none {ws r : Str} (hw : ∀ c ∈ ws, isSpace c = true)
    (hr : ∀ c, r.head? = some c → isSpace c = false ∧ c.isDigit = false ∧ c ≠ '-' ∧ c ≠ '+') :
    readInt (ws ++ r) = .error .exception := by
  have hdw := dropWhile_space hw (fun c hc => (hr c hc).1)
  have ht : takeSign ((ws ++ r).dropWhile isSpace) = (false, r) := by
    rw [hdw]
    cases r with
    | nil => rfl
    | cons c cs =>
      obtain ⟨_, _, h3, h4⟩ := hr c rfl
      unfold takeSign
      split <;> simp_all
  have hs : r.span Char.isDigit = ([], r) :=
    span_append (a := []) (by simp) (fun c hc => (hr c hc).2.1)
  rw [readInt_eq ht hs, if_neg (by simp)]

theorem readChar_found {ws r : Str} {c : Char} (hw : ∀ c ∈ ws, isSpace c = true)
    (hc : isSpace c = false) : readChar (ws ++ c :: r) = .ok r := by
  unfold readChar
  rw [dropWhile_space hw (by intro d hd; simp at hd; subst hd; exact hc)]

theorem readChar_ok {s r : Str} (h : readChar s = .ok r) : r <:+ s := by
  unfold readChar at h
  split at h
  · exact absurd h (by simp)
  · rename_i c r' hd
    rw [← Except.ok.inj h]
    exact ((List.suffix_cons c r').trans (by rw [← hd])).trans (List.dropWhile_suffix _)

theorem readChar_error_cases (s : Str) :
    readChar s = .error .exception ∨ ∃ r, readChar s = .ok r := by
  unfold readChar
  split
  · exact .inl rfl
  · exact .inr ⟨_, rfl⟩

/-! ## Lines -/

theorem eol_no_digit {eol rest : Str} (he : IsEol eol) :
    ∀ c, (eol ++ rest).head? = some c → c.isDigit = false := by
  intro c hc
  rcases he with rfl | rfl <;> simp at hc <;> subst hc <;> decide

theorem readCount_line {ws w eol rest : Str} {v : ℤ} (hw : ∀ c ∈ ws, isSpace c = true) (hne : w ≠ [])
    (hns : ∀ c ∈ w, isSpace c = false) (hv : IsInt32 v) (he : IsEol eol) :
    readCount w (ws ++ countLine w v eol rest) = .ok (v, eol ++ rest) := by
  unfold readCount countLine
  have e : ws ++ (w ++ ((chars% " = ") ++ (showInt v ++ (eol ++ rest))))
      = ws ++ (w ++ ' ' :: ('=' :: ' ' :: (showInt v ++ (eol ++ rest)))) := by simp
  rw [e, readKeyword_found hw hne hns, ok_bind]
  simp only [List.drop_succ_cons, List.drop_zero]
  exact readInt_found (ws := [' ']) (by decide) hv (eol_no_digit he)

theorem readCount_line0 {w eol rest : Str} {v : ℤ} (hne : w ≠ []) (hns : ∀ c ∈ w, isSpace c = false)
    (hv : IsInt32 v) (he : IsEol eol) : readCount w (countLine w v eol rest) = .ok (v, eol ++ rest) :=
  readCount_line (ws := []) (by simp) hne hns hv he

theorem readQuad_found {junk rest : Str} {q : MtpQuad} (hj : '{' ∉ junk) (hl : junk.length < 1000)
    (hq : IsInt32 q.1 ∧ IsInt32 q.2.1 ∧ IsInt32 q.2.2.1 ∧ IsInt32 q.2.2.2) :
    readQuad (junk ++ (quadText q ++ rest)) = .ok (q, '}' :: rest) := by
  obtain ⟨a, b, c, d⟩ := q
  obtain ⟨ha, hb, hc, hd⟩ := hq
  have e : junk ++ (quadText (a, b, c, d) ++ rest) = junk ++ '{' :: (showInt a ++ ',' :: ([' '] ++
      (showInt b ++ ',' :: ([' '] ++ (showInt c ++ ',' :: ([' '] ++ (showInt d ++ '}' :: rest))))))) := by
    simp [quadText, commaSep]
  have hcomma : ∀ (r : Str) (x : Char), (',' :: r).head? = some x → x.isDigit = false := by
    intro r x hx; simp at hx; subst hx; decide
  unfold readQuad
  rw [e, ignoreTo_found hj hl]
  have h1 := readInt_found (ws := []) (v := a) (by simp) ha (hcomma ([' '] ++
      (showInt b ++ ',' :: ([' '] ++ (showInt c ++ ',' :: ([' '] ++ (showInt d ++ '}' :: rest)))))))
  have h2 := readInt_found (ws := [' ']) (v := b) (by decide) hb (hcomma ([' '] ++
      (showInt c ++ ',' :: ([' '] ++ (showInt d ++ '}' :: rest)))))
  have h3 := readInt_found (ws := [' ']) (v := c) (by decide) hc (hcomma ([' '] ++
      (showInt d ++ '}' :: rest)))
  have h4 := readInt_found (ws := [' ']) (v := d) (r := '}' :: rest) (by decide) hd
    (by intro x hx; simp at hx; subst hx; decide)
  have hch : ∀ (r : Str), readChar (',' :: r) = .ok r :=
    fun r => readChar_found (ws := []) (by simp) (by decide)
  rw [List.nil_append] at h1
  rw [h1, ok_bind]
  simp only
  rw [hch, ok_bind, h2, ok_bind]
  simp only
  rw [hch, ok_bind, h3, ok_bind]
  simp only
  rw [hch, ok_bind, h4, ok_bind]
  rfl

/-- Int32 rows. -/
def QuadInt32 (q : MtpQuad) : Prop :=
  IsInt32 q.1 ∧ IsInt32 q.2.1 ∧ IsInt32 q.2.2.1 ∧ IsInt32 q.2.2.2

theorem readQuads_found : ∀ (q : MtpQuad) (qs : List MtpQuad) (junk rest : Str), '{' ∉ junk →
    junk.length < 1000 → (∀ q' ∈ q :: qs, QuadInt32 q') →
    readQuads (q :: qs).length (junk ++ (commaSep ((q :: qs).map quadText) ++ rest))
      = .ok (q :: qs, '}' :: rest)
  | q, [], junk, rest, hj, hl, hq => by
    simp only [List.length_cons, List.length_nil, readQuads, List.map_cons, List.map_nil, commaSep]
    rw [readQuad_found hj hl (hq q (by simp)), ok_bind]
    rfl
  | q, q' :: qs, junk, rest, hj, hl, hq => by
    have e : junk ++ (commaSep ((q :: q' :: qs).map quadText) ++ rest)
        = junk ++ (quadText q ++ ((chars% ", ") ++ (commaSep ((q' :: qs).map quadText) ++ rest))) := by
      simp [commaSep]
    rw [e, List.length_cons]
    unfold readQuads
    rw [readQuad_found hj hl (hq q (by simp)), ok_bind]
    have e2 : '}' :: ((chars% ", ") ++ (commaSep ((q' :: qs).map quadText) ++ rest))
        = (chars% "}, ") ++ (commaSep ((q' :: qs).map quadText) ++ rest) := by simp
    simp only
    rw [e2, readQuads_found q' qs (chars% "}, ") rest (by decide) (by decide)
      (fun x hx => hq x (by simp [hx])), ok_bind]
    rfl

/-- What is left of a table line after its rows were read. -/
theorem readQuads_table (qs : List MtpQuad) (rest : Str) (hq : ∀ q ∈ qs, QuadInt32 q) :
    ∃ b, (b = [] ∨ b = ['}']) ∧
      readQuads qs.length (commaSep (qs.map quadText) ++ '}' :: rest) = .ok (qs, b ++ '}' :: rest) := by
  cases qs with
  | nil => exact ⟨[], .inl rfl, by simp [readQuads, commaSep]⟩
  | cons q qs =>
    refine ⟨['}'], .inr rfl, ?_⟩
    have := readQuads_found q qs [] ('}' :: rest) (by simp) (by simp) hq
    simpa using this

theorem ignoreTo_eol {b eol rest : Str} (he : IsEol eol) (hb : b = [] ∨ b = ['}']) :
    ignoreTo '\n' 1000 (b ++ '}' :: (eol ++ rest)) = rest := by
  obtain ⟨pre, rfl, hp, hc⟩ := isEol_cases he
  have e : b ++ '}' :: (pre ++ ['\n'] ++ rest) = (b ++ '}' :: pre) ++ '\n' :: rest := by simp
  rw [e, ignoreTo_found]
  · intro hm
    rcases List.mem_append.1 hm with h | h
    · rcases hb with rfl | rfl <;> simp at h
    · rcases List.mem_cons.1 h with h | h
      · exact absurd h (by decide)
      · exact absurd (hc _ h) (by decide)
  · rcases hb with rfl | rfl <;> simp <;> omega

theorem tableLine_eq (ws w : Str) (xs : List Str) (rest : Str) : ws ++ tableLine w xs rest
    = ws ++ (w ++ ' ' :: ('=' :: ' ' :: '{' :: (commaSep xs ++ '}' :: rest))) := by
  simp [tableLine]

theorem readTable_line {ws w eol rest : Str} {qs : List MtpQuad} (hw : ∀ c ∈ ws, isSpace c = true)
    (hne : w ≠ []) (hns : ∀ c ∈ w, isSpace c = false) (he : IsEol eol)
    (hq : ∀ q ∈ qs, QuadInt32 q) :
    readTable w qs.length (ws ++ tableLine w (qs.map quadText) (eol ++ rest)) = .ok (qs, rest) := by
  obtain ⟨b, hb, hr⟩ := readQuads_table qs (eol ++ rest) hq
  unfold readTable
  rw [tableLine_eq, readKeyword_found hw hne hns, ok_bind]
  simp only [List.drop_succ_cons, List.drop_zero, Int.toNat_natCast]
  rw [hr, ok_bind]
  simp only
  rw [ignoreTo_eol he hb]
  rfl

theorem readMapping_found : ∀ (v : ℤ) (vs : List ℤ) (ws tail : Str), (∀ c ∈ ws, isSpace c = true) →
    (∀ x ∈ v :: vs, IsInt32 x) →
    readMapping (v :: vs).length (ws ++ (commaSep ((v :: vs).map showInt) ++ '}' :: tail))
      = .ok (v :: vs, tail)
  | v, [], ws, tail, hw, hv => by
    simp only [List.length_cons, List.length_nil, readMapping, List.map_cons, List.map_nil, commaSep]
    rw [readInt_found hw (hv v (by simp)) (by intro c hc; simp at hc; subst hc; decide), ok_bind]
    simp only
    rw [show readChar ('}' :: tail) = .ok tail from readChar_found (ws := []) (by simp) (by decide)]
    rfl
  | v, v' :: vs, ws, tail, hw, hv => by
    have e : ws ++ (commaSep ((v :: v' :: vs).map showInt) ++ '}' :: tail)
        = ws ++ (showInt v ++ ',' :: ([' '] ++ (commaSep ((v' :: vs).map showInt) ++ '}' :: tail))) := by
      simp [commaSep]
    rw [e, List.length_cons]
    unfold readMapping
    rw [readInt_found hw (hv v (by simp)) (by intro c hc; simp at hc; subst hc; decide), ok_bind]
    simp only
    rw [show ∀ r, readChar (',' :: r) = .ok r from
      fun r => readChar_found (ws := []) (by simp) (by decide), ok_bind,
      readMapping_found v' vs [' '] tail (by decide) (fun x hx => hv x (by simp [hx])), ok_bind]
    rfl

theorem readMapping_table (vs : List ℤ) (tail : Str) (hv : ∀ x ∈ vs, IsInt32 x) :
    ∃ r, (r = tail ∨ r = '}' :: tail) ∧
      readMapping vs.length (commaSep (vs.map showInt) ++ '}' :: tail) = .ok (vs, r) := by
  cases vs with
  | nil => exact ⟨_, .inr rfl, by simp [readMapping, commaSep]⟩
  | cons v vs =>
    refine ⟨_, .inl rfl, ?_⟩
    have := readMapping_found v vs [] tail (by simp) hv
    simpa using this

theorem mtpLoad_text {header : List Str} {eol tail : Str} {t : MtpTables} (hh : IsHeader header)
    (he : IsEol eol) (hi : t.Int32) (ha : t.Agree) :
    mtpLoad (some (mtpText header eol t tail)) = .ok t := by
  obtain ⟨m, nb, basic, nt, times, ns, mapping⟩ := t
  obtain ⟨h1, h2, h3, h4, h5, h6⟩ := hi
  obtain ⟨a1, a2, a3⟩ := ha
  simp only at h1 h2 h3 h4 h5 h6 a1 a2 a3
  have hsp := isEol_space he
  unfold mtpLoad mtpText
  simp only
  rw [← hh.1, skipHeader_lines he header _ hh.2, readCount_line0 (by simp) (by decide) h1 he, ok_bind]
  simp only
  rw [readCount_line hsp (by simp) (by decide) h2 he, ok_bind]
  simp only
  rw [a1, readTable_line hsp (by simp) (by decide) he
    (fun q hq => h5 q (List.mem_append_left _ hq)), ok_bind]
  simp only
  rw [readCount_line0 (by simp) (by decide) h3 he, ok_bind]
  simp only
  rw [a2, readTable_line hsp (by simp) (by decide) he
    (fun q hq => h5 q (List.mem_append_right _ hq)), ok_bind]
  simp only
  rw [readCount_line0 (by simp) (by decide) h4 he, ok_bind]
  simp only
  rw [tableLine_eq, readKeyword_found hsp (by simp) (by decide), ok_bind]
  simp only [List.drop_succ_cons, List.drop_zero, a3, Int.toNat_natCast]
  obtain ⟨r, _, hr⟩ := readMapping_table mapping tail h6
  rw [hr, ok_bind]
  rfl

end MaterSDK
