import Verif.Lemmas.MtpParam

/-! # Refused MTP parameter files, and what a successful load implies -/

namespace MaterSDK

/-! ## Only one error, only suffixes -/

/-- The computation yields a value or throws. -/
def Throws {α : Type} (x : Except CErr α) : Prop := ∀ e, x = .error e → e = .exception

theorem throws_ok {α : Type} (a : α) : Throws (.ok a : Except CErr α) := by
  intro e h; exact absurd h (by simp)

theorem throws_bind {α β : Type} {x : Except CErr α} {f : α → Except CErr β} (hx : Throws x)
    (hf : ∀ a, x = .ok a → Throws (f a)) : Throws (x >>= f) := by
  cases x with
  | error e => intro e' h; exact hx e' (by rw [error_bind] at h; exact congrArg _ (Except.error.inj h))
  | ok a => intro e' h; rw [ok_bind] at h; exact hf a rfl e' h

theorem throws_readInt (s : Str) : Throws (readInt s) := by
  intro e h
  rcases readInt_error_cases s with h' | ⟨v, r, h'⟩
  · rw [h'] at h; exact (Except.error.inj h).symm
  · rw [h'] at h; exact absurd h (by simp)

theorem throws_readChar (s : Str) : Throws (readChar s) := by
  intro e h
  rcases readChar_error_cases s with h' | ⟨r, h'⟩
  · rw [h'] at h; exact (Except.error.inj h).symm
  · rw [h'] at h; exact absurd h (by simp)

theorem throws_readKeyword (w s : Str) : Throws (readKeyword w s) := by
  intro e h
  by_cases hi : w <:+: s
  · unfold readKeyword at h
    rw [List.span_eq_takeWhile_dropWhile] at h
    simp only at h
    split at h
    · exact absurd h (by simp)
    · exact (Except.error.inj h).symm
  · rw [readKeyword_error hi] at h; exact (Except.error.inj h).symm

theorem throws_readCount (w s : Str) : Throws (readCount w s) := by
  unfold readCount
  exact throws_bind (throws_readKeyword _ _) (fun _ _ => throws_readInt _)

theorem throws_readQuad (s : Str) : Throws (readQuad s) := by
  unfold readQuad
  refine throws_bind (throws_readInt _) (fun _ _ => ?_)
  refine throws_bind (throws_readChar _) (fun _ _ => ?_)
  refine throws_bind (throws_readInt _) (fun _ _ => ?_)
  refine throws_bind (throws_readChar _) (fun _ _ => ?_)
  refine throws_bind (throws_readInt _) (fun _ _ => ?_)
  refine throws_bind (throws_readChar _) (fun _ _ => ?_)
  exact throws_bind (throws_readInt _) (fun _ _ => throws_ok _)

theorem throws_readQuads : ∀ (n : ℕ) (s : Str), Throws (readQuads n s)
  | 0, s => throws_ok _
  | n + 1, s => by
    unfold readQuads
    refine throws_bind (throws_readQuad _) (fun _ _ => ?_)
    exact throws_bind (throws_readQuads n _) (fun _ _ => throws_ok _)

theorem throws_readTable (w : Str) (n : ℤ) (s : Str) : Throws (readTable w n s) := by
  unfold readTable
  refine throws_bind (throws_readKeyword _ _) (fun _ _ => ?_)
  exact throws_bind (throws_readQuads _ _) (fun _ _ => throws_ok _)

theorem throws_readMapping : ∀ (n : ℕ) (s : Str), Throws (readMapping n s)
  | 0, s => throws_ok _
  | n + 1, s => by
    unfold readMapping
    refine throws_bind (throws_readInt _) (fun _ _ => ?_)
    refine throws_bind (throws_readChar _) (fun _ _ => ?_)
    exact throws_bind (throws_readMapping n _) (fun _ _ => throws_ok _)

theorem throws_mtpLoad (f : Option Str) : Throws (mtpLoad f) := by
  cases f with
  | none => intro e h; exact (Except.error.inj h).symm
  | some s =>
    unfold mtpLoad
    simp only
    refine throws_bind (throws_readCount _ _) (fun _ _ => ?_)
    refine throws_bind (throws_readCount _ _) (fun _ _ => ?_)
    refine throws_bind (throws_readTable _ _ _) (fun _ _ => ?_)
    refine throws_bind (throws_readCount _ _) (fun _ _ => ?_)
    refine throws_bind (throws_readTable _ _ _) (fun _ _ => ?_)
    refine throws_bind (throws_readCount _ _) (fun _ _ => ?_)
    refine throws_bind (throws_readKeyword _ _) (fun _ _ => ?_)
    exact throws_bind (throws_readMapping _ _) (fun _ _ => throws_ok _)

theorem readQuad_ok {s r : Str} {q : MtpQuad} (h : readQuad s = .ok (q, r)) : r <:+ s ∧ QuadInt32 q := by
  unfold readQuad at h
  obtain ⟨⟨a, s1⟩, h1, h⟩ := (bind_eq_ok).1 h
  obtain ⟨s2, h2, h⟩ := (bind_eq_ok).1 h
  obtain ⟨⟨b, s3⟩, h3, h⟩ := (bind_eq_ok).1 h
  obtain ⟨s4, h4, h⟩ := (bind_eq_ok).1 h
  obtain ⟨⟨c, s5⟩, h5, h⟩ := (bind_eq_ok).1 h
  obtain ⟨s6, h6, h⟩ := (bind_eq_ok).1 h
  obtain ⟨⟨d, s7⟩, h7, h⟩ := (bind_eq_ok).1 h
  have h' := Except.ok.inj h
  rw [Prod.mk.injEq] at h'
  obtain ⟨rfl, rfl⟩ := h'
  refine ⟨?_, (readInt_ok h1).2, (readInt_ok h3).2, (readInt_ok h5).2, (readInt_ok h7).2⟩
  exact (readInt_ok h7).1.trans ((readChar_ok h6).trans ((readInt_ok h5).1.trans ((readChar_ok h4).trans
    ((readInt_ok h3).1.trans ((readChar_ok h2).trans ((readInt_ok h1).1.trans
      (ignoreTo_suffix _ _ _)))))))

theorem readQuads_ok : ∀ {n : ℕ} {s r : Str} {qs : List MtpQuad}, readQuads n s = .ok (qs, r) →
    r <:+ s ∧ qs.length = n ∧ ∀ q ∈ qs, QuadInt32 q
  | 0, s, r, qs, h => by
    have h' := Except.ok.inj h
    rw [Prod.mk.injEq] at h'
    obtain ⟨rfl, rfl⟩ := h'
    simp
  | n + 1, s, r, qs, h => by
    unfold readQuads at h
    obtain ⟨⟨q, s1⟩, h1, h⟩ := (bind_eq_ok).1 h
    obtain ⟨⟨qs', s2⟩, h2, h⟩ := (bind_eq_ok).1 h
    have h' := Except.ok.inj h
    rw [Prod.mk.injEq] at h'
    obtain ⟨rfl, rfl⟩ := h'
    obtain ⟨g1, g2⟩ := readQuad_ok h1
    obtain ⟨k1, k2, k3⟩ := readQuads_ok h2
    refine ⟨k1.trans g1, by simp [k2], ?_⟩
    intro x hx
    rcases List.mem_cons.1 hx with rfl | hx
    · exact g2
    · exact k3 x hx

theorem readMapping_ok : ∀ {n : ℕ} {s r : Str} {vs : List ℤ}, readMapping n s = .ok (vs, r) →
    r <:+ s ∧ vs.length = n ∧ ∀ v ∈ vs, IsInt32 v
  | 0, s, r, qs, h => by
    have h' := Except.ok.inj h
    rw [Prod.mk.injEq] at h'
    obtain ⟨rfl, rfl⟩ := h'
    simp
  | n + 1, s, r, qs, h => by
    unfold readMapping at h
    obtain ⟨⟨v, s1⟩, h1, h⟩ := (bind_eq_ok).1 h
    obtain ⟨s2, h2, h⟩ := (bind_eq_ok).1 h
    obtain ⟨⟨vs', s3⟩, h3, h⟩ := (bind_eq_ok).1 h
    have h' := Except.ok.inj h
    rw [Prod.mk.injEq] at h'
    obtain ⟨rfl, rfl⟩ := h'
    obtain ⟨k1, k2, k3⟩ := readMapping_ok h3
    refine ⟨k1.trans ((readChar_ok h2).trans (readInt_ok h1).1), by simp [k2], ?_⟩
    intro x hx
    rcases List.mem_cons.1 hx with rfl | hx
    · exact (readInt_ok h1).2
    · exact k3 x hx

theorem readCount_ok {w s r : Str} {v : ℤ} (h : readCount w s = .ok (v, r)) :
    IsInt32 v ∧ ∃ a b, s = a ++ w ++ b ∧ r <:+ b := by
  unfold readCount at h
  obtain ⟨s1, h1, h⟩ := (bind_eq_ok).1 h
  obtain ⟨a, ha⟩ := readKeyword_ok h1
  exact ⟨(readInt_ok h).2, a, s1, ha, (readInt_ok h).1.trans (List.drop_suffix _ _)⟩

theorem readTable_ok {w s r : Str} {n : ℤ} {qs : List MtpQuad} (h : readTable w n s = .ok (qs, r)) :
    qs.length = n.toNat ∧ (∀ q ∈ qs, QuadInt32 q) ∧ ∃ a b, s = a ++ w ++ b ∧ r <:+ b := by
  unfold readTable at h
  obtain ⟨s1, h1, h⟩ := (bind_eq_ok).1 h
  obtain ⟨⟨qs', s2⟩, h2, h⟩ := (bind_eq_ok).1 h
  have h' := Except.ok.inj h
  rw [Prod.mk.injEq] at h'
  obtain ⟨rfl, rfl⟩ := h'
  obtain ⟨a, ha⟩ := readKeyword_ok h1
  obtain ⟨k1, k2, k3⟩ := readQuads_ok h2
  exact ⟨k2, k3, a, s1, ha, (ignoreTo_suffix _ _ _).trans (k1.trans (List.drop_suffix _ _))⟩

theorem wordsInOrder_suffix : ∀ {ws : List Str} {r s : Str}, r <:+ s → WordsInOrder ws r →
    WordsInOrder ws s
  | [], _, _, _, _ => trivial
  | w :: ws, r, s, ⟨t, ht⟩, ⟨a, b, hab, hr⟩ => ⟨t ++ a, b, by rw [← ht, hab]; simp, hr⟩

theorem wordsInOrder_cons {w s a b r : Str} {ws : List Str} (h : s = a ++ w ++ b) (hr : r <:+ b)
    (hw : WordsInOrder ws r) : WordsInOrder (w :: ws) s :=
  ⟨a, b, h, wordsInOrder_suffix hr hw⟩

theorem mtpLoad_ok {s : Str} {t : MtpTables} (h : mtpLoad (some s) = .ok t) :
    t.Int32 ∧ t.basic.length = t.basicCount.toNat ∧ t.times.length = t.timesCount.toNat ∧
    t.mapping.length = t.scalarCount.toNat ∧
    WordsInOrder [chars% "alpha_moments_count", chars% "alpha_index_basic_count",
      chars% "alpha_index_basic", chars% "alpha_index_times_count", chars% "alpha_index_times",
      chars% "alpha_scalar_moments", chars% "alpha_moment_mapping"] s := by
  unfold mtpLoad at h
  simp only at h
  obtain ⟨⟨m, s1⟩, h1, h⟩ := (bind_eq_ok).1 h
  obtain ⟨⟨nb, s2⟩, h2, h⟩ := (bind_eq_ok).1 h
  obtain ⟨⟨basic, s3⟩, h3, h⟩ := (bind_eq_ok).1 h
  obtain ⟨⟨nt, s4⟩, h4, h⟩ := (bind_eq_ok).1 h
  obtain ⟨⟨times, s5⟩, h5, h⟩ := (bind_eq_ok).1 h
  obtain ⟨⟨ns, s6⟩, h6, h⟩ := (bind_eq_ok).1 h
  obtain ⟨s7, h7, h⟩ := (bind_eq_ok).1 h
  obtain ⟨⟨mapping, s8⟩, h8, h⟩ := (bind_eq_ok).1 h
  have h' := Except.ok.inj h
  subst h'
  obtain ⟨i1, a1, b1, e1, r1⟩ := readCount_ok h1
  obtain ⟨i2, a2, b2, e2, r2⟩ := readCount_ok h2
  obtain ⟨l3, i3, a3, b3, e3, r3⟩ := readTable_ok h3
  obtain ⟨i4, a4, b4, e4, r4⟩ := readCount_ok h4
  obtain ⟨l5, i5, a5, b5, e5, r5⟩ := readTable_ok h5
  obtain ⟨i6, a6, b6, e6, r6⟩ := readCount_ok h6
  obtain ⟨a7, e7⟩ := readKeyword_ok h7
  obtain ⟨_, l8, i8⟩ := readMapping_ok h8
  refine ⟨⟨i1, i2, i4, i6, ?_, i8⟩, l3, l5, l8, ?_⟩
  · intro q hq
    rcases List.mem_append.1 hq with hq | hq
    · exact i3 q hq
    · exact i5 q hq
  · refine wordsInOrder_suffix (skipHeader_suffix 10 s) ?_
    refine wordsInOrder_cons e1 r1 (wordsInOrder_cons e2 r2 (wordsInOrder_cons e3 r3
      (wordsInOrder_cons e4 r4 (wordsInOrder_cons e5 r5 (wordsInOrder_cons e6 r6 ?_)))))
    exact ⟨a7, s7, e7, trivial⟩

/-! ## Counts larger than the tables -/

theorem showNat_length : ∀ (k n : ℕ), n < 10 ^ (k + 1) → (showNat n).length ≤ k + 1
  | 0, n, h => by unfold showNat; rw [dif_pos (by simpa using h)]; simp
  | k + 1, n, h => by
    unfold showNat
    split
    · simp
    · have := showNat_length k (n / 10) (by
        rw [Nat.div_lt_iff_lt_mul (by omega), ← pow_succ]; exact h)
      simp; omega

theorem showInt_length {v : ℤ} (h : IsInt32 v) : (showInt v).length ≤ 11 := by
  have := showNat_length 9 v.natAbs (by unfold IsInt32 at h; norm_num; omega)
  unfold showInt
  split
  · simp; omega
  · omega

theorem showInt_not_mem {v : ℤ} {c : Char} (h1 : c ≠ '-') (h2 : c.isDigit = false) : c ∉ showInt v := by
  intro h
  rcases showInt_chars v c h with h | h
  · exact h1 h
  · rw [h] at h2; exact absurd h2 (by simp)

theorem readQuads_add : ∀ (n m : ℕ) {s s1 : Str} {qs : List MtpQuad}, readQuads n s = .ok (qs, s1) →
    readQuads (n + m) s = (do let (qs', s2) ← readQuads m s1; return (qs ++ qs', s2))
  | 0, m, s, s1, qs, h => by
    have h' := Except.ok.inj h
    rw [Prod.mk.injEq] at h'
    obtain ⟨rfl, rfl⟩ := h'
    rw [Nat.zero_add]
    cases readQuads m s with
    | error e => rfl
    | ok p => rfl
  | n + 1, m, s, s1, qs, h => by
    unfold readQuads at h
    obtain ⟨⟨q, t1⟩, h1, h⟩ := (bind_eq_ok).1 h
    obtain ⟨⟨qs', t2⟩, h2, h⟩ := (bind_eq_ok).1 h
    have h' := Except.ok.inj h
    rw [Prod.mk.injEq] at h'
    obtain ⟨rfl, rfl⟩ := h'
    have e : n + 1 + m = (n + m) + 1 := by omega
    rw [e]
    conv_lhs => unfold readQuads
    rw [h1, ok_bind]
    simp only
    rw [readQuads_add n m h2]
    cases readQuads m t2 with
    | error e => rfl
    | ok p => rfl

theorem readQuads_too_many {qs : List MtpQuad} {s s1 : Str} {n : ℕ}
    (h : readQuads qs.length s = .ok (qs, s1)) (hn : qs.length < n)
    (he : readQuad s1 = .error .exception) : readQuads n s = .error .exception := by
  obtain ⟨m, rfl⟩ : ∃ m, n = qs.length + (m + 1) := ⟨n - qs.length - 1, by omega⟩
  rw [readQuads_add _ _ h]
  unfold readQuads
  rw [he]
  rfl

/-- The next `{` after a table is that of the next table. -/
theorem ignoreTo_next {b eol w w' : Str} {v : ℤ} {xs : List Str} {rest : Str} (he : IsEol eol)
    (hb : b = [] ∨ b = ['}']) (hv : IsInt32 v) (hw : '{' ∉ w) (hw' : '{' ∉ w') (hl : w.length < 400)
    (hl' : w'.length < 400) :
    ignoreTo '{' 1000 (b ++ '}' :: (eol ++ countLine w v eol (tableLine w' xs rest)))
      = commaSep xs ++ '}' :: rest := by
  have e : b ++ '}' :: (eol ++ countLine w v eol (tableLine w' xs rest))
      = (b ++ '}' :: (eol ++ (w ++ ((chars% " = ") ++ (showInt v ++ (eol ++ (w' ++ (chars% " = ")))))))) ++
        '{' :: (commaSep xs ++ '}' :: rest) := by
    simp [countLine, tableLine]
  have hle := showInt_length hv
  have hbr : '{' ∉ showInt v := showInt_not_mem (by decide) (by decide)
  rw [e, ignoreTo_found]
  · rcases hb with rfl | rfl <;> rcases he with rfl | rfl <;> simp [hw, hw', hbr]
  · rcases hb with rfl | rfl <;> rcases he with rfl | rfl <;> simp <;> omega

theorem readTable_too_many {ws w eol w2 w3 rest : Str} {qs : List MtpQuad} {xs : List Str} {n v : ℤ}
    (hw : ∀ c ∈ ws, isSpace c = true) (hne : w ≠ []) (hns : ∀ c ∈ w, isSpace c = false) (he : IsEol eol)
    (hq : ∀ q ∈ qs, QuadInt32 q) (hn : (qs.length : ℤ) < n) (hv : IsInt32 v) (hw2 : '{' ∉ w2)
    (hw3 : '{' ∉ w3) (hl2 : w2.length < 400) (hl3 : w3.length < 400)
    (hx : readInt (commaSep xs ++ '}' :: rest) = .error .exception) :
    readTable w n (ws ++ tableLine w (qs.map quadText)
      (eol ++ countLine w2 v eol (tableLine w3 xs rest))) = .error .exception := by
  obtain ⟨b, hb, hr⟩ := readQuads_table qs (eol ++ countLine w2 v eol (tableLine w3 xs rest)) hq
  unfold readTable
  rw [tableLine_eq, readKeyword_found hw hne hns, ok_bind]
  simp only [List.drop_succ_cons, List.drop_zero]
  rw [readQuads_too_many hr (by omega) ?_]
  · rfl
  · unfold readQuad
    rw [ignoreTo_next he hb hv hw2 hw3 hl2 hl3, hx]
    rfl

theorem commaSep_head {x : Str} {xs : List Str} {r : Str} {c : Char} {y : Str} (h : x = c :: y) :
    ∃ z, commaSep (x :: xs) ++ r = c :: z := by
  subst h
  cases xs with
  | nil => exact ⟨y ++ r, by simp [commaSep]⟩
  | cons a as => exact ⟨y ++ ((chars% ", ") ++ (commaSep (a :: as) ++ r)), by simp [commaSep]⟩

theorem readInt_quads (qs : List MtpQuad) (rest : Str) :
    readInt (commaSep (qs.map quadText) ++ '}' :: rest) = .error .exception := by
  have key : ∃ c z, (c = '{' ∨ c = '}') ∧ commaSep (qs.map quadText) ++ '}' :: rest = c :: z := by
    cases qs with
    | nil => exact ⟨'}', rest, .inr rfl, rfl⟩
    | cons q qs =>
      obtain ⟨z, hz⟩ := commaSep_head (x := quadText q) (xs := qs.map quadText) (r := '}' :: rest) rfl
      exact ⟨'{', z, .inl rfl, hz⟩
  obtain ⟨c, z, hc, hz⟩ := key
  rw [hz]
  refine readInt_none (ws := []) (by simp) ?_
  intro d hd
  simp at hd
  subst hd
  rcases hc with rfl | rfl <;> decide

theorem commaSep_chars {p : Char → Prop} (h1 : p ',') (h2 : p ' ') : ∀ {xs : List Str},
    (∀ x ∈ xs, ∀ c ∈ x, p c) → ∀ c ∈ commaSep xs, p c
  | [], _, c, hc => by simp [commaSep] at hc
  | [x], h, c, hc => h x (by simp) c hc
  | x :: y :: r, h, c, hc => by
    simp only [commaSep] at hc
    rcases List.mem_append.1 hc with hc | hc
    · rcases List.mem_append.1 hc with hc | hc
      · exact h x (by simp) c hc
      · simp at hc; rcases hc with rfl | rfl
        · exact h1
        · exact h2
    · exact commaSep_chars h1 h2 (fun z hz => h z (by simp [hz])) c hc

/-- If the second table is too short, its rows are taken from the third and the next keyword is missed. -/
theorem times_too_many {ws eol tail : Str} {qs : List MtpQuad} {vs : List ℤ} {n v : ℤ}
    (hw : ∀ c ∈ ws, isSpace c = true) (he : IsEol eol) (hq : ∀ q ∈ qs, QuadInt32 q)
    (hn : (qs.length : ℤ) < n) (hv : IsInt32 v) (ht : ∀ c ∈ tail, isSpace c = true) :
    (do
      let (_, s) ← readTable (chars% "alpha_index_times") n (ws ++ tableLine (chars% "alpha_index_times")
        (qs.map quadText) (eol ++ countLine (chars% "alpha_scalar_moments") v eol
          (tableLine (chars% "alpha_moment_mapping") (vs.map showInt) tail)))
      readCount (chars% "alpha_scalar_moments") s) = .error .exception := by
  set text := countLine (chars% "alpha_scalar_moments") v eol
    (tableLine (chars% "alpha_moment_mapping") (vs.map showInt) tail) with htext
  obtain ⟨b, hb, hr⟩ := readQuads_table qs (eol ++ text) hq
  set rest : Str := commaSep (vs.map showInt) ++ '}' :: tail with hrest
  have hno : ∀ r, r <:+ rest → readCount (chars% "alpha_scalar_moments") r = .error .exception := by
    intro r hsuf
    unfold readCount
    rw [readKeyword_error]
    · rfl
    · rintro ⟨x, y, hxy⟩
      have hmem : 'a' ∈ rest := hsuf.subset (by rw [← hxy]; simp)
      rcases List.mem_append.1 hmem with h | h
      · have := commaSep_chars (p := fun c => c ≠ 'a') (by decide) (by decide)
          (xs := vs.map showInt) (by
            intro x hx c hc
            obtain ⟨u, _, rfl⟩ := List.mem_map.1 hx
            rintro rfl
            exact showInt_not_mem (by decide) (by decide) hc) 'a' h
        exact this rfl
      · rcases List.mem_cons.1 h with h | h
        · exact absurd h (by decide)
        · exact absurd (ht _ h) (by decide)
  obtain ⟨m, hm⟩ : ∃ m, n.toNat = qs.length + (m + 1) := ⟨n.toNat - qs.length - 1, by omega⟩
  have hread : readQuads n.toNat (commaSep (qs.map quadText) ++ '}' :: (eol ++ text))
      = .error .exception ∨ ∃ qs' r, readQuads n.toNat (commaSep (qs.map quadText) ++ '}' :: (eol ++ text))
      = .ok (qs', r) ∧ r <:+ rest := by
    rw [hm, readQuads_add _ _ hr]
    have hq1 : ∀ q r, readQuad (b ++ '}' :: (eol ++ text)) = .ok (q, r) → r <:+ rest := by
      intro q r h
      unfold readQuad at h
      rw [htext, ignoreTo_next he hb hv (by decide) (by decide) (by decide) (by decide)] at h
      obtain ⟨⟨a, s1⟩, h1, h⟩ := (bind_eq_ok).1 h
      obtain ⟨s2, h2, h⟩ := (bind_eq_ok).1 h
      obtain ⟨⟨b, s3⟩, h3, h⟩ := (bind_eq_ok).1 h
      obtain ⟨s4, h4, h⟩ := (bind_eq_ok).1 h
      obtain ⟨⟨c, s5⟩, h5, h⟩ := (bind_eq_ok).1 h
      obtain ⟨s6, h6, h⟩ := (bind_eq_ok).1 h
      obtain ⟨⟨d, s7⟩, h7, h⟩ := (bind_eq_ok).1 h
      have h' := Except.ok.inj h
      rw [Prod.mk.injEq] at h'
      obtain ⟨rfl, rfl⟩ := h'
      exact (readInt_ok h7).1.trans ((readChar_ok h6).trans ((readInt_ok h5).1.trans
        ((readChar_ok h4).trans ((readInt_ok h3).1.trans ((readChar_ok h2).trans (readInt_ok h1).1)))))
    cases hc : readQuads (m + 1) (b ++ '}' :: (eol ++ text)) with
    | error e =>
      rw [throws_readQuads _ _ e hc]
      exact .inl rfl
    | ok p =>
      obtain ⟨qs', r⟩ := p
      refine .inr ⟨_, r, rfl, ?_⟩
      unfold readQuads at hc
      obtain ⟨⟨q, t1⟩, h1, hc⟩ := (bind_eq_ok).1 hc
      obtain ⟨⟨qs'', t2⟩, h2, hc⟩ := (bind_eq_ok).1 hc
      have h' := Except.ok.inj hc
      rw [Prod.mk.injEq] at h'
      obtain ⟨_, rfl⟩ := h'
      exact (readQuads_ok h2).1.trans (hq1 _ _ h1)
  unfold readTable
  rw [tableLine_eq, readKeyword_found hw (by simp) (by decide), ok_bind]
  simp only [List.drop_succ_cons, List.drop_zero]
  rcases hread with h | ⟨qs', r, h, hsuf⟩
  · rw [h]; rfl
  · rw [h, ok_bind]
    exact hno _ ((ignoreTo_suffix _ _ _).trans hsuf)

theorem readMapping_add : ∀ (n m : ℕ) {s s1 : Str} {vs : List ℤ}, readMapping n s = .ok (vs, s1) →
    readMapping m s1 = .error .exception → readMapping (n + m) s = .error .exception
  | 0, m, s, s1, vs, h, he => by
    have h' := Except.ok.inj h
    rw [Prod.mk.injEq] at h'
    obtain ⟨rfl, rfl⟩ := h'
    rw [Nat.zero_add]; exact he
  | n + 1, m, s, s1, vs, h, he => by
    unfold readMapping at h
    obtain ⟨⟨v, t1⟩, h1, h⟩ := (bind_eq_ok).1 h
    obtain ⟨t2, h2, h⟩ := (bind_eq_ok).1 h
    obtain ⟨⟨vs', t3⟩, h3, h⟩ := (bind_eq_ok).1 h
    have h' := Except.ok.inj h
    rw [Prod.mk.injEq] at h'
    obtain ⟨rfl, rfl⟩ := h'
    have e : n + 1 + m = (n + m) + 1 := by omega
    rw [e]
    unfold readMapping
    rw [h1, ok_bind]
    simp only
    rw [h2, ok_bind, readMapping_add n m h3 he]
    rfl

theorem mapping_too_many {tail : Str} {vs : List ℤ} {n : ℤ} (hv : ∀ x ∈ vs, IsInt32 x)
    (hn : (vs.length : ℤ) < n) (ht : ∀ c ∈ tail, isSpace c = true) :
    readMapping n.toNat (commaSep (vs.map showInt) ++ '}' :: tail) = .error .exception := by
  obtain ⟨m, hm⟩ : ∃ m, n.toNat = vs.length + (m + 1) := ⟨n.toNat - vs.length - 1, by omega⟩
  obtain ⟨r, hr, h⟩ := readMapping_table vs tail hv
  rw [hm]
  refine readMapping_add _ _ h ?_
  have : readInt r = .error .exception := by
    rcases hr with rfl | rfl
    · have := readInt_none (ws := r) (r := []) ht (by simp)
      simpa using this
    · refine readInt_none (ws := []) (by simp) ?_
      intro c hc; simp at hc; subst hc; decide
  unfold readMapping
  rw [this]
  rfl

theorem mtpLoad_too_many {header : List Str} {eol tail : Str} {t : MtpTables} (hh : IsHeader header)
    (he : IsEol eol) (hi : t.Int32) (ht : ∀ c ∈ tail, isSpace c = true)
    (hb : (t.basic.length : ℤ) ≤ t.basicCount) (hti : (t.times.length : ℤ) ≤ t.timesCount)
    (hm : (t.mapping.length : ℤ) ≤ t.scalarCount) (hne : ¬ t.Agree) :
    mtpLoad (some (mtpText header eol t tail)) = .error .exception := by
  obtain ⟨m, nb, basic, nt, times, ns, mapping⟩ := t
  obtain ⟨h1, h2, h3, h4, h5, h6⟩ := hi
  simp only [MtpTables.Agree] at h1 h2 h3 h4 h5 h6 hb hti hm hne
  have hsp := isEol_space he
  unfold mtpLoad mtpText
  simp only
  rw [← hh.1, skipHeader_lines he header _ hh.2, readCount_line0 (by simp) (by decide) h1 he, ok_bind]
  simp only
  rw [readCount_line hsp (by simp) (by decide) h2 he, ok_bind]
  simp only
  by_cases c1 : nb = basic.length
  · rw [c1, readTable_line hsp (by simp) (by decide) he
      (fun q hq => h5 q (List.mem_append_left _ hq)), ok_bind]
    simp only
    rw [readCount_line0 (by simp) (by decide) h3 he, ok_bind]
    simp only
    by_cases c2 : nt = times.length
    · rw [c2, readTable_line hsp (by simp) (by decide) he
        (fun q hq => h5 q (List.mem_append_right _ hq)), ok_bind]
      simp only
      rw [readCount_line0 (by simp) (by decide) h4 he, ok_bind]
      simp only
      rw [tableLine_eq, readKeyword_found hsp (by simp) (by decide), ok_bind]
      simp only [List.drop_succ_cons, List.drop_zero]
      have c3 : (mapping.length : ℤ) < ns := by
        rcases lt_or_eq_of_le hm with h | h
        · exact h
        · exact absurd ⟨c1, c2, h.symm⟩ hne
      rw [mapping_too_many h6 c3 ht]
      rfl
    · have hx := times_too_many (vs := mapping) hsp he
        (fun q hq => h5 q (List.mem_append_right _ hq)) (show (times.length : ℤ) < nt by omega) h4 ht
      revert hx
      generalize readTable (chars% "alpha_index_times") nt _ = x
      intro hx
      cases x with
      | error e => rw [error_bind] at hx; rw [error_bind]; exact congrArg _ (Except.error.inj hx)
      | ok p =>
        obtain ⟨a, s⟩ := p
        rw [ok_bind] at hx
        simp only at hx
        rw [ok_bind]
        simp only
        rw [hx]
        rfl
  · rw [readTable_too_many hsp (by simp) (by decide) he (fun q hq => h5 q (List.mem_append_left _ hq))
      (show (basic.length : ℤ) < nb by omega) h3 (by decide) (by decide) (by decide) (by decide)
      (readInt_quads times _)]
    rfl

end MaterSDK
