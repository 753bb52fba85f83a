import Verif.Props.MtpParam

/-!
# C115 for every count

What reading a parameter file does when its counts are smaller or larger than its tables: `mtpParam.cc` 61-126.
After the rows that the count asks for, the code skips at most 1000 characters to reach the next line.
-/

namespace MaterSDK

/-- The number of characters left on the line of a table after its first `k` rows, line end not counted. The
closing brace of the last row read is still there. -/
def leftOnLine (qs : List MtpQuad) (k : ℕ) : ℕ :=
  (commaSep (qs.map quadText)).length + 1 - ((commaSep ((qs.take k).map quadText)).length - 1)

theorem commaSep_append : ∀ (a b : List Str), a ≠ [] → b ≠ [] →
    commaSep (a ++ b) = commaSep a ++ ((chars% ", ") ++ commaSep b)
  | [], _, h, _ => absurd rfl h
  | [x], [], _, h => absurd rfl h
  | [x], y :: b, _, _ => by simp [commaSep]
  | x :: y :: a, b, _, hb => by
    have := commaSep_append (y :: a) b (by simp) hb
    simp only [List.cons_append] at this
    simp only [List.cons_append, commaSep, this, List.append_assoc]

theorem quadText_chars (q : MtpQuad) : ∀ c ∈ quadText q, c ≠ '\n' ∧ c ≠ 'a' := by
  have h : ∀ (v : ℤ), ∀ c ∈ showInt v, c ≠ '\n' ∧ c ≠ 'a' := by
    intro v c hc
    constructor
    · rintro rfl; exact showInt_not_mem (by decide) (by decide) hc
    · rintro rfl; exact showInt_not_mem (by decide) (by decide) hc
  intro c hc
  unfold quadText at hc
  rcases List.mem_append.1 hc with hc | hc
  · rcases List.mem_cons.1 hc with rfl | hc
    · decide
    · refine commaSep_chars (p := fun c => c ≠ '\n' ∧ c ≠ 'a') (by decide) (by decide) ?_ c hc
      intro x hx
      simp only [List.mem_cons, List.not_mem_nil, or_false] at hx
      rcases hx with rfl | rfl | rfl | rfl <;> exact h _
  · rw [List.mem_singleton.1 hc]
    decide

theorem commaSep_quads_chars (qs : List MtpQuad) : ∀ c ∈ commaSep (qs.map quadText), c ≠ '\n' ∧ c ≠ 'a' := by
  refine commaSep_chars (p := fun c => c ≠ '\n' ∧ c ≠ 'a') (by decide) (by decide) ?_
  intro x hx
  obtain ⟨q, _, rfl⟩ := List.mem_map.1 hx
  exact quadText_chars q

/-- Reading no more rows than there are. -/
theorem readQuads_take (qs : List MtpQuad) (k : ℕ) (hk : k ≤ qs.length) (rest : Str)
    (hq : ∀ q ∈ qs, QuadInt32 q) :
    ∃ L : Str, readQuads k (commaSep (qs.map quadText) ++ '}' :: rest) = .ok (qs.take k, L ++ '}' :: rest) ∧
      L.length + 1 = leftOnLine qs k ∧ ∀ c ∈ L, c ≠ '\n' ∧ c ≠ 'a' := by
  cases k with
  | zero =>
    refine ⟨commaSep (qs.map quadText), by simp [readQuads], ?_, commaSep_quads_chars qs⟩
    simp [leftOnLine, commaSep]
  | succ k =>
    cases qs with
    | nil => simp at hk
    | cons q qs =>
      have hlen : (q :: qs.take k).length = k + 1 := by
        simp only [List.length_cons, List.length_take] at hk ⊢
        omega
      have htake : (q :: qs).take (k + 1) = q :: qs.take k := rfl
      have hmem : ∀ x ∈ q :: qs.take k, QuadInt32 x := by
        intro x hx
        exact hq x (List.mem_of_mem_take (htake ▸ hx))
      have hpos : 1 ≤ (commaSep ((q :: qs.take k).map quadText)).length := by
        obtain ⟨z, hz⟩ := commaSep_head (x := quadText q) (xs := (qs.take k).map quadText) (r := []) rfl
        rw [List.append_nil] at hz
        rw [List.map_cons, hz]
        simp
      by_cases hd : qs.drop k = []
      · have e : qs.take k = qs := by
          conv_rhs => rw [← List.take_append_drop k qs, hd, List.append_nil]
        have := readQuads_found q (qs.take k) [] ('}' :: rest) (by simp) (by simp) hmem
        rw [hlen, List.nil_append, e] at this
        refine ⟨['}'], ?_, ?_, by decide⟩
        · rw [htake, e]; exact this
        · rw [e] at hpos
          unfold leftOnLine
          rw [htake, e]
          simp only [List.length_singleton]
          omega
      · have e : commaSep ((q :: qs).map quadText) = commaSep ((q :: qs.take k).map quadText) ++
            ((chars% ", ") ++ commaSep ((qs.drop k).map quadText)) := by
          rw [← commaSep_append _ _ (by simp) (by simpa using hd), ← List.map_append, List.cons_append,
            List.take_append_drop]
        have := readQuads_found q (qs.take k) []
          (((chars% ", ") ++ commaSep ((qs.drop k).map quadText)) ++ '}' :: rest) (by simp) (by simp) hmem
        rw [hlen, List.nil_append, ← List.append_assoc, ← e] at this
        refine ⟨'}' :: ((chars% ", ") ++ commaSep ((qs.drop k).map quadText)), ?_, ?_, ?_⟩
        · rw [htake, List.cons_append]; exact this
        · unfold leftOnLine
          rw [htake, e, List.length_append, List.length_cons]
          omega
        · intro c hc
          rcases List.mem_cons.1 hc with rfl | hc
          · decide
          · rcases List.mem_append.1 hc with hc | hc
            · exact (by decide : ∀ c ∈ (chars% ", "), c ≠ '\n' ∧ c ≠ 'a') c hc
            · exact commaSep_quads_chars _ c hc

theorem ignoreTo_far {d : Char} : ∀ {n : ℕ} {pre : Str}, d ∉ pre → n ≤ pre.length → ∀ post,
    ignoreTo d n (pre ++ post) = pre.drop n ++ post
  | 0, pre, _, _, post => by simp [ignoreTo]
  | n + 1, [], _, h, _ => by simp at h
  | n + 1, c :: pre, hd, hl, post => by
    have hc : c ≠ d := by intro h; exact hd (by simp [h])
    simp only [List.cons_append, ignoreTo, hc, if_false, List.drop_succ_cons]
    exact ignoreTo_far (fun h => hd (by simp [h])) (by simpa using hl) post

/-- Skipping at most 1000 characters reaches the next line, up to blanks, if that many are left at most. -/
theorem ignoreTo_near {L eol rest : Str} (he : IsEol eol) (hL : '\n' ∉ L) (hlen : L.length ≤ 1000) :
    ∃ ws : Str, (∀ c ∈ ws, isSpace c = true) ∧ ignoreTo '\n' 1000 (L ++ (eol ++ rest)) = ws ++ rest := by
  obtain ⟨pre, rfl, hp, hc⟩ := isEol_cases he
  have hpre : '\n' ∉ L ++ pre := by
    intro hm
    rcases List.mem_append.1 hm with h | h
    · exact hL h
    · exact absurd (hc _ h) (by decide)
  by_cases h : (L ++ pre).length < 1000
  · refine ⟨[], by simp, ?_⟩
    have e : L ++ (pre ++ ['\n'] ++ rest) = (L ++ pre) ++ '\n' :: rest := by simp
    rw [e, ignoreTo_found hpre h, List.nil_append]
  · refine ⟨(L ++ pre).drop 1000 ++ ['\n'], ?_, ?_⟩
    · intro c hm
      rcases List.mem_append.1 hm with hm | hm
      · rw [List.drop_append, List.drop_eq_nil_of_le hlen, List.nil_append] at hm
        rw [hc c (List.mem_of_mem_drop hm)]
        decide
      · rw [List.mem_singleton.1 hm]
        decide
    · have e : L ++ (pre ++ ['\n'] ++ rest) = (L ++ pre) ++ (['\n'] ++ rest) := by simp
      rw [e, ignoreTo_far hpre (by omega), List.append_assoc]

theorem dropWhile_head {p : Char → Bool} : ∀ {l : Str} {r : Str}, (∃ c ∈ l, p c = false) →
    ∃ c ∈ l, ∃ z, (l ++ r).dropWhile p = c :: z
  | [], _, ⟨_, h, _⟩ => absurd h (by simp)
  | a :: l, r, ⟨c, hc, hp⟩ => by
    by_cases ha : p a = true
    · have hc' : c ∈ l := by
        rcases List.mem_cons.1 hc with rfl | h
        · rw [ha] at hp; exact absurd hp (by simp)
        · exact h
      obtain ⟨d, hd, z, hz⟩ := dropWhile_head (r := r) ⟨c, hc', hp⟩
      exact ⟨d, by simp [hd], z, by rw [List.cons_append, List.dropWhile_cons_of_pos ha]; exact hz⟩
    · exact ⟨a, by simp, l ++ r, by rw [List.cons_append, List.dropWhile_cons_of_neg ha]⟩

/-- A keyword that begins with `a` is not found at other text. -/
theorem readKeyword_other {w l r : Str} (hw : w.head? = some 'a') (hl : ∀ c ∈ l, c ≠ 'a')
    (hsp : ∃ c ∈ l, isSpace c = false) : readKeyword w (l ++ r) = .error .exception := by
  obtain ⟨c, hc, z, hz⟩ := dropWhile_head (r := r) hsp
  unfold readKeyword
  rw [hz, List.span_eq_takeWhile_dropWhile]
  simp only
  rw [if_neg]
  intro h
  rw [← h, List.takeWhile_cons] at hw
  split at hw
  · simp only [List.head?_cons, Option.some.injEq] at hw
    exact hl c hc hw
  · simp at hw

/-- A table with at least as many rows as asked for, and what the next keyword finds. -/
theorem readTable_take {ws w w2 eol rest : Str} {qs : List MtpQuad} {n v : ℤ}
    (hw : ∀ c ∈ ws, isSpace c = true) (hne : w ≠ []) (hns : ∀ c ∈ w, isSpace c = false) (he : IsEol eol)
    (hq : ∀ q ∈ qs, QuadInt32 q) (hn : n ≤ qs.length)
    (hw2 : w2.head? = some 'a') (hns2 : ∀ c ∈ w2, isSpace c = false) (hv : IsInt32 v) :
    ∃ s, readTable w n (ws ++ tableLine w (qs.map quadText) (eol ++ countLine w2 v eol rest)) = .ok (qs.take n.toNat, s) ∧
      readCount w2 s = if leftOnLine qs n.toNat ≤ 1000 then .ok (v, eol ++ rest) else .error .exception := by
  obtain ⟨L, hr, hlen, hL⟩ := readQuads_take qs n.toNat (by omega) (eol ++ countLine w2 v eol rest) hq
  refine ⟨ignoreTo '\n' 1000 (L ++ '}' :: (eol ++ countLine w2 v eol rest)), ?_, ?_⟩
  · unfold readTable
    rw [tableLine_eq, readKeyword_found hw hne hns, ok_bind]
    simp only [List.drop_succ_cons, List.drop_zero]
    rw [hr, ok_bind]
    rfl
  · have e : L ++ '}' :: (eol ++ countLine w2 v eol rest) = (L ++ ['}']) ++ (eol ++ countLine w2 v eol rest) := by simp
    have hL' : ∀ c ∈ L ++ ['}'], c ≠ '\n' ∧ c ≠ 'a' := by
      intro c hc
      rcases List.mem_append.1 hc with hc | hc
      · exact hL c hc
      · rw [List.mem_singleton.1 hc]
        decide
    have hlen' : (L ++ ['}']).length = leftOnLine qs n.toNat := by simpa using hlen
    rw [e]
    split
    · rename_i hle
      obtain ⟨us, hus, hi⟩ := ignoreTo_near (rest := countLine w2 v eol rest) he
        (fun h => (hL' _ h).1 rfl) (hlen'.trans_le hle)
      rw [hi]
      refine readCount_line hus ?_ hns2 hv he
      rintro rfl
      simp at hw2
    · rename_i hgt
      rw [ignoreTo_far (fun h => (hL' _ h).1 rfl) (by omega)]
      unfold readCount
      rw [readKeyword_other hw2 (fun c hc => (hL' c (List.mem_of_mem_drop hc)).2) ?_]
      · rfl
      · refine ⟨'}', ?_, by decide⟩
        rw [List.drop_append_of_le_length (by simp at hlen'; omega)]
        simp

theorem readMapping_take : ∀ (vs : List ℤ) (k : ℕ) (ws tail : Str), k ≤ vs.length → (∀ c ∈ ws, isSpace c = true) →
    (∀ x ∈ vs, IsInt32 x) →
    ∃ r, readMapping k (ws ++ (commaSep (vs.map showInt) ++ '}' :: tail)) = .ok (vs.take k, r)
  | vs, 0, ws, tail, _, _, _ => ⟨_, rfl⟩
  | [], k + 1, _, _, h, _, _ => by simp at h
  | [v], k + 1, ws, tail, h, hw, hv => by
    obtain rfl : k = 0 := by simpa using h
    exact ⟨tail, by simpa using readMapping_found v [] ws tail hw hv⟩
  | v :: v' :: vs, k + 1, ws, tail, h, hw, hv => by
    have e : ws ++ (commaSep ((v :: v' :: vs).map showInt) ++ '}' :: tail)
        = ws ++ (showInt v ++ ',' :: ([' '] ++ (commaSep ((v' :: vs).map showInt) ++ '}' :: tail))) := by
      simp [commaSep]
    obtain ⟨r, hr⟩ := readMapping_take (v' :: vs) k [' '] tail (by simpa using h) (by decide)
      (fun x hx => hv x (by simp [hx]))
    refine ⟨r, ?_⟩
    rw [e]
    unfold readMapping
    rw [readInt_found hw (hv v (by simp)) (by intro c hc; simp at hc; subst hc; decide), ok_bind]
    simp only
    rw [show ∀ r, readChar (',' :: r) = .ok r from
      fun r => readChar_found (ws := []) (by simp) (by decide), ok_bind, hr, ok_bind]
    rfl

/-- The counts for which a file is accepted: none is larger than its table, and of the lines of the first two
tables at most 1000 characters are left over. -/
def MtpTables.Accepted (t : MtpTables) : Prop :=
  t.basicCount ≤ t.basic.length ∧ t.timesCount ≤ t.times.length ∧ t.scalarCount ≤ t.mapping.length ∧
  leftOnLine t.basic t.basicCount.toNat ≤ 1000 ∧ leftOnLine t.times t.timesCount.toNat ≤ 1000

/-- C115 for all counts: a file is refused exactly if a count is larger than its table or more than 1000
characters are left over on a table line; otherwise it is read with the rows beyond the counts cut off. -/
theorem C115_exact {header : List Str} {eol tail : Str} {t : MtpTables}
    (hh : IsHeader header) (he : IsEol eol) (hi : t.Int32) (ht : ∀ c ∈ tail, isSpace c = true) :
    (t.Accepted → mtpLoad (some (mtpText header eol t tail))
      = .ok { t with
          basic := t.basic.take t.basicCount.toNat
          times := t.times.take t.timesCount.toNat
          mapping := t.mapping.take t.scalarCount.toNat }) ∧
    (¬ t.Accepted → mtpLoad (some (mtpText header eol t tail)) = .error .exception) := by
  obtain ⟨m, nb, basic, nt, times, ns, mapping⟩ := t
  obtain ⟨h1, h2, h3, h4, h5, h6⟩ := hi
  simp only [MtpTables.Accepted] at h1 h2 h3 h4 h5 h6 ⊢
  have hsp := isEol_space he
  have hb := fun q (hq : q ∈ basic) => h5 q (List.mem_append_left _ hq)
  have hti := fun q (hq : q ∈ times) => h5 q (List.mem_append_right _ hq)
  unfold mtpLoad mtpText
  simp only
  rw [← hh.1, skipHeader_lines he header _ hh.2, readCount_line0 (by simp) (by decide) h1 he, ok_bind]
  simp only
  rw [readCount_line hsp (by simp) (by decide) h2 he, ok_bind]
  simp only
  by_cases c1 : nb ≤ basic.length
  swap
  · rw [readTable_too_many hsp (by simp) (by decide) he hb
      (show (basic.length : ℤ) < nb by omega) h3 (by decide) (by decide) (by decide) (by decide)
      (readInt_quads times _)]
    exact ⟨fun h => absurd h.1 c1, fun _ => rfl⟩
  obtain ⟨s1, e1, r1⟩ := readTable_take (w := chars% "alpha_index_basic") (w2 := chars% "alpha_index_times_count")
    (rest := tableLine (chars% "alpha_index_times") (times.map quadText) (eol ++
      countLine (chars% "alpha_scalar_moments") ns eol (
      tableLine (chars% "alpha_moment_mapping") (mapping.map showInt) tail)))
    hsp (by simp) (by decide) he hb c1 rfl (by decide) h3
  rw [e1, ok_bind]
  simp only
  rw [r1]
  by_cases l1 : leftOnLine basic nb.toNat ≤ 1000
  swap
  · rw [if_neg l1]
    exact ⟨fun h => absurd h.2.2.2.1 l1, fun _ => rfl⟩
  rw [if_pos l1, ok_bind]
  simp only
  by_cases c2 : nt ≤ times.length
  swap
  · refine ⟨fun h => absurd h.2.1 c2, fun _ => ?_⟩
    have hx := times_too_many (vs := mapping) hsp he hti (show (times.length : ℤ) < nt by omega) h4 ht
    revert hx
    generalize readTable (chars% "alpha_index_times") nt _ = x
    intro hx
    cases x with
    | error e => rw [error_bind] at hx; rw [error_bind]; exact congrArg _ (Except.error.inj hx)
    | ok p =>
      obtain ⟨a, s⟩ := p
      rw [ok_bind] at hx
      simp only at hx
      rw [ok_bind]
      simp only
      rw [hx]
      rfl
  obtain ⟨s2, e2, r2⟩ := readTable_take (w := chars% "alpha_index_times") (w2 := chars% "alpha_scalar_moments")
    (rest := tableLine (chars% "alpha_moment_mapping") (mapping.map showInt) tail)
    hsp (by simp) (by decide) he hti c2 rfl (by decide) h4
  rw [e2, ok_bind]
  simp only
  rw [r2]
  by_cases l2 : leftOnLine times nt.toNat ≤ 1000
  swap
  · rw [if_neg l2]
    exact ⟨fun h => absurd h.2.2.2.2 l2, fun _ => rfl⟩
  rw [if_pos l2, ok_bind]
  simp only
  rw [tableLine_eq, readKeyword_found hsp (by simp) (by decide), ok_bind]
  simp only [List.drop_succ_cons, List.drop_zero]
  by_cases c3 : ns ≤ mapping.length
  swap
  · rw [mapping_too_many h6 (show (mapping.length : ℤ) < ns by omega) ht]
    exact ⟨fun h => absurd h.2.2.1 c3, fun _ => rfl⟩
  obtain ⟨r, hr⟩ := readMapping_take mapping ns.toNat [] tail (by omega) (by simp) h6
  rw [List.nil_append] at hr
  rw [hr, ok_bind]
  exact ⟨fun _ => rfl, fun h => absurd ⟨c1, c2, c3, l1, l2⟩ h⟩

/-- C115: which files are refused. -/
theorem C115_refused_iff {header : List Str} {eol tail : Str} {t : MtpTables}
    (hh : IsHeader header) (he : IsEol eol) (hi : t.Int32) (ht : ∀ c ∈ tail, isSpace c = true) :
    mtpLoad (some (mtpText header eol t tail)) = .error .exception ↔ ¬ t.Accepted := by
  obtain ⟨h1, h2⟩ := C115_exact hh he hi ht
  refine ⟨fun h ha => ?_, h2⟩
  rw [h1 ha] at h
  cases h

example : ({ sampleTables with basicCount := 1, timesCount := -7 } : MtpTables).Accepted ∧
    ¬ ({ sampleTables with basicCount := 3 } : MtpTables).Accepted := by
  unfold MtpTables.Accepted
  decide +kernel

example : ¬ (⟨3, 1, List.replicate 90 (1000, 1000, 1000, 1000), 0, [], 0, []⟩ : MtpTables).Accepted ∧
    (⟨3, 90, List.replicate 90 (1000, 1000, 1000, 1000), 0, [], 0, []⟩ : MtpTables).Accepted := by
  unfold MtpTables.Accepted
  decide +kernel

end MaterSDK
