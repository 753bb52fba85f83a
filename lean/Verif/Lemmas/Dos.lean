import Verif.Spec.Dos
import Verif.Lemmas.Except
import Verif.Lemmas.Split
import Verif.Lemmas.Str
import Mathlib.Algebra.BigOperators.Group.List.Basic
import Mathlib.Data.List.Nodup
import Mathlib.Tactic.Ring
import Mathlib.Tactic.Linarith

/-! # Lemmas on densities of states and fat bands -/

namespace MaterSDK

/-! ## Column names -/

theorem colElement_eq (c : Str) : colElement c = symbolOf c := by
  have key : ∀ c : Str, ∃ ws, splitCh '-' c = symbolOf c :: ws := by
    intro c
    induction c with
    | nil => exact ⟨[], rfl⟩
    | cons d ds ih =>
      obtain ⟨ws, h⟩ := ih
      by_cases hd : d = '-'
      · subst hd
        exact ⟨splitCh '-' ds, by simp [splitCh, symbolOf]⟩
      · refine ⟨ws, ?_⟩
        rw [splitCh, if_neg hd, h]
        simp [symbolOf, hd]
  obtain ⟨ws, h⟩ := key c
  rw [colElement, h]
  rfl

theorem symbolOf_prefix (c : Str) : symbolOf c <+: c := List.takeWhile_prefix _

theorem symbolOf_no_dash (c : Str) : ∀ x ∈ symbolOf c, x ≠ '-' := by
  intro x hx
  have h := List.all_takeWhile (p := fun c : Char => decide (c ≠ '-')) (l := c)
  rw [List.all_eq_true] at h
  simpa using h x hx

theorem prefix_symbol {el c : Str} (hel : ∀ x ∈ el, x ≠ '-') (h : el <+: c) : el <+: symbolOf c := by
  obtain ⟨t, rfl⟩ := h
  unfold symbolOf
  induction el with
  | nil => exact List.nil_prefix
  | cons a el ih =>
    have ha : a ≠ '-' := hel a List.mem_cons_self
    rw [List.cons_append, List.takeWhile_cons, if_pos (by simpa using ha)]
    exact List.cons_prefix_cons.2 ⟨rfl, ih (fun x hx => hel x (List.mem_cons_of_mem _ hx))⟩

theorem mangleFrom_nodup (seen names : List Str) (hn : names.Nodup) (hs : ∀ n ∈ names, n ∉ seen) :
    mangleFrom seen names = names := by
  induction names generalizing seen with
  | nil => rfl
  | cons n ns ih =>
    rw [List.nodup_cons] at hn
    rw [mangleFrom, if_pos (List.count_eq_zero_of_not_mem (hs n List.mem_cons_self)),
      ih (n :: seen) hn.2]
    intro m hm
    rw [List.mem_cons]
    rintro (rfl | h)
    · exact hn.1 hm
    · exact hs m (List.mem_cons_of_mem _ hm) h

theorem symbolOf_append {n : Str} (h : '-' ∈ n) (t : Str) : symbolOf (n ++ t) = symbolOf n := by
  unfold symbolOf
  induction n with
  | nil => simp at h
  | cons a n ih =>
    by_cases ha : a = '-'
    · subst ha; simp
    · rw [List.cons_append, List.takeWhile_cons, List.takeWhile_cons, if_pos (by simpa using ha),
        if_pos (by simpa using ha), ih (by
          rcases List.mem_cons.1 h with h | h
          · exact absurd h.symm ha
          · exact h)]

/-- Renaming repeated columns does not change the element of a name with a dash. -/
theorem mangleFrom_symbol (seen names : List Str) :
    List.Forall₂ (fun n m => n <+: m ∧ ('-' ∈ n → symbolOf m = symbolOf n)) names (mangleFrom seen names) := by
  induction names generalizing seen with
  | nil => exact .nil
  | cons n ns ih =>
    refine .cons ?_ (ih (n :: seen))
    split
    · exact ⟨List.prefix_rfl, fun _ => rfl⟩
    · exact ⟨List.prefix_append _ _, fun h => symbolOf_append h _⟩

/-! ## Sums -/

theorem filter_sum_split (l : List (Str × ℚ)) (p q : Str → Prop) [DecidablePred p] [DecidablePred q]
    (h : ∀ c, q c → p c) :
    ((l.filter (fun cv => decide (p cv.1))).map Prod.snd).sum
      = ((l.filter (fun cv => decide (q cv.1))).map Prod.snd).sum
        + ((l.filter (fun cv => decide (p cv.1 ∧ ¬ q cv.1))).map Prod.snd).sum := by
  induction l with
  | nil => simp
  | cons a l ih =>
    by_cases hp : p a.1
    · by_cases hq : q a.1
      · simp only [List.filter_cons, hp, hq, decide_true, if_true, List.map_cons, List.sum_cons,
          not_true, and_false, decide_false, Bool.false_eq_true, if_false]
        rw [ih]; ring
      · simp only [List.filter_cons, hp, hq, decide_true, if_true, List.map_cons, List.sum_cons,
          not_false_eq_true, and_true, decide_false, Bool.false_eq_true, if_false]
        rw [ih]; ring
    · have hq : ¬ q a.1 := fun hq => hp (h _ hq)
      simp only [List.filter_cons, hp, hq, decide_false, Bool.false_eq_true, if_false, false_and]
      exact ih

theorem maskSum_split (skip : ℕ) (cols : List Str) (el : Str) (row : List ℚ) :
    maskSum cols (fun c => el.isPrefixOf c) row = ownSum skip cols el row + strangerSum skip cols el row := by
  unfold maskSum ownSum strangerSum
  conv_lhs => rw [← List.take_append_drop skip (cols.zip row)]
  rw [List.filter_append, List.map_append, List.sum_append]
  have := filter_sum_split ((cols.zip row).drop skip) (fun c => el.isPrefixOf c = true)
    (fun c => symbolOf c = el) (by
      intro c hc
      rw [List.isPrefixOf_iff_prefix, ← hc]
      exact symbolOf_prefix c)
  simp only [Bool.decide_eq_true] at this
  rw [this]
  simp only [ne_eq]
  ring

theorem filter_sum_zero (l : List (Str × ℚ)) (p : Str × ℚ → Bool) (h : ∀ cv ∈ l, p cv = false) :
    ((l.filter p).map Prod.snd).sum = 0 := by
  rw [List.filter_eq_nil_iff.2 (by intro a ha; rw [h a ha]; simp)]
  rfl

/-- No stranger when no other symbol, and none of the first columns, starts with the symbol. -/
theorem strangerSum_zero (skip : ℕ) (cols : List Str) (el : Str) (row : List ℚ)
    (hel : ∀ x ∈ el, x ≠ '-')
    (h1 : ∀ c ∈ cols.take skip, ¬ el <+: c)
    (h2 : ∀ c ∈ cols.drop skip, el <+: symbolOf c → symbolOf c = el) :
    strangerSum skip cols el row = 0 := by
  unfold strangerSum
  rw [filter_sum_zero, filter_sum_zero, add_zero]
  · intro cv hcv
    have hc : cv.1 ∈ cols.drop skip := by
      rw [List.zip, List.drop_zipWith] at hcv
      exact (List.of_mem_zip (a := cv.1) (b := cv.2) hcv).1
    simp only [decide_eq_false_iff_not, not_and, not_not]
    intro hp
    exact h2 _ hc (prefix_symbol hel (List.isPrefixOf_iff_prefix.1 hp))
  · intro cv hcv
    have hc : cv.1 ∈ cols.take skip := by
      rw [List.zip, List.take_zipWith] at hcv
      exact (List.of_mem_zip (a := cv.1) (b := cv.2) hcv).1
    have := h1 _ hc
    rw [← List.isPrefixOf_iff_prefix] at this
    exact Bool.eq_false_iff.2 this

/-! ## Reading tables -/

theorem split_words (s : Str) : ∀ w ∈ split s, w ≠ [] ∧ ∀ c ∈ w, isSpace c = false := by
  have key : ∀ (s cur : Str), (∀ c ∈ cur, isSpace c = false) →
      ∀ w ∈ splitAux cur s, w ≠ [] ∧ ∀ c ∈ w, isSpace c = false := by
    intro s
    induction s with
    | nil =>
      intro cur hcur w hw
      rw [splitAux] at hw
      split at hw
      · simp at hw
      · rename_i hne
        rw [List.mem_singleton] at hw
        subst hw
        exact ⟨by simpa using hne, fun c hc => hcur c (List.mem_reverse.1 hc)⟩
    | cons d ds ih =>
      intro cur hcur w hw
      rw [splitAux] at hw
      split at hw
      · split at hw
        · exact ih [] (by simp) w hw
        · rename_i hne
          rcases List.mem_cons.1 hw with rfl | hw
          · exact ⟨by simpa using hne, fun c hc => hcur c (List.mem_reverse.1 hc)⟩
          · exact ih [] (by simp) w hw
      · rename_i hd
        refine ih (d :: cur) ?_ w hw
        intro c hc
        rcases List.mem_cons.1 hc with rfl | hc
        · simpa using hd
        · exact hcur c hc
  exact key s [] (by simp)

/-- Joining words with blanks and splitting again gives the words. -/
theorem split_join (ws : List Str) (h : ∀ w ∈ ws, w ≠ [] ∧ ∀ c ∈ w, isSpace c = false) :
    split (List.intercalate (chars% "\t   ") ws ++ ['\n']) = ws := by
  have hn : isSpace '\n' = true := by decide
  have ht : isSpace '\t' = true := by decide
  have hs : isSpace ' ' = true := by decide
  have hend : split ['\n'] = [] := by decide
  induction ws with
  | nil => exact hend
  | cons w ws ih =>
    obtain ⟨hw1, hw2⟩ := h w List.mem_cons_self
    cases ws with
    | nil =>
      change split (w ++ [] ++ ['\n']) = [w]
      rw [List.append_nil, split_word hw1 hw2 hn]
      rfl
    | cons v vs =>
      have e : List.intercalate (chars% "\t   ") (w :: v :: vs)
          = w ++ '\t' :: ' ' :: ' ' :: ' ' :: List.intercalate (chars% "\t   ") (v :: vs) := by
        simp [List.intercalate, List.intersperse]
      rw [e, List.append_assoc, List.cons_append, split_word hw1 hw2 ht]
      congr 1
      simp only [List.cons_append]
      rw [split_space hs, split_space hs, split_space hs]
      exact ih (fun w hw => h w (List.mem_cons_of_mem _ hw))

theorem filter_blank_map (rows : List Str) (blank : ∀ r ∈ rows, split r = []) :
    (rows.map split).filter (fun ws => ws ≠ []) = [] := by
  rw [List.filter_eq_nil_iff]
  intro a ha
  obtain ⟨r, hr, rfl⟩ := List.mem_map.1 ha
  simp [blank r hr]

theorem readCsv_eq (hdr : Str) (rows : List Str) (hh : split hdr ≠ []) :
    readCsv (hdr :: rows) = (do
      let vals ← ((rows.map split).filter (fun ws => ws ≠ [])).mapM (fun (ws : List Str) =>
        if ws.length = (split hdr).length then ws.mapM parseFloat else .error .valueError)
      return ⟨mangleFrom [] (split hdr), vals⟩) := by
  unfold readCsv
  rw [List.map_cons, List.filter_cons, if_pos (by simpa using hh)]

theorem csvRow_ok (n : ℕ) (ws : List Str) (vs : List ℚ) (h : List.Forall₂ (fun x v => parseFloat x = .ok v) ws vs)
    (hl : vs.length = n) :
    (if ws.length = n then ws.mapM parseFloat else .error .valueError) = .ok vs := by
  rw [if_pos (by rw [h.length_eq, hl])]
  exact mapM_eq_ok.2 h

theorem colIdx_ok {cols : List Str} {n : Str} (h : n ∈ cols) : colIdx cols n = .ok (cols.idxOf n) := if_pos h

/-! ## Fat bands -/

theorem cutSizes_replicate {α : Type} (parts : List (List α)) (m : ℕ) (h : ∀ p ∈ parts, p.length = m) :
    cutSizes (List.replicate parts.length m) parts.flatten = parts := by
  induction parts with
  | nil => rfl
  | cons p ps ih =>
    have hp := h p List.mem_cons_self
    rw [List.length_cons, List.replicate_succ, cutSizes, List.flatten_cons]
    rw [List.take_left' hp, List.drop_left' hp, ih (fun q hq => h q (List.mem_cons_of_mem _ hq))]

theorem arraySplit_flatten {α : Type} (parts : List (List α)) (m : ℕ) (h : ∀ p ∈ parts, p.length = m)
    (hne : parts ≠ []) : arraySplit parts.flatten parts.length = .ok parts := by
  have hk : 0 < parts.length := List.length_pos_iff.2 hne
  have hlen : parts.flatten.length = m * parts.length := by
    rw [List.length_flatten]
    clear hne hk
    induction parts with
    | nil => simp
    | cons p ps ih =>
      rw [List.map_cons, List.sum_cons, h p List.mem_cons_self,
        ih (fun q hq => h q (List.mem_cons_of_mem _ hq)), List.length_cons]
      ring
  unfold arraySplit
  rw [if_neg (by omega), hlen, Nat.mul_mod_left, Nat.mul_div_cancel _ hk, List.replicate_zero,
    List.nil_append, Nat.sub_zero, cutSizes_replicate parts m h]

theorem band_upper {r : Str} (h : strIn (chars% "BAND") r = true) : strIn (chars% "BAND") (upper r) = true := by
  rw [strIn_iff] at h ⊢
  have := List.IsInfix.map Char.toUpper h
  exact this

theorem lineLocateFrom_split (content : Str) (k : ℕ) (xs ys : List Str) :
    lineLocateFrom content k (xs ++ ys)
      = lineLocateFrom content k xs ++ lineLocateFrom content (k + xs.length) ys := by
  induction xs generalizing k with
  | nil => simp [lineLocateFrom]
  | cons x xs ih =>
    rw [List.cons_append, lineLocateFrom, lineLocateFrom, ih, List.length_cons,
      show k + 1 + xs.length = k + (xs.length + 1) by omega]
    split <;> simp

theorem lineLocateFrom_none (content : Str) (k : ℕ) (xs : List Str)
    (h : ∀ r ∈ xs, strIn content (upper r) = false) : lineLocateFrom content k xs = [] := by
  induction xs generalizing k with
  | nil => rfl
  | cons x xs ih =>
    rw [lineLocateFrom, if_neg (by rw [h x List.mem_cons_self]; simp),
      ih _ (fun r hr => h r (List.mem_cons_of_mem _ hr))]

theorem fat_locate (bands : List BandText) (w nk : ℕ) (h : ∀ b ∈ bands, b.Wellformed w nk) (k : ℕ) :
    (lineLocateFrom (chars% "BAND") k (bands.flatMap (fun b => b.mark :: (b.data ++ b.blank)))).length
      = bands.length := by
  induction bands generalizing k with
  | nil => rfl
  | cons b bs ih =>
    have hb := h b List.mem_cons_self
    rw [List.flatMap_cons, lineLocateFrom_split, List.length_append,
      ih (fun b hb => h b (List.mem_cons_of_mem _ hb)), lineLocateFrom, if_pos (band_upper hb.mark),
      lineLocateFrom_none, List.length_cons, List.length_cons]
    · simp only [List.length_nil]; omega
    · intro r hr
      rcases List.mem_append.1 hr with hr | hr
      · exact hb.data_no_mark r hr
      · exact hb.blank_no_mark r hr

theorem fat_filter (bands : List BandText) (w nk : ℕ) (h : ∀ b ∈ bands, b.Wellformed w nk) :
    (bands.flatMap (fun b => b.mark :: (b.data ++ b.blank))).filter
        (fun r => !strIn (chars% "BAND") r)
      = bands.flatMap (fun b => b.data ++ b.blank) := by
  induction bands with
  | nil => rfl
  | cons b bs ih =>
    have hb := h b List.mem_cons_self
    rw [List.flatMap_cons, List.filter_append, ih (fun b hb => h b (List.mem_cons_of_mem _ hb)),
      List.flatMap_cons, List.filter_cons, if_neg (by rw [hb.mark]; simp)]
    congr 1
    rw [List.filter_eq_self]
    intro r hr
    have hf : strIn (chars% "BAND") (upper r) = false := by
      rcases List.mem_append.1 hr with hr | hr
      · exact hb.data_no_mark r hr
      · exact hb.blank_no_mark r hr
    cases hc : strIn (chars% "BAND") r with
    | false => rfl
    | true => rw [band_upper hc] at hf; cases hf

theorem forall₂_mem_left {α β : Type} {R : α → β → Prop} {as : List α} {bs : List β}
    (h : List.Forall₂ R as bs) (a : α) (ha : a ∈ as) : ∃ b ∈ bs, R a b := by
  induction h with
  | nil => simp at ha
  | cons h1 _ ih =>
    rcases List.mem_cons.1 ha with rfl | ha
    · exact ⟨_, List.mem_cons_self, h1⟩
    · obtain ⟨b, hb, hr⟩ := ih ha
      exact ⟨b, List.mem_cons_of_mem _ hb, hr⟩

theorem fat_words (bands : List BandText) (w nk : ℕ) (hw : 0 < w) (h : ∀ b ∈ bands, b.Wellformed w nk) :
    ((bands.flatMap (fun b => b.data ++ b.blank)).map split).filter (fun ws => ws ≠ [])
      = bands.flatMap (fun b => b.data.map split) := by
  induction bands with
  | nil => rfl
  | cons b bs ih =>
    have hb := h b List.mem_cons_self
    rw [List.flatMap_cons, List.map_append, List.filter_append,
      ih (fun b hb => h b (List.mem_cons_of_mem _ hb)), List.flatMap_cons, List.map_append,
      List.filter_append, filter_blank_map _ hb.blank, List.append_nil]
    congr 1
    rw [List.filter_eq_self]
    intro ws hws
    obtain ⟨r, hr, rfl⟩ := List.mem_map.1 hws
    obtain ⟨vs, hvs, hf⟩ := forall₂_mem_left hb.reads r hr
    have : (split r).length = w := by rw [hf.length_eq, hb.width vs hvs]
    have hne : split r ≠ [] := by intro e; rw [e] at this; simp at this; omega
    simpa using hne

theorem fat_vals (bands : List BandText) (w nk : ℕ) (h : ∀ b ∈ bands, b.Wellformed w nk) :
    (bands.flatMap (fun b => b.data.map split)).mapM (fun (ws : List Str) =>
        if ws.length = w then ws.mapM parseFloat else .error .valueError)
      = (.ok (bands.flatMap BandText.vals) : Except PyErr (List (List ℚ))) := by
  rw [mapM_eq_ok]
  induction bands with
  | nil => exact .nil
  | cons b bs ih =>
    have hb := h b List.mem_cons_self
    rw [List.flatMap_cons, List.flatMap_cons]
    refine List.rel_append ?_ (ih (fun b hb => h b (List.mem_cons_of_mem _ hb)))
    rw [List.forall₂_map_left_iff]
    have h1 := hb.reads
    have h2 := hb.width
    revert h1 h2
    generalize b.data = d
    generalize b.vals = v
    intro h1 h2
    induction h1 with
    | nil => exact .nil
    | cons hx _ ihx =>
      refine .cons (csvRow_ok w _ _ hx (h2 _ List.mem_cons_self)) (ihx ?_)
      intro vs hvs
      exact h2 vs (List.mem_cons_of_mem _ hvs)

theorem scaleK_eq (cols : List Str) (hn : cols.Nodup) (hk : chars% "KPOINT" ∈ cols) (r : List ℚ)
    (hr : r.length = cols.length) :
    r.set (cols.idxOf (chars% "KPOINT"))
      (r.getD (cols.idxOf (chars% "KPOINT")) 0 / (529177249 / 1000000000)) = scaleK cols r := by
  have hi : cols.idxOf (chars% "KPOINT") < cols.length := List.idxOf_lt_length_of_mem hk
  apply List.ext_getElem
  · simp [scaleK, hr]
  · intro j h1 h2
    have hj : j < cols.length := by simpa [hr] using h1
    have hj' : j < r.length := by omega
    rw [List.getElem_set]
    simp only [scaleK, List.getElem_map, List.getElem_zip]
    by_cases e : cols.idxOf (chars% "KPOINT") = j
    · have ec : cols[j] = chars% "KPOINT" := by
        have := List.getElem_idxOf hi
        simpa [e] using this
      rw [if_pos e, if_pos ec, e, List.getD, List.getElem?_eq_getElem hj', Option.getD_some]
    · rw [if_neg e, if_neg]
      intro ec
      apply e
      rw [← ec]
      exact hn.idxOf_getElem j hj

theorem flatMap_map_flatten {α β : Type} (f : α → List (List β)) (l : List α) :
    l.flatMap f = (l.map f).flatten := List.flatMap_def ..

/-- The table of a fat-band file. -/
theorem fatFrame_text (hdr : Str) (bands : List BandText) (nk : ℕ)
    (hh : strIn (chars% "BAND") hdr = false) (hnd : (split hdr).Nodup)
    (hk : chars% "KPOINT" ∈ split hdr)
    (h : ∀ b ∈ bands, b.Wellformed (split hdr).length nk) :
    fatFrame (fatText hdr bands)
      = .ok ⟨split hdr, bands.flatMap (fun b => b.vals.map (scaleK (split hdr)))⟩ := by
  have hne : split hdr ≠ [] := List.ne_nil_of_mem hk
  unfold fatFrame fatText
  rw [List.filter_cons, if_pos (by rw [hh]; rfl), fat_filter bands _ nk h, readCsv_eq _ _ hne,
    fat_words bands _ nk (List.length_pos_iff.2 hne) h, fat_vals bands _ nk h, ok_bind,
    mangleFrom_nodup [] _ hnd (by simp)]
  change (do
      let k ← colIdx (split hdr) (chars% "KPOINT")
      return (⟨split hdr, (bands.flatMap BandText.vals).map (fun r =>
        r.set k (r.getD k 0 / (529177249 / 1000000000)))⟩ : Frame) : Except PyErr Frame) = _
  rw [colIdx_ok hk, ok_bind, List.map_flatMap]
  change Except.ok _ = Except.ok _
  congr 2
  refine List.flatMap_congr ?_
  intro b hb
  refine List.map_congr_left ?_
  intro r hr
  exact scaleK_eq _ hnd hk r ((h b hb).width r hr)

theorem fatCounts_text (hdr : Str) (b : BandText) (c : BandText) (bands : List BandText) (w nk : ℕ)
    (hh : strIn (chars% "BAND") (upper hdr) = false)
    (h : ∀ x ∈ b :: c :: bands, x.Wellformed w nk) :
    fatCounts (fatText hdr (b :: c :: bands))
      = .ok (bands.length + 2, (b.data.length + b.blank.length : ℤ) - 1) := by
  have hb := h b (by simp)
  have hc := h c (by simp)
  have hnone : ∀ x ∈ b :: c :: bands, ∀ r ∈ x.data ++ x.blank, strIn (chars% "BAND") (upper r) = false := by
    intro x hx r hr
    rcases List.mem_append.1 hr with hr | hr
    · exact (h x hx).data_no_mark r hr
    · exact (h x hx).blank_no_mark r hr
  obtain ⟨tail, ht, hlen⟩ : ∃ tail, lineLocate (fatText hdr (b :: c :: bands)) (chars% "BAND")
      = 2 :: (b.data.length + b.blank.length + 3) :: tail ∧ tail.length = bands.length := by
    unfold lineLocate fatText
    rw [lineLocateFrom, if_neg (by rw [hh]; simp), List.flatMap_cons, lineLocateFrom_split, lineLocateFrom,
      if_pos (band_upper hb.mark), lineLocateFrom_none _ _ _ (hnone b (by simp)), List.flatMap_cons,
      lineLocateFrom_split, lineLocateFrom, if_pos (band_upper hc.mark),
      lineLocateFrom_none _ _ _ (hnone c (by simp))]
    refine ⟨lineLocateFrom (chars% "BAND")
      (0 + 1 + (b.mark :: (b.data ++ b.blank)).length + (c.mark :: (c.data ++ c.blank)).length)
      (bands.flatMap (fun b => b.mark :: (b.data ++ b.blank))), ?_,
      fat_locate bands w nk (fun x hx => h x (by simp [hx])) _⟩
    have e : 0 + 1 + (b.mark :: (b.data ++ b.blank)).length + 1 = b.data.length + b.blank.length + 3 := by
      simp only [List.length_cons, List.length_append]; omega
    rw [e]
    rfl
  unfold fatCounts
  rw [ht]
  simp only [pyGet, List.getElem?_cons_succ, List.getElem?_cons_zero, ok_bind, List.length_cons, hlen]
  change Except.ok _ = Except.ok _
  congr 2
  push_cast
  ring

end MaterSDK
