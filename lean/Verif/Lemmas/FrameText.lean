import Verif.Spec.FrameText
import Verif.Lemmas.AC
import Verif.Lemmas.Trajectory

/-! # Lemmas on the text of one frame -/

namespace MaterSDK

theorem atomsPhrase_span {ds r : Str} (h : AtomsPhrase ds r) :
    (ds ++ r).span Char.isDigit = (ds, r) := by
  obtain ⟨h1, h2, h3⟩ := h
  refine span_digits h2 ?_
  intro c hc
  cases r with
  | nil => simp at hc
  | cons d r =>
    simp only [List.head?_cons, Option.mem_def, Option.some.injEq] at hc
    subst hc
    simp only [List.take_succ_cons, List.map_cons, List.cons.injEq] at h3
    by_contra hd
    have hd : d.isDigit = true := by simpa using hd
    have h4 := h3.1
    have : d.toUpper = d := by
      unfold Char.toUpper
      unfold Char.isDigit at hd
      simp only [Bool.and_eq_true, decide_eq_true_eq] at hd
      split
      · rename_i h
        exfalso
        have := h.1
        have h2 := hd.2
        simp only [UInt32.le_iff_toNat_le] at *
        simp at *
        omega
      · rfl
    rw [this] at h4
    subst h4
    simp at hd

theorem upper_prefix_iff (r : Str) :
    (chars% " ATOMS").isPrefixOf (upper r) = true ↔ (r.take 6).map Char.toUpper = (chars% " ATOMS") := by
  rw [List.isPrefixOf_iff_prefix, List.prefix_iff_eq_take]
  unfold upper
  rw [← List.map_take]
  exact eq_comm

theorem searchAtoms_cons (c : Char) (cs : Str) :
    (∃ ds r, c :: cs = ds ++ r ∧ AtomsPhrase ds r ∧ searchAtoms (c :: cs) = .ok (natOfDigits ds)) ∨
    ((∀ ds r, c :: cs = ds ++ r → ¬ AtomsPhrase ds r) ∧ searchAtoms (c :: cs) = searchAtoms cs) := by
  rw [searchAtoms]
  simp only
  have hsp : ((c :: cs).span Char.isDigit).1 ++ ((c :: cs).span Char.isDigit).2 = c :: cs := by
    rw [List.span_eq_takeWhile_dropWhile]; exact List.takeWhile_append_dropWhile
  have hdig : ∀ x ∈ ((c :: cs).span Char.isDigit).1, x.isDigit = true := by
    rw [List.span_eq_takeWhile_dropWhile]; intro x hx; exact (List.all_eq_true.1 List.all_takeWhile) x hx
  by_cases h : ((c :: cs).span Char.isDigit).1 ≠ [] ∧
      (chars% " ATOMS").isPrefixOf (upper ((c :: cs).span Char.isDigit).2) = true
  · left
    refine ⟨_, _, hsp.symm, ⟨h.1, hdig, (upper_prefix_iff _).1 h.2⟩, ?_⟩
    rw [if_pos h]
  · right
    refine ⟨?_, by rw [if_neg h]⟩
    intro ds r he hp
    have := atomsPhrase_span hp
    rw [← he] at this
    rw [this] at h
    exact h ⟨hp.1, (upper_prefix_iff _).2 hp.2.2⟩

theorem searchAtoms_ok {text : Str} {n : Nat} (h : searchAtoms text = .ok n) :
    ∃ ds, FirstAtomsPhrase text ds ∧ n = natOfDigits ds := by
  induction text with
  | nil => rw [searchAtoms] at h; cases h
  | cons c cs ih =>
    rcases searchAtoms_cons c cs with ⟨ds, r, he, hp, hs⟩ | ⟨hno, hs⟩
    · rw [hs] at h
      cases h
      exact ⟨ds, ⟨[], r, he, hp, fun _ _ _ _ _ => Nat.zero_le _⟩, rfl⟩
    · rw [hs] at h
      obtain ⟨ds, ⟨pre, r, he, hp, hl⟩, hn⟩ := ih h
      refine ⟨ds, ⟨c :: pre, r, by rw [he]; rfl, hp, ?_⟩, hn⟩
      intro pre' ds' r' he' hp'
      cases pre' with
      | nil => exact absurd hp' (hno ds' r' he')
      | cons d pre' =>
        simp only [List.cons_append, List.cons.injEq] at he'
        have := hl pre' ds' r' he'.2 hp'
        simpa using this

theorem searchAtoms_error {text : Str} {e : PyErr} (h : searchAtoms text = .error e) :
    e = .attributeError ∧ NoAtomsPhrase text := by
  induction text with
  | nil =>
    rw [searchAtoms] at h
    cases h
    refine ⟨rfl, ?_⟩
    intro pre ds r he hp
    have : ds = [] := by
      have := congrArg List.length he
      simp only [List.length_nil, List.length_append] at this
      exact List.length_eq_zero_iff.1 (by omega)
    exact hp.1 this
  | cons c cs ih =>
    rcases searchAtoms_cons c cs with ⟨ds, r, he, hp, hs⟩ | ⟨hno, hs⟩
    · rw [hs] at h; cases h
    · rw [hs] at h
      refine ⟨(ih h).1, ?_⟩
      intro pre ds r he hp
      cases pre with
      | nil => exact hno ds r he hp
      | cons d pre =>
        simp only [List.cons_append, List.cons.injEq] at he
        exact (ih h).2 pre ds r he.2 hp

theorem firstAtomsPhrase_unique {text ds ds' : Str} (h : FirstAtomsPhrase text ds)
    (h' : FirstAtomsPhrase text ds') : ds = ds' := by
  obtain ⟨pre, r, he, hp, hl⟩ := h
  obtain ⟨pre', r', he', hp', hl'⟩ := h'
  have hlen : pre.length = pre'.length :=
    le_antisymm (hl _ _ _ he' hp') (hl' _ _ _ he hp)
  have h2 : ds ++ r = ds' ++ r' := (List.append_inj (he ▸ he') hlen).2
  have h3 := atomsPhrase_span hp
  rw [h2, atomsPhrase_span hp'] at h3
  exact (congrArg Prod.fst h3).symm

theorem searchAtoms_eq_ok {text : Str} {n : Nat} :
    searchAtoms text = .ok n ↔ ∃ ds, FirstAtomsPhrase text ds ∧ n = natOfDigits ds := by
  refine ⟨searchAtoms_ok, ?_⟩
  rintro ⟨ds, hf, rfl⟩
  cases h : searchAtoms text with
  | error e =>
    obtain ⟨pre, r, he, hp, _⟩ := hf
    exact absurd hp ((searchAtoms_error h).2 pre ds r he)
  | ok n =>
    obtain ⟨ds', hf', rfl⟩ := searchAtoms_ok h
    rw [firstAtomsPhrase_unique hf hf']

theorem searchAtoms_eq_error {text : Str} {e : PyErr} :
    searchAtoms text = .error e ↔ e = .attributeError ∧ NoAtomsPhrase text := by
  refine ⟨searchAtoms_error, ?_⟩
  rintro ⟨rfl, hno⟩
  cases h : searchAtoms text with
  | error e => rw [(searchAtoms_error h).1]
  | ok n =>
    obtain ⟨ds, ⟨pre, r, he, hp, _⟩, _⟩ := searchAtoms_ok h
    exact absurd hp (hno pre ds r he)

theorem acStr_strs {text : Str} {a : ACStr} (h : acStr text = .ok a) : a.strs = splitCh '\n' text := by
  unfold acStr at h
  rw [bind_eq_ok] at h
  obtain ⟨n, _, h⟩ := h
  cases h; rfl

theorem block_eq_nextRows (a : ACStr) (l : Nat) : a.block l = nextRows a.strs l a.numAtoms := by
  unfold ACStr.block nextRows pySlice
  rw [show l + a.numAtoms + 1 - (l + 1) = a.numAtoms by omega]

theorem virialRow_eq_ok {a : ACStr} {k : Nat} {v : List ℚ} :
    a.virialRow k = .ok v ↔ ∃ row, a.strs[k]? = some row ∧ v.length = 3 ∧
      ReadsAs (pyLastN (split row) 3) v := by
  unfold ACStr.virialRow
  rw [bind_eq_ok]
  constructor
  · rintro ⟨row, h1, h⟩
    refine ⟨row, pyGet_eq_ok.1 h1, ?_⟩
    simp only [bind_eq_ok] at h
    obtain ⟨w0, h0, x, hx, w1, h1, y, hy, w2, h2, z, hz, h⟩ := h
    cases h
    refine ⟨rfl, ?_⟩
    have hlen : (pyLastN (split row) 3).length ≤ 3 := by
      unfold pyLastN; simp; omega
    revert h0 h1 h2 hlen
    generalize pyLastN (split row) 3 = l
    intro h0 h1 h2 hlen
    rw [pyGet_eq_ok] at h0 h1 h2
    match l, h0, h1, h2, hlen with
    | [a, b, c], h0, h1, h2, _ =>
      simp at h0 h1 h2
      subst h0 h1 h2
      exact .cons hx (.cons hy (.cons hz .nil))
    | [a, b], h0, h1, h2, _ => simp at h2
    | [a], h0, h1, h2, _ => simp at h2
    | [], h0, h1, h2, _ => simp at h2
  · rintro ⟨row, h1, hl, hr⟩
    refine ⟨row, pyGet_eq_ok.2 h1, ?_⟩
    simp only
    revert hr
    generalize pyLastN (split row) 3 = l
    intro hr
    match v, hl, hr with
    | [x, y, z], _, .cons hx (.cons hy (.cons hz .nil)) =>
      simp only [pyGet, List.getElem?_cons_zero, List.getElem?_cons_succ, ok_bind, hx, hy, hz]
      rfl

theorem checkStress_eq_ok {a : ACStr} {k : Nat} {u : Unit} :
    a.checkStress k = .ok u ↔ ∃ row, a.strs[k]? = some row ∧
      ∃ w ∈ split row, (chars% "STRESS") <:+: w.map Char.toUpper := by
  unfold ACStr.checkStress
  rw [bind_eq_ok]
  constructor
  · rintro ⟨row, h1, h⟩
    refine ⟨row, pyGet_eq_ok.1 h1, ?_⟩
    by_contra hno
    push Not at hno
    simp only at h
    rw [listLocate_noRow (c := (chars% "STRESS")) hno] at h
    simp at h
  · rintro ⟨row, h1, w, hw, hs⟩
    refine ⟨row, pyGet_eq_ok.2 h1, ?_⟩
    obtain ⟨i, hi⟩ := List.mem_iff_getElem?.1 hw
    have := mem_listLocate.2 ⟨w, hi, hs⟩
    rw [if_neg]
    intro h0
    rw [List.length_eq_zero_iff] at h0
    rw [h0] at this
    simp at this

end MaterSDK
