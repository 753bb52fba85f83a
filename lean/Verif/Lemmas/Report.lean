import Verif.Spec.Report
import Verif.Lemmas.AC
import Verif.Lemmas.Num
import Verif.Lemmas.Except
import Verif.Lemmas.Str
import Verif.Lemmas.Readers
import Mathlib.Tactic.Linarith
import Mathlib.Tactic.Positivity
import Mathlib.Tactic.FieldSimp

/-! # REPORT files -/

namespace MaterSDK

/-! ## Rounding -/

theorem roundDec_mono (k : ℕ) {p q : ℚ} (h : p ≤ q) : roundDec k p ≤ roundDec k q := by
  unfold roundDec
  have h1 : p * 10 ^ k ≤ q * 10 ^ k := mul_le_mul_of_nonneg_right h (by positivity)
  have h2 : (rhe (p * 10 ^ k) : ℚ) ≤ rhe (q * 10 ^ k) := by exact_mod_cast rhe_mono h1
  exact div_le_div_of_nonneg_right h2 (by positivity)

theorem roundDec_decimal (k : ℕ) (z : ℤ) : roundDec k ((z : ℚ) / 10 ^ k) = (z : ℚ) / 10 ^ k := by
  unfold roundDec
  rw [div_mul_cancel₀ _ (by positivity), rhe_intCast]

theorem roundDec_idem (k : ℕ) (q : ℚ) : roundDec k (roundDec k q) = roundDec k q :=
  roundDec_decimal k _

theorem roundDec_coarse (k : ℕ) (q : ℚ) : roundDec (k + 1) (roundDec k q) = roundDec k q := by
  have : roundDec k q = ((10 * rhe (q * 10 ^ k) : ℤ) : ℚ) / 10 ^ (k + 1) := by
    unfold roundDec
    push_cast
    rw [pow_succ]
    field_simp
  rw [this, roundDec_decimal]

theorem roundDec_error (k : ℕ) (q : ℚ) : |roundDec k q - q| ≤ 1 / 2 / 10 ^ k := by
  have h := rhe_error (q * 10 ^ k)
  have hp : (0 : ℚ) < 10 ^ k := by positivity
  have e : roundDec k q - q = ((rhe (q * 10 ^ k) : ℚ) - q * 10 ^ k) / 10 ^ k := by
    unfold roundDec
    field_simp
  rw [e, abs_div, abs_of_pos hp]
  exact div_le_div_of_nonneg_right h hp.le

/-! ## Searching -/

/-- The numbers of the matching rows when the first row has number `k + 1`. -/
def aimFrom (aim : Str) (k : ℕ) (rows : List Str) : List ℕ :=
  ((rows.zipIdx k).filter (fun p => strIn aim p.1)).map (fun p => p.2 + 1)

theorem searchAim_eq (rows : List Str) (aim : Str) : searchAim rows aim = aimFrom aim 0 rows := rfl

theorem aimFrom_cons (aim : Str) (k : ℕ) (r : Str) (rows : List Str) :
    aimFrom aim k (r :: rows) = if strIn aim r then (k + 1) :: aimFrom aim (k + 1) rows
      else aimFrom aim (k + 1) rows := by
  unfold aimFrom
  rw [List.zipIdx_cons, List.filter_cons]
  split <;> simp

theorem aimFrom_append (aim : Str) (k : ℕ) (xs ys : List Str) :
    aimFrom aim k (xs ++ ys) = aimFrom aim k xs ++ aimFrom aim (k + xs.length) ys := by
  unfold aimFrom
  rw [List.zipIdx_append, List.filter_append, List.map_append]

theorem aimFrom_none (aim : Str) (k : ℕ) (xs : List Str) (h : ∀ r ∈ xs, ¬ aim <:+: r) :
    aimFrom aim k xs = [] := by
  unfold aimFrom
  rw [List.map_eq_nil_iff, List.filter_eq_nil_iff]
  intro p hp hs
  have : p.1 ∈ xs := by
    have := List.mem_map_of_mem (f := Prod.fst) hp
    rwa [List.zipIdx_map_fst] at this
  exact h p.1 this ((strIn_iff _ _).1 hs)

theorem reportCount_ok (f : RunFiles) (hc : f.cached = f.report) (key row : Str) (n : ℕ)
    (h1 : FirstWith f.report key row) (h2 : LastCount row n) : reportCount f key = .ok (n : Int) := by
  obtain ⟨pre, post, hr, hk, hpre⟩ := h1
  obtain ⟨ws, w, hs, hw⟩ := h2
  have hsearch : pyGet (searchAim f.report key) 0 = .ok (pre.length + 1) := by
    rw [pyGet_eq_ok, searchAim_eq, hr, aimFrom_append, aimFrom_none key 0 pre hpre, aimFrom_cons,
      if_pos ((strIn_iff _ _).2 hk)]
    simp
  have hline : getline f.cached (pre.length + 1) = row := by
    unfold getline
    rw [if_neg (by omega), hc, hr]
    simp
  have hword : pyGetI (split row) (-1) = .ok w := by
    rw [hs]
    unfold pyGetI
    simp only [show (-1 : Int) < 0 from by decide, if_true, List.length_append, List.length_singleton]
    rw [if_neg (by push_cast; omega)]
    have : ((-1 : Int) + ((ws.length + 1 : ℕ) : Int)).toNat = ws.length := by push_cast; omega
    rw [this, pyGet_eq_ok]
    simp
  unfold reportCount
  rw [hsearch, ok_bind, hline, hword, ok_bind]
  exact parseInt_count hw

theorem reportCount_missing (f : RunFiles) (key : Str) (h : ∀ r ∈ f.report, ¬ key <:+: r) :
    reportCount f key = .error .indexError := by
  unfold reportCount
  rw [searchAim_eq, aimFrom_none key 0 _ h]
  rfl

/-! ## Blocks -/

theorem fiveRows_length {rows : List Str} {vals : List ℚ} (h : FiveRows rows vals) :
    (rows.length : Int) = -(-(vals.length : Int) / 5) := by
  induction h with
  | nil => rfl
  | last r vs hne hle _ =>
    have : vs.length ≠ 0 := fun h => hne (List.length_eq_zero_iff.1 h)
    simp only [List.length_singleton]
    push_cast
    omega
  | more r vs rows rest h5 hne _ hr ih =>
    simp only [List.length_cons, List.length_append, h5]
    push_cast
    omega

theorem fiveRows_reads {rows : List Str} {vals : List ℚ} (h : FiveRows rows vals) :
    (rows.flatMap split).mapM parseFloat = .ok vals := by
  rw [mapM_eq_ok]
  induction h with
  | nil => exact .nil
  | last r vs _ _ hr => rw [List.flatMap_singleton]; exact hr
  | more r vs rows rest _ _ hr _ ih =>
    rw [List.flatMap_cons]
    exact List.rel_append hr ih

theorem eigen_mapM (key : Str) (n : Int) (parts : List (List Str)) (blocks : List (List ℚ))
    (h : List.Forall₂ (EigenBlock key) parts blocks)
    (hn : ∀ b ∈ blocks, -(-(b.length : Int) / 5) = n) (pre : List Str) :
    (aimFrom key pre.length parts.flatten).mapM (eigenBlock (pre ++ parts.flatten) n) = .ok blocks := by
  induction h generalizing pre with
  | nil => rfl
  | cons hb _ ih =>
    rename_i part vals parts blocks _
    obtain ⟨header, body, tail, rfl, hk, hfive, hno⟩ := hb.layout
    rw [List.flatten_cons, aimFrom_append, List.cons_append, aimFrom_cons,
      if_pos ((strIn_iff _ _).2 hk), aimFrom_none key _ _ hno]
    rw [List.singleton_append, List.mapM_cons]
    have e1 : eigenBlock (pre ++ (header :: (body ++ tail) ++ parts.flatten)) n (pre.length + 1) = .ok vals := by
      unfold eigenBlock
      have hl := fiveRows_length hfive
      rw [hn vals (by simp)] at hl
      rw [← hl, sliceN_nonneg]
      have : (List.drop (pre.length + 1) (pre ++ (header :: (body ++ tail) ++ parts.flatten))).take
          body.length = body := by
        have : pre ++ (header :: (body ++ tail) ++ parts.flatten)
            = (pre ++ [header]) ++ (body ++ (tail ++ parts.flatten)) := by simp
        rw [this, List.drop_append_of_le_length (by simp), List.drop_of_length_le (by simp)]
        simp
      rw [this]
      exact fiveRows_reads hfive
    rw [List.cons_append] at e1
    rw [e1, ok_bind]
    have e2 := ih (fun b hb => hn b (by simp [hb])) (pre ++ header :: (body ++ tail))
    have e3 : pre ++ header :: (body ++ tail ++ parts.flatten)
        = pre ++ header :: (body ++ tail) ++ parts.flatten := by simp
    have e4 : pre.length + (header :: (body ++ tail)).length = (pre ++ header :: (body ++ tail)).length := by
      simp
    rw [e3, e4, e2]
    rfl

theorem npRect_ok (rows : List (List ℚ)) (n : ℕ) (h : ∀ r ∈ rows, r.length = n) : npRect rows = .ok rows := by
  cases rows with
  | nil => rfl
  | cons r rs =>
    simp only [npRect]
    rw [if_pos]
    rw [List.all_eq_true]
    intro s hs
    simp [h s (by simp [hs]), h r (by simp)]

/-- The table of a laid-out REPORT before the final assertion. -/
theorem eigenEnergies_layout (np125 : Bool) (f : RunFiles) (hc : f.cached = f.report) (nk nb : ℕ)
    (blocks : List (List ℚ)) (h : ReportLayout f.report nk nb blocks) :
    eigenEnergies np125 f =
      (spinAssert np125 ⟨blocks.take nk, blocks.drop nk⟩).bind
        (fun _ => .ok ⟨blocks.take nk, blocks.drop nk⟩) := by
  obtain ⟨⟨r1, h1, h1'⟩, ⟨r2, h2, h2'⟩, ⟨pre, parts, hr, hpre, hparts⟩, hsize⟩ := h
  unfold eigenEnergies numKpts numBands
  rw [reportCount_ok f hc _ _ _ h1 h1', ok_bind, reportCount_ok f hc _ _ _ h2 h2', ok_bind]
  simp only
  have : (searchAim f.report (chars% "eigen energies, in eV")).mapM
      (eigenBlock f.report (-(-(nb : Int) / 5))) = .ok blocks := by
    rw [searchAim_eq, hr, aimFrom_append, aimFrom_none _ _ _ hpre, List.nil_append, Nat.zero_add]
    exact eigen_mapM _ _ parts blocks hparts (fun b hb => by rw [hsize b hb]) pre
  rw [this, ok_bind, npRect_ok _ nb (fun r hr => hsize r (List.mem_of_mem_take (by simpa using hr))),
    ok_bind, npRect_ok _ nb (fun r hr => hsize r (List.mem_of_mem_drop (by simpa using hr))), ok_bind]
  simp only [Int.toNat_natCast]
  rfl

/-! ## Rectangular tables -/

/-- All rows have the same number of entries. -/
def Rect (rows : List (List ℚ)) : Prop := ∀ r ∈ rows, r.length = npWidth rows

theorem npRect_rect {rows l : List (List ℚ)} (h : npRect rows = .ok l) : l = rows ∧ Rect rows := by
  cases rows with
  | nil => simp only [npRect, Except.ok.injEq] at h; exact ⟨h.symm, by intro r hr; cases hr⟩
  | cons r rs =>
    simp only [npRect] at h
    split at h
    · rename_i hall
      rw [List.all_eq_true] at hall
      refine ⟨(Except.ok.inj h).symm, ?_⟩
      intro s hs
      simp only [npWidth, List.head?_cons, Option.map_some, Option.getD_some]
      rcases List.mem_cons.1 hs with rfl | hs
      · rfl
      · simpa using hall s hs
    · cases h

theorem eigenEnergies_rect {np125 : Bool} {f : RunFiles} {t : EigenTable}
    (h : eigenEnergies np125 f = .ok t) (s : Spin) : Rect (t.get s) := by
  unfold eigenEnergies at h
  obtain ⟨nk, _, h⟩ := bind_eq_ok.1 h
  obtain ⟨nb, _, h⟩ := bind_eq_ok.1 h
  obtain ⟨blocks, _, h⟩ := bind_eq_ok.1 h
  obtain ⟨up, hu, h⟩ := bind_eq_ok.1 h
  obtain ⟨down, hd, h⟩ := bind_eq_ok.1 h
  obtain ⟨_, _, h⟩ := bind_eq_ok.1 h
  obtain rfl := Except.ok.inj h
  obtain ⟨rfl, h1⟩ := npRect_rect hu
  obtain ⟨rfl, h2⟩ := npRect_rect hd
  cases s
  · exact h1
  · exact h2

theorem bandCrosses_iff (tol : ℚ) (tab : List (List ℚ)) (hrect : Rect tab) (ef : ℚ) :
    bandCrosses tol tab ef = true ↔ ∃ (b k1 k2 : ℕ) (r1 r2 : List ℚ) (e1 e2 : ℚ),
      tab[k1]? = some r1 ∧ r1[b]? = some e1 ∧ tab[k2]? = some r2 ∧ r2[b]? = some e2 ∧
      e1 < ef - tol ∧ ef + tol < e2 := by
  unfold bandCrosses
  simp only [List.any_eq_true, List.mem_range, Bool.and_eq_true, List.mem_filterMap, decide_eq_true_eq]
  constructor
  · rintro ⟨b, _, ⟨e1, ⟨r1, h1, h2⟩, h3⟩, ⟨e2, ⟨r2, h4, h5⟩, h6⟩⟩
    obtain ⟨k1, hk1⟩ := List.mem_iff_getElem?.1 h1
    obtain ⟨k2, hk2⟩ := List.mem_iff_getElem?.1 h4
    exact ⟨b, k1, k2, r1, r2, e1, e2, hk1, h2, hk2, h5, by linarith, by linarith⟩
  · rintro ⟨b, k1, k2, r1, r2, e1, e2, h1, h2, h3, h4, h5, h6⟩
    have hr1 := List.mem_of_getElem? h1
    refine ⟨b, ?_, ⟨e1, ⟨r1, hr1, h2⟩, by linarith⟩, ⟨e2, ⟨r2, List.mem_of_getElem? h3, h4⟩, by linarith⟩⟩
    rw [← hrect r1 hr1]
    exact (List.getElem?_eq_some_iff.1 h2).1

/-! ## Searching the edges -/

theorem mem_allEntries (t : EigenTable) (s : Spin) (k b : ℕ) (e : ℚ) :
    (s, k, b, e) ∈ allEntries t ↔ t.At s k b e := by
  have hs : ∀ s', (s, k, b, e) ∈ spinEntries t s' ↔ s' = s ∧ t.At s' k b e := by
    intro s'
    unfold spinEntries EigenTable.At
    simp only [List.mem_flatMap, List.mem_map, Prod.mk.injEq]
    constructor
    · rintro ⟨⟨row, k'⟩, h1, ⟨e', b'⟩, h2, h3, rfl, rfl, rfl⟩
      rw [List.mem_zipIdx_iff_getElem?] at h1 h2
      exact ⟨h3, row, h1, h2⟩
    · rintro ⟨rfl, row, h1, h2⟩
      exact ⟨(row, k), List.mem_zipIdx_iff_getElem?.2 h1, (e, b), List.mem_zipIdx_iff_getElem?.2 h2,
        rfl, rfl, rfl, rfl⟩
  unfold allEntries
  rw [List.mem_append, hs, hs]
  cases s <;> simp

/-- What the CBM search has found after some entries. -/
structure CbmInv (ef : ℚ) (l : List (Spin × ℕ × ℕ × ℚ)) (c : Edge) : Prop where
  none : c.energy = none → (∀ x ∈ l, x.2.2.2 < ef) ∧ c = ⟨none, 0, 0, none⟩
  some : ∀ v, c.energy = some v → (∃ s k b e, (s, k, b, e) ∈ l ∧ ef ≤ e ∧ roundDec 4 e = v ∧
      c = ⟨some v, k + 1, b + 1, some s⟩) ∧ ∀ x ∈ l, ef ≤ x.2.2.2 → v ≤ roundDec 4 x.2.2.2

theorem cbm_foldl (ef : ℚ) (l : List (Spin × ℕ × ℕ × ℚ)) :
    CbmInv ef l (l.foldl (cbmStep ef) ⟨none, 0, 0, none⟩) := by
  induction l using List.reverseRecOn with
  | nil => exact ⟨fun _ => ⟨by simp, rfl⟩, fun v h => by simp at h⟩
  | append_singleton l x ih =>
    rw [List.foldl_append, List.foldl_cons, List.foldl_nil]
    generalize hc : l.foldl (cbmStep ef) ⟨none, 0, 0, none⟩ = c at ih ⊢
    obtain ⟨s, k, b, e⟩ := x
    unfold cbmStep
    simp only
    split
    · rename_i h
      refine ⟨fun h0 => by simp at h0, ?_⟩
      intro v hv
      simp only [Option.some.injEq] at hv
      subst hv
      refine ⟨⟨s, k, b, e, by simp, h.1, rfl, rfl⟩, ?_⟩
      intro x hx hex
      rcases List.mem_append.1 hx with hx | hx
      · cases hen : c.energy with
        | none => exact absurd hex (not_le.2 ((ih.none hen).1 x hx))
        | some v =>
          have h1 := h.2 v (by rw [hen]; rfl)
          have h2 := (ih.some v hen).2 x hx hex
          obtain ⟨s', k', b', e', _, _, he', _⟩ := (ih.some v hen).1
          have h3 : roundDec 4 e ≤ roundDec 4 v := roundDec_mono 4 h1.le
          rw [← he', roundDec_idem, he'] at h3
          linarith
      · simp only [List.mem_singleton] at hx
        rw [hx]
    · rename_i h
      push Not at h
      refine ⟨?_, ?_⟩
      · intro h0
        refine ⟨?_, (ih.none h0).2⟩
        intro x hx
        rcases List.mem_append.1 hx with hx | hx
        · exact (ih.none h0).1 x hx
        · simp only [List.mem_singleton] at hx
          rw [hx]
          by_contra hge
          obtain ⟨v, hv, _⟩ := h (not_lt.1 hge)
          rw [h0] at hv; cases hv
      · intro v hv
        obtain ⟨⟨s', k', b', e', h1, h2, h3, h4⟩, h5⟩ := ih.some v hv
        refine ⟨⟨s', k', b', e', by simp [h1], h2, h3, h4⟩, ?_⟩
        intro x hx hex
        rcases List.mem_append.1 hx with hx | hx
        · exact h5 x hx hex
        · simp only [List.mem_singleton] at hx
          rw [hx] at hex ⊢
          obtain ⟨v', hv', hle⟩ := h hex
          rw [hv] at hv'
          obtain rfl := Option.some.inj hv'
          have := roundDec_mono 4 hle
          rw [← h3, roundDec_idem] at this
          rw [← h3]; exact this

/-- What the VBM search has found after some entries. -/
structure VbmInv (ef : ℚ) (l : List (Spin × ℕ × ℕ × ℚ)) (c : Edge) : Prop where
  none : c.energy = none → (∀ x ∈ l, ef < x.2.2.2) ∧ c = ⟨none, 0, 0, none⟩
  some : ∀ v, c.energy = some v → (∃ s k b e, (s, k, b, e) ∈ l ∧ e ≤ ef ∧ roundDec 4 e = v ∧
      c = ⟨some v, k + 1, b + 1, some s⟩) ∧ ∀ x ∈ l, x.2.2.2 ≤ ef → roundDec 4 x.2.2.2 ≤ v

theorem vbm_foldl (ef : ℚ) (l : List (Spin × ℕ × ℕ × ℚ)) :
    VbmInv ef l (l.foldl (vbmStep ef) ⟨none, 0, 0, none⟩) := by
  induction l using List.reverseRecOn with
  | nil => exact ⟨fun _ => ⟨by simp, rfl⟩, fun v h => by simp at h⟩
  | append_singleton l x ih =>
    rw [List.foldl_append, List.foldl_cons, List.foldl_nil]
    generalize hc : l.foldl (vbmStep ef) ⟨none, 0, 0, none⟩ = c at ih ⊢
    obtain ⟨s, k, b, e⟩ := x
    unfold vbmStep
    simp only
    split
    · rename_i h
      refine ⟨fun h0 => by simp at h0, ?_⟩
      intro v hv
      simp only [Option.some.injEq] at hv
      subst hv
      refine ⟨⟨s, k, b, e, by simp, h.1, rfl, rfl⟩, ?_⟩
      intro x hx hex
      rcases List.mem_append.1 hx with hx | hx
      · cases hen : c.energy with
        | none => exact absurd hex (not_le.2 ((ih.none hen).1 x hx))
        | some v =>
          have h1 := h.2 v (by rw [hen]; rfl)
          have h2 := (ih.some v hen).2 x hx hex
          obtain ⟨s', k', b', e', _, _, he', _⟩ := (ih.some v hen).1
          have h3 : roundDec 4 v ≤ roundDec 4 e := roundDec_mono 4 (le_of_lt h1)
          rw [← he', roundDec_idem, he'] at h3
          linarith
      · simp only [List.mem_singleton] at hx
        rw [hx]
    · rename_i h
      push Not at h
      refine ⟨?_, ?_⟩
      · intro h0
        refine ⟨?_, (ih.none h0).2⟩
        intro x hx
        rcases List.mem_append.1 hx with hx | hx
        · exact (ih.none h0).1 x hx
        · simp only [List.mem_singleton] at hx
          rw [hx]
          by_contra hge
          obtain ⟨v, hv, _⟩ := h (not_lt.1 hge)
          rw [h0] at hv; cases hv
      · intro v hv
        obtain ⟨⟨s', k', b', e', h1, h2, h3, h4⟩, h5⟩ := ih.some v hv
        refine ⟨⟨s', k', b', e', by simp [h1], h2, h3, h4⟩, ?_⟩
        intro x hx hex
        rcases List.mem_append.1 hx with hx | hx
        · exact h5 x hx hex
        · simp only [List.mem_singleton] at hx
          rw [hx] at hex ⊢
          obtain ⟨v', hv', hle⟩ := h hex
          rw [hv] at hv'
          obtain rfl := Option.some.inj hv'
          have := roundDec_mono 4 hle
          rw [← h3, roundDec_idem] at this
          rw [← h3]; exact this

theorem shareEdges_same (t : EigenTable) (c : Edge) (shift : ℕ) (s : Spin) :
    ∀ x ∈ shareEdges t c shift s, x.energy = c.energy ∧ x.kpt = c.kpt := by
  intro x hx
  unfold shareEdges at hx
  obtain ⟨b, _, hb⟩ := List.mem_filterMap.1 hx
  split at hb
  · split at hb
    · split at hb
      · obtain rfl := (Option.some.inj hb).symm
        exact ⟨rfl, rfl⟩
      · cases hb
    · cases hb
  · cases hb

theorem edgeLists_ok {t : EigenTable} {c : Edge} {shift : ℕ} {l : List Edge}
    (h : edgeLists t c shift = .ok l) : t.up ≠ [] ∧ ∃ rest, l = c :: rest ∧
      ∀ x ∈ rest, x.energy = c.energy ∧ x.kpt = c.kpt := by
  unfold edgeLists at h
  split at h
  · cases h
  · rename_i h0
    refine ⟨fun h1 => h0 (by simp [h1]), _, (Except.ok.inj h).symm, ?_⟩
    intro x hx
    rcases List.mem_append.1 hx with hx | hx
    · exact shareEdges_same t c shift .up x hx
    · exact shareEdges_same t c shift .down x hx

theorem edgeLists_some (t : EigenTable) (c : Edge) (shift : ℕ) (h : t.up ≠ []) :
    ∃ rest, edgeLists t c shift = .ok (c :: rest) ∧ ∀ x ∈ rest, x.energy = c.energy ∧ x.kpt = c.kpt := by
  have : edgeLists t c shift = .ok (c :: (shareEdges t c shift .up ++ shareEdges t c shift .down)) := by
    unfold edgeLists
    rw [if_neg (by simpa using h)]
  obtain ⟨_, rest, h1, h2⟩ := edgeLists_ok this
  exact ⟨rest, by rw [this, h1], h2⟩

theorem exists_least (l : List ℚ) (h : l ≠ []) : ∃ m ∈ l, ∀ y ∈ l, m ≤ y := by
  induction l with
  | nil => exact absurd rfl h
  | cons a l ih =>
    by_cases hl : l = []
    · subst hl; exact ⟨a, by simp, by simp⟩
    · obtain ⟨m, h1, h2⟩ := ih hl
      rcases le_total a m with ham | ham
      · refine ⟨a, by simp, fun y hy => ?_⟩
        rcases List.mem_cons.1 hy with rfl | hy
        · exact le_refl _
        · exact ham.trans (h2 y hy)
      · refine ⟨m, by simp [h1], fun y hy => ?_⟩
        rcases List.mem_cons.1 hy with rfl | hy
        · exact ham
        · exact h2 y hy

theorem exists_greatest (l : List ℚ) (h : l ≠ []) : ∃ m ∈ l, ∀ y ∈ l, y ≤ m := by
  obtain ⟨m, h1, h2⟩ := exists_least (l.map (fun x => -x)) (by simpa using h)
  obtain ⟨x, hx, rfl⟩ := List.mem_map.1 h1
  exact ⟨x, hx, fun y hy => by have := h2 (-y) (List.mem_map_of_mem hy); linarith⟩

end MaterSDK
