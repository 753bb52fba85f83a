import Verif.Lemmas.Report

/-! # REPORT files and band edges: C32-C36, C66-C68 -/

namespace MaterSDK

/-- The files of a run with valence energies up to 1 and conduction energies from 2, two k-points. -/
def exampleRun : RunFiles :=
  let rows := [chars% "NUM_KPT = 2\n", chars% "NUM_BAND = 2\n",
    chars% "eigen energies, in eV\n", chars% "0.5 2.0\n",
    chars% "eigen energies, in eV\n", chars% "1.0 3.0\n"]
  ⟨rows, rows, some [chars% "Fermi = 1.5 eV\n"]⟩

/-! ## C32 -/

/-- C32: the conduction-band minimum. For a run whose files can be read and that is not a metal,
`get_cbm` returns a list whose first entry holds the smallest energy at or above the Fermi energy over all
spins, k-points and bands, rounded to 4 decimals. The entry at the reported place is at or above the Fermi
energy and rounds to that value. The further entries repeat energy and k-point. Without any energy at or
above the Fermi energy the result is infinite. -/
theorem C32_cbm (np125 : Bool) (f : RunFiles) (fermi : List Str) (t : EigenTable) (ef : ℚ)
    (hf : f.fermi = some fermi) (hef : getEfermi fermi = .ok ef) (ht : eigenEnergies np125 f = .ok t)
    (hm : isMetal np125 f = .ok false) (hup : t.up ≠ []) :
    ∃ c rest, getCbm np125 f = .ok (some (c :: rest)) ∧
      (∀ x ∈ rest, x.energy = c.energy ∧ x.kpt = c.kpt) ∧
      ((∃ m, IsLeast {e | t.Has e ∧ ef ≤ e} m ∧ c.energy = some (roundDec 4 m)) ∨
        (∀ e, t.Has e → e < ef) ∧ c.energy = none) ∧
      (∀ v, c.energy = some v → ∃ s k b e, t.At s k b e ∧ ef ≤ e ∧ roundDec 4 e = v ∧
        c.kpt = k + 1 ∧ c.band = b + 1 ∧ c.spin = some s) := by
  have hinv := cbm_foldl ef (allEntries t)
  generalize hc : (allEntries t).foldl (cbmStep ef) ⟨none, 0, 0, none⟩ = c at hinv
  obtain ⟨rest, hedge, hrest⟩ := edgeLists_some t c 1 hup
  refine ⟨c, rest, ?_, hrest, ?_, ?_⟩
  · unfold getCbm
    rw [hm, ok_bind]
    simp only [Bool.false_eq_true, if_false, hf, Option.getD_some, hef, ok_bind, ht, hc, hedge]
    rfl
  · cases hen : c.energy with
    | none =>
      right
      refine ⟨?_, rfl⟩
      rintro e ⟨s, k, b, he⟩
      exact (hinv.none hen).1 _ ((mem_allEntries t s k b e).2 he)
    | some v =>
      left
      obtain ⟨⟨s, k, b, e, h1, h2, h3, -⟩, h4⟩ := hinv.some v hen
      -- the least energy at or above the Fermi energy exists
      let es := ((allEntries t).map (fun x => x.2.2.2)).filter (fun e => ef ≤ e)
      have hmem : ∀ y, y ∈ es ↔ t.Has y ∧ ef ≤ y := by
        intro y
        simp only [es, List.mem_filter, List.mem_map, decide_eq_true_eq]
        constructor
        · rintro ⟨⟨⟨s, k, b, y'⟩, h, rfl⟩, h'⟩
          exact ⟨⟨s, k, b, (mem_allEntries t s k b y').1 h⟩, h'⟩
        · rintro ⟨⟨s, k, b, h⟩, h'⟩
          exact ⟨⟨_, (mem_allEntries t s k b y).2 h, rfl⟩, h'⟩
      have hene : e ∈ es := (hmem e).2 ⟨⟨s, k, b, (mem_allEntries t s k b e).1 h1⟩, h2⟩
      obtain ⟨m, hm1, hm2⟩ := exists_least es (List.ne_nil_of_mem hene)
      refine ⟨m, ⟨(hmem m).1 hm1, fun y hy => hm2 y ((hmem y).2 hy)⟩, ?_⟩
      · have hme : m ≤ e := hm2 e hene
        obtain ⟨⟨s', k', b', hA⟩, hmef⟩ := (hmem m).1 hm1
        have h5 := h4 _ ((mem_allEntries t s' k' b' m).2 hA) hmef
        have h6 := roundDec_mono 4 hme
        rw [h3] at h6
        rw [le_antisymm h5 h6]
  · intro v hv
    obtain ⟨⟨s, k, b, e, h1, h2, h3, h4⟩, _⟩ := hinv.some v hv
    rw [h4]
    exact ⟨s, k, b, e, (mem_allEntries t s k b e).1 h1, h2, h3, rfl, rfl, rfl⟩

/-- C32: the valence-band maximum, in the same way. -/
theorem C32_vbm (np125 : Bool) (f : RunFiles) (fermi : List Str) (t : EigenTable) (ef : ℚ)
    (hf : f.fermi = some fermi) (hef : getEfermi fermi = .ok ef) (ht : eigenEnergies np125 f = .ok t)
    (hm : isMetal np125 f = .ok false) (hup : t.up ≠ []) :
    ∃ c rest, getVbm np125 f = .ok (some (c :: rest)) ∧
      (∀ x ∈ rest, x.energy = c.energy ∧ x.kpt = c.kpt) ∧
      ((∃ m, IsGreatest {e | t.Has e ∧ e ≤ ef} m ∧ c.energy = some (roundDec 4 m)) ∨
        (∀ e, t.Has e → ef < e) ∧ c.energy = none) ∧
      (∀ v, c.energy = some v → ∃ s k b e, t.At s k b e ∧ e ≤ ef ∧ roundDec 4 e = v ∧
        c.kpt = k + 1 ∧ c.band = b + 1 ∧ c.spin = some s) := by
  have hinv := vbm_foldl ef (allEntries t)
  generalize hc : (allEntries t).foldl (vbmStep ef) ⟨none, 0, 0, none⟩ = c at hinv
  obtain ⟨rest, hedge, hrest⟩ := edgeLists_some t c 0 hup
  refine ⟨c, rest, ?_, hrest, ?_, ?_⟩
  · unfold getVbm
    rw [hm, ok_bind]
    simp only [Bool.false_eq_true, if_false, hf, Option.getD_some, hef, ok_bind, ht, hc, hedge]
    rfl
  · cases hen : c.energy with
    | none =>
      right
      refine ⟨?_, rfl⟩
      rintro e ⟨s, k, b, he⟩
      exact (hinv.none hen).1 _ ((mem_allEntries t s k b e).2 he)
    | some v =>
      left
      obtain ⟨⟨s, k, b, e, h1, h2, h3, -⟩, h4⟩ := hinv.some v hen
      let es := ((allEntries t).map (fun x => x.2.2.2)).filter (fun e => e ≤ ef)
      have hmem : ∀ y, y ∈ es ↔ t.Has y ∧ y ≤ ef := by
        intro y
        simp only [es, List.mem_filter, List.mem_map, decide_eq_true_eq]
        constructor
        · rintro ⟨⟨⟨s, k, b, y'⟩, h, rfl⟩, h'⟩
          exact ⟨⟨s, k, b, (mem_allEntries t s k b y').1 h⟩, h'⟩
        · rintro ⟨⟨s, k, b, h⟩, h'⟩
          exact ⟨⟨_, (mem_allEntries t s k b y).2 h, rfl⟩, h'⟩
      have hene : e ∈ es := (hmem e).2 ⟨⟨s, k, b, (mem_allEntries t s k b e).1 h1⟩, h2⟩
      obtain ⟨m, hm1, hm2⟩ := exists_greatest es (List.ne_nil_of_mem hene)
      refine ⟨m, ⟨(hmem m).1 hm1, fun y hy => hm2 y ((hmem y).2 hy)⟩, ?_⟩
      · have hme : e ≤ m := hm2 e hene
        obtain ⟨⟨s', k', b', hA⟩, hmef⟩ := (hmem m).1 hm1
        have h5 := h4 _ ((mem_allEntries t s' k' b' m).2 hA) hmef
        have h6 := roundDec_mono 4 hme
        rw [h3] at h6
        rw [le_antisymm h6 h5]
  · intro v hv
    obtain ⟨⟨s, k, b, e, h1, h2, h3, h4⟩, _⟩ := hinv.some v hv
    rw [h4]
    exact ⟨s, k, b, e, (mem_allEntries t s k b e).1 h1, h2, h3, rfl, rfl, rfl⟩

/-- C32: a metal gives `None` for both edges, and then gap and gap type are a `TypeError`. -/
theorem C32_metal (np125 : Bool) (f : RunFiles) (hm : isMetal np125 f = .ok true) :
    getCbm np125 f = .ok none ∧ getVbm np125 f = .ok none ∧
      getBandgap np125 f = .error .typeError ∧ getBandgapType np125 f = .error .typeError := by
  have h1 : getCbm np125 f = .ok none := by unfold getCbm; rw [hm]; rfl
  have h2 : getVbm np125 f = .ok none := by unfold getVbm; rw [hm]; rfl
  refine ⟨h1, h2, ?_, ?_⟩
  · unfold getBandgap bandEdges; rw [h1, h2]; rfl
  · unfold getBandgapType bandEdges; rw [h1, h2]; rfl

/-- The example run is not a metal; its edges are 1 and 2. -/
example : isMetal true exampleRun = .ok false ∧
    (getCbm true exampleRun).map (Option.map (List.map Edge.energy)) = .ok (some [some 2]) ∧
    getBandgap true exampleRun = .ok (some 1) ∧ getBandgapType true exampleRun = .ok 0 := by
  decide +kernel

/-! ## C33 -/

/-- C33: a band gap is never negative, and it equals the distance between the exact edges up to 1e-4. -/
theorem C33_gap (np125 : Bool) (f : RunFiles) (g : ℚ) (h : getBandgap np125 f = .ok (some g)) :
    0 ≤ g ∧ ∃ (fermi : List Str) (ef : ℚ) (t : EigenTable) (c v : ℚ), f.fermi = some fermi ∧
      getEfermi fermi = .ok ef ∧ eigenEnergies np125 f = .ok t ∧ IsLeast {e | t.Has e ∧ ef ≤ e} c ∧
      IsGreatest {e | t.Has e ∧ e ≤ ef} v ∧ g = roundDec 4 c - roundDec 4 v ∧
      |g - (c - v)| ≤ 1 / 10000 := by
  unfold getBandgap at h
  obtain ⟨⟨vs, cs⟩, hb, h⟩ := bind_eq_ok.1 h
  simp only at h
  obtain ⟨v, hv, hg1⟩ := bind_eq_ok.1 h
  obtain ⟨c, hc, hg2⟩ := bind_eq_ok.1 hg1
  unfold bandEdges at hb
  obtain ⟨v?, hv?, hb⟩ := bind_eq_ok.1 hb
  obtain ⟨c?, hc?, hb⟩ := bind_eq_ok.1 hb
  -- both results are lists
  match v?, c?, hb with
  | some vl, some cl, hb =>
    obtain ⟨rfl, rfl⟩ := Prod.mk.inj (Except.ok.inj hb)
    have hget := hc?
    unfold getCbm at hget
    obtain ⟨m, hm, hget⟩ := bind_eq_ok.1 hget
    cases m with
    | true => cases hget
    | false =>
      simp only [Bool.false_eq_true, if_false] at hget
      obtain ⟨ef, hef, hget⟩ := bind_eq_ok.1 hget
      obtain ⟨t, ht, hget⟩ := bind_eq_ok.1 hget
      obtain ⟨l, hl, hget⟩ := bind_eq_ok.1 hget
      have hup := (edgeLists_ok hl).1
      have hfe : ∃ fermi, f.fermi = some fermi := by
        unfold isMetal at hm
        split at hm
        · cases hm
        · rename_i rows hr; exact ⟨rows, hr⟩
      obtain ⟨fermi, hfermi⟩ := hfe
      rw [hfermi, Option.getD_some] at hef
      obtain ⟨c', rc, e1, -, e2, -⟩ := C32_cbm np125 f fermi t ef hfermi hef ht hm hup
      obtain ⟨v', rv, e3, -, e4, -⟩ := C32_vbm np125 f fermi t ef hfermi hef ht hm hup
      rw [e1] at hc?
      rw [e3] at hv?
      obtain rfl := Option.some.inj (Except.ok.inj hc?)
      obtain rfl := Option.some.inj (Except.ok.inj hv?)
      obtain rfl := (Except.ok.inj hc).symm
      obtain rfl := (Except.ok.inj hv).symm
      rcases e2 with ⟨mc, hmc, hce⟩ | ⟨_, hce⟩
      · rcases e4 with ⟨mv, hmv, hve⟩ | ⟨_, hve⟩
        · rw [hce, hve] at hg2
          have hg : g = roundDec 4 mc - roundDec 4 mv := (Option.some.inj (Except.ok.inj hg2)).symm
          have hef3 : roundDec 4 ef = ef := by
            unfold getEfermi at hef
            obtain ⟨w, _, hef⟩ := bind_eq_ok.1 hef
            obtain ⟨x, _, hef⟩ := bind_eq_ok.1 hef
            rw [← Except.ok.inj hef]
            exact roundDec_coarse 3 x
          have h1 := roundDec_mono 4 hmc.1.2
          have h2 := roundDec_mono 4 hmv.1.2
          rw [hef3] at h1 h2
          refine ⟨by rw [hg]; linarith, fermi, ef, t, mc, mv, hfermi, hef, ht, hmc, hmv, hg, ?_⟩
          have h3 := abs_le.1 (roundDec_error 4 mc)
          have h4 := abs_le.1 (roundDec_error 4 mv)
          norm_num at h3 h4
          rw [hg, abs_le]
          constructor <;> norm_num <;> linarith [h3.1, h3.2, h4.1, h4.2]
        · rw [hve] at hg2
          cases Except.ok.inj hg2
      · rw [hce] at hg2
        cases hve : v.energy <;> rw [hve] at hg2 <;> cases Except.ok.inj hg2

/-! ## C34 -/

/-- C34: a run is called a metal exactly when, for one of the spins, some band has an energy more than
1e-4 below and an energy more than 1e-4 above the Fermi energy. -/
theorem C34_metal (np125 : Bool) (f : RunFiles) (fermi : List Str) (t : EigenTable) (ef : ℚ)
    (hf : f.fermi = some fermi) (hef : getEfermi fermi = .ok ef) (ht : eigenEnergies np125 f = .ok t) :
    ∃ m, isMetal np125 f = .ok m ∧ (m = true ↔ ∃ s b k1 k2 e1 e2, t.At s k1 b e1 ∧ t.At s k2 b e2 ∧
      e1 < ef - 1 / 10000 ∧ ef + 1 / 10000 < e2) := by
  refine ⟨_, by unfold isMetal; rw [hf]; simp only [hef, ok_bind, ht]; rfl, ?_⟩
  rw [Bool.or_eq_true, bandCrosses_iff _ t.up (eigenEnergies_rect ht .up),
    bandCrosses_iff _ t.down (eigenEnergies_rect ht .down)]
  constructor
  · rintro (⟨b, k1, k2, r1, r2, e1, e2, h1, h2, h3, h4, h5⟩ | ⟨b, k1, k2, r1, r2, e1, e2, h1, h2, h3, h4, h5⟩)
    · exact ⟨.up, b, k1, k2, e1, e2, ⟨r1, h1, h2⟩, ⟨r2, h3, h4⟩, h5⟩
    · exact ⟨.down, b, k1, k2, e1, e2, ⟨r1, h1, h2⟩, ⟨r2, h3, h4⟩, h5⟩
  · rintro ⟨s, b, k1, k2, e1, e2, ⟨r1, h1, h2⟩, ⟨r2, h3, h4⟩, h5⟩
    cases s
    · exact Or.inl ⟨b, k1, k2, r1, r2, e1, e2, h1, h2, h3, h4, h5⟩
    · exact Or.inr ⟨b, k1, k2, r1, r2, e1, e2, h1, h2, h3, h4, h5⟩

/-- C34: without OUT.FERMI the check ends in a `TypeError` (the code raises a string). -/
theorem C34_no_fermi (np125 : Bool) (f : RunFiles) (h : f.fermi = none) :
    isMetal np125 f = .error .typeError := by unfold isMetal; rw [h]

/-- The example run with the Fermi energy inside the first band is a metal. -/
example : isMetal true { exampleRun with fermi := some [chars% "Fermi = 0.75 eV\n"] } = .ok true := by
  decide +kernel

/-! ## C35 -/

/-- C35: the gap is reported direct exactly when the first (and thereby every) reported VBM and CBM
k-point coincide. -/
theorem C35_type (np125 : Bool) (f : RunFiles) (n : ℕ) (h : getBandgapType np125 f = .ok n) :
    ∃ v vs c cs, getVbm np125 f = .ok (some (v :: vs)) ∧ getCbm np125 f = .ok (some (c :: cs)) ∧
      (∀ x ∈ vs, x.kpt = v.kpt) ∧ (∀ x ∈ cs, x.kpt = c.kpt) ∧
      (n = 0 ∨ n = 1) ∧ (n = 1 ↔ v.kpt = c.kpt) := by
  unfold getBandgapType at h
  obtain ⟨⟨vl, cl⟩, hb, h⟩ := bind_eq_ok.1 h
  simp only at h
  unfold bandEdges at hb
  obtain ⟨v?, hv?, hb⟩ := bind_eq_ok.1 hb
  obtain ⟨c?, hc?, hb⟩ := bind_eq_ok.1 hb
  match v?, c?, hb with
  | some vl', some cl', hb =>
    obtain ⟨rfl, rfl⟩ := Prod.mk.inj (Except.ok.inj hb)
    have hc2 := hc?
    have hv2 := hv?
    unfold getCbm at hc2
    unfold getVbm at hv2
    obtain ⟨m, hm, hc2⟩ := bind_eq_ok.1 hc2
    rw [hm, ok_bind] at hv2
    cases m with
    | true => cases hc2
    | false =>
      simp only [Bool.false_eq_true, if_false] at hc2 hv2
      obtain ⟨_, _, hc2⟩ := bind_eq_ok.1 hc2
      obtain ⟨_, _, hc2⟩ := bind_eq_ok.1 hc2
      obtain ⟨l, hl, hc2⟩ := bind_eq_ok.1 hc2
      obtain ⟨_, _, hv2⟩ := bind_eq_ok.1 hv2
      obtain ⟨_, _, hv2⟩ := bind_eq_ok.1 hv2
      obtain ⟨l', hl', hv2⟩ := bind_eq_ok.1 hv2
      obtain rfl := Option.some.inj (Except.ok.inj hc2)
      obtain rfl := Option.some.inj (Except.ok.inj hv2)
      obtain ⟨_, cs, rfl, hcs⟩ := edgeLists_ok hl
      obtain ⟨_, vs, rfl, hvs⟩ := edgeLists_ok hl'
      refine ⟨_, vs, _, cs, hv?, hc?, fun x hx => (hvs x hx).2, fun x hx => (hcs x hx).2, ?_⟩
      split at h
      · rename_i hany
        obtain rfl := (Except.ok.inj h).symm
        refine ⟨Or.inr rfl, ⟨fun _ => ?_, fun _ => rfl⟩⟩
        obtain ⟨k, hk1, hk2⟩ := List.any_eq_true.1 hany
        simp only [decide_eq_true_eq] at hk2
        obtain ⟨x, hx, rfl⟩ := List.mem_map.1 hk1
        obtain ⟨y, hy, hxy⟩ := List.mem_map.1 hk2
        have h1 := (List.mem_cons.1 hx).elim (congrArg Edge.kpt) (fun hx => (hvs x hx).2)
        have h2 := (List.mem_cons.1 hy).elim (congrArg Edge.kpt) (fun hy => (hcs y hy).2)
        rw [← h1, ← h2, hxy]
      · rename_i hany
        obtain rfl := (Except.ok.inj h).symm
        refine ⟨Or.inl rfl, ⟨fun h0 => absurd h0 (by decide), fun h0 => ?_⟩⟩
        exfalso
        apply hany
        rw [List.any_eq_true]
        refine ⟨_, List.mem_map_of_mem (List.mem_cons_self), ?_⟩
        simp only [decide_eq_true_eq]
        rw [h0]
        exact List.mem_map_of_mem List.mem_cons_self

/-- A run with a direct gap: both edges at the second k-point. -/
example : getBandgapType true
    { exampleRun with report := [chars% "NUM_KPT = 2\n", chars% "NUM_BAND = 2\n",
        chars% "eigen energies, in eV\n", chars% "0.5 3.0\n",
        chars% "eigen energies, in eV\n", chars% "1.0 2.0\n"] } = .ok 1 := by
  decide +kernel

/-! ## C36 -/

/-- C36: without spin the table has, for k-point `k` and band `b`, the `b`-th number of block `k`. Any
number of bands, any numpy version. -/
theorem C36_one_spin (np125 : Bool) (f : RunFiles) (hc : f.cached = f.report) (nb : ℕ)
    (blocks : List (List ℚ)) (h : ReportLayout f.report blocks.length nb blocks) :
    eigenEnergies np125 f = .ok ⟨blocks, []⟩ := by
  rw [eigenEnergies_layout np125 f hc _ nb blocks h]
  simp [spinAssert, Except.bind]

/-- C36: with two spins, at least three bands and numpy before 1.25, the second half of the blocks goes to
the second spin. Missing against the claim: other band counts and numpy versions, where the code raises,
see `C36_two_spins_error`. -/
theorem C36_two_spins_partial (f : RunFiles) (hc : f.cached = f.report) (nk nb : ℕ) (hnk : 0 < nk)
    (hnb : 3 ≤ nb) (up down : List (List ℚ)) (hu : up.length = nk) (hd : down.length = nk)
    (h : ReportLayout f.report nk nb (up ++ down)) :
    eigenEnergies false f = .ok ⟨up, down⟩ := by
  rw [eigenEnergies_layout false f hc nk nb _ h]
  have h1 : (up ++ down).take nk = up := by rw [← hu]; simp
  have h2 : (up ++ down).drop nk = down := by rw [← hu]; simp
  rw [h1, h2]
  have hup : up ≠ [] := by intro h0; rw [h0] at hu; simp at hu; omega
  match down, hd, h with
  | [], hd, _ => simp at hd; omega
  | d :: ds, _, h =>
    have hw : npWidth (d :: ds) = nb := h.size d (by simp)
    have hs : spinAssert false ⟨up, d :: ds⟩ = .ok () := by
      unfold spinAssert
      simp only
      split
      · rfl
      · rw [if_neg (by simpa using hup), if_neg (by rw [hw]; omega)]
        rfl
    rw [hs]
    rfl

/-- C36 is violated for spin-polarised runs: with numpy 1.25 or later, and for one or two bands with any
numpy, every such REPORT is refused with `ValueError`, because the final assertion compares the shape of one
array with the other array. -/
theorem C36_two_spins_error (np125 : Bool) (f : RunFiles) (hc : f.cached = f.report) (nk nb : ℕ)
    (hnk : 0 < nk) (hnb : 0 < nb) (hbad : np125 = true ∨ nb ≤ 2) (up down : List (List ℚ))
    (hu : up.length = nk) (hd : down.length = nk) (h : ReportLayout f.report nk nb (up ++ down)) :
    eigenEnergies np125 f = .error .valueError := by
  rw [eigenEnergies_layout np125 f hc nk nb _ h]
  have h1 : (up ++ down).take nk = up := by rw [← hu]; simp
  have h2 : (up ++ down).drop nk = down := by rw [← hu]; simp
  rw [h1, h2]
  have hup : up ≠ [] := by intro h0; rw [h0] at hu; simp at hu; omega
  match down, hd, h with
  | [], hd, _ => simp at hd; omega
  | d :: ds, _, h =>
    have hdl : d.length = nb := h.size d (by simp)
    have hw : npWidth (d :: ds) = nb := hdl
    have hs : spinAssert np125 ⟨up, d :: ds⟩ = .error .valueError := by
      unfold spinAssert
      simp only
      rw [if_neg, if_neg (by simpa using hup)]
      · rcases hbad with hb | hb
        · split
          · rfl
          · rfl
        · rw [if_pos (by rw [hw]; omega)]
      · intro h0
        rw [List.flatten_eq_nil_iff] at h0
        have := h0 d (by simp)
        rw [this] at hdl
        simp at hdl; omega
    rw [hs]
    rfl

/-- C36: a REPORT without the counts is refused. -/
theorem C36_missing (np125 : Bool) (f : RunFiles) (h : ∀ r ∈ f.report, ¬ (chars% "NUM_KPT") <:+: r) :
    eigenEnergies np125 f = .error .indexError := by
  unfold eigenEnergies numKpts
  rw [reportCount_missing f _ h]
  rfl

/-- The example run has the layout of C36. -/
example : ReportLayout exampleRun.report 2 2 [[1 / 2, 2], [1, 3]] where
  kpts := ⟨chars% "NUM_KPT = 2\n", ⟨[], _, rfl, by decide +kernel, by simp⟩,
    [chars% "NUM_KPT", chars% "="], chars% "2", by decide +kernel, by decide, by decide +kernel, by decide +kernel⟩
  bands := ⟨chars% "NUM_BAND = 2\n", ⟨[chars% "NUM_KPT = 2\n"], _, rfl, by decide +kernel, by decide +kernel⟩,
    [chars% "NUM_BAND", chars% "="], chars% "2", by decide +kernel, by decide, by decide +kernel, by decide +kernel⟩
  eigen := ⟨[chars% "NUM_KPT = 2\n", chars% "NUM_BAND = 2\n"],
    [[chars% "eigen energies, in eV\n", chars% "0.5 2.0\n"],
     [chars% "eigen energies, in eV\n", chars% "1.0 3.0\n"]], rfl, by decide +kernel,
    .cons ⟨⟨_, [chars% "0.5 2.0\n"], [], rfl, by decide +kernel,
        .last _ _ (by simp) (by simp) (.cons (by decide +kernel) (.cons (by decide +kernel) .nil)), by decide +kernel⟩⟩
    (.cons ⟨⟨_, [chars% "1.0 3.0\n"], [], rfl, by decide +kernel,
        .last _ _ (by simp) (by simp) (.cons (by decide +kernel) (.cons (by decide +kernel) .nil)), by decide +kernel⟩⟩
      .nil)⟩
  size := by simp

/-- Seven bands over two rows. -/
example : eigenEnergies true ⟨[chars% "NUM_KPT = 1\n", chars% "NUM_BAND = 7\n",
      chars% "eigen energies, in eV\n", chars% "1 2 3 4 5\n", chars% "6 7\n"],
    [chars% "NUM_KPT = 1\n", chars% "NUM_BAND = 7\n"], none⟩ = .ok ⟨[[1, 2, 3, 4, 5, 6, 7]], []⟩ := by
  decide +kernel

/-! ## C66 -/

/-- C66: with nothing else cached for the path, the counts are those written in the file. Missing against
the claim: later reads of an overwritten file, see `C66_stale`. -/
theorem C66_first_read_partial (f : RunFiles) (hc : f.cached = f.report) (nk nb : ℕ) (rk rb : Str)
    (h1 : FirstWith f.report (chars% "NUM_KPT") rk) (h1' : LastCount rk nk)
    (h2 : FirstWith f.report (chars% "NUM_BAND") rb) (h2' : LastCount rb nb) :
    numKpts f = .ok (nk : Int) ∧ numBands f = .ok (nb : Int) :=
  ⟨reportCount_ok f hc _ _ _ h1 h1', reportCount_ok f hc _ _ _ h2 h2'⟩

/-- A REPORT with seven bands, written over one with five bands that was read before. -/
def overwrittenRun : RunFiles :=
  ⟨[chars% "NUM_KPT = 1\n", chars% "NUM_BAND = 7\n", chars% "eigen energies, in eV\n",
      chars% "1 2 3 4 5\n", chars% "6 7\n"],
   [chars% "NUM_KPT = 1\n", chars% "NUM_BAND = 5\n", chars% "eigen energies, in eV\n",
      chars% "1 2 3 4 5\n"], none⟩

/-- C66 is false for overwritten files: the old band count is used and two bands are silently lost. -/
theorem C66_stale : numBands overwrittenRun = .ok 5 ∧
    (∀ np125, eigenEnergies np125 overwrittenRun = .ok ⟨[[1, 2, 3, 4, 5]], []⟩) ∧
    (∀ np125, eigenEnergies np125 { overwrittenRun with cached := overwrittenRun.report }
      = .ok ⟨[[1, 2, 3, 4, 5, 6, 7]], []⟩) := by
  decide +kernel

/-! ## C67 -/

/-- C67: the gap type is right when each edge occurs at one k-point only: then the gap is reported direct
exactly when some k-point holds both edges. Missing against the claim: edges that occur at several k-points,
see `C67_degenerate`. -/
theorem C67_unique_partial (np125 : Bool) (f : RunFiles) (fermi : List Str) (t : EigenTable) (ef : ℚ)
    (hf : f.fermi = some fermi) (hef : getEfermi fermi = .ok ef) (ht : eigenEnergies np125 f = .ok t)
    (c v : ℚ) (hc : IsLeast {e | t.Has e ∧ ef ≤ e} c) (hv : IsGreatest {e | t.Has e ∧ e ≤ ef} v)
    (kc kv : ℕ)
    (huc : ∀ s k b e, t.At s k b e → ef ≤ e → roundDec 4 e = roundDec 4 c → k = kc)
    (huv : ∀ s k b e, t.At s k b e → e ≤ ef → roundDec 4 e = roundDec 4 v → k = kv)
    (n : ℕ) (h : getBandgapType np125 f = .ok n) :
    n = 1 ↔ ∃ k s b s' b', t.At s k b c ∧ t.At s' k b' v := by
  obtain ⟨ve, vs, ce, cs, h1, h2, -, -, -, h3⟩ := C35_type np125 f n h
  have hm : isMetal np125 f = .ok false := by
    unfold getCbm at h2
    obtain ⟨m, hm, h2⟩ := bind_eq_ok.1 h2
    cases m with
    | true => cases h2
    | false => exact hm
  have hup : t.up ≠ [] := by
    unfold getCbm at h2
    rw [hm, ok_bind] at h2
    simp only [Bool.false_eq_true, if_false, hf, Option.getD_some, hef, ok_bind, ht] at h2
    obtain ⟨l, hl, _⟩ := bind_eq_ok.1 h2
    exact (edgeLists_ok hl).1
  obtain ⟨c1, r1, e1, -, e2, e3⟩ := C32_cbm np125 f fermi t ef hf hef ht hm hup
  obtain ⟨v1, r2, e4, -, e5, e6⟩ := C32_vbm np125 f fermi t ef hf hef ht hm hup
  rw [h2] at e1
  rw [h1] at e4
  obtain ⟨rfl, -⟩ := List.cons.inj (Option.some.inj (Except.ok.inj e1))
  obtain ⟨rfl, -⟩ := List.cons.inj (Option.some.inj (Except.ok.inj e4))
  have hce : ce.energy = some (roundDec 4 c) := by
    rcases e2 with ⟨m, hm1, hm2⟩ | ⟨hall, _⟩
    · rw [hm2, hm1.unique hc]
    · exact absurd hc.1.2 (not_le.2 (hall c hc.1.1))
  have hve : ve.energy = some (roundDec 4 v) := by
    rcases e5 with ⟨m, hm1, hm2⟩ | ⟨hall, _⟩
    · rw [hm2, hm1.unique hv]
    · exact absurd hv.1.2 (not_le.2 (hall v hv.1.1))
  obtain ⟨s, k, b, e, g1, g2, g3, g4, -, -⟩ := e3 _ hce
  obtain ⟨s', k', b', e', g1', g2', g3', g4', -, -⟩ := e6 _ hve
  have hk := huc s k b e g1 g2 g3
  have hk' := huv s' k' b' e' g1' g2' g3'
  obtain ⟨⟨sc, kc', bc, hAc⟩, hcef⟩ := hc.1
  obtain ⟨⟨sv, kv', bv, hAv⟩, hvef⟩ := hv.1
  have hkc := huc sc kc' bc c hAc hcef rfl
  have hkv := huv sv kv' bv v hAv hvef rfl
  rw [h3, g4, g4', hk, hk']
  constructor
  · intro heq
    have : kv = kc := by omega
    refine ⟨kc, sc, bc, sv, bv, by rw [← hkc]; exact hAc, ?_⟩
    rw [← this, ← hkv]; exact hAv
  · rintro ⟨k0, s0, b0, s0', b0', hA, hA'⟩
    have := huc s0 k0 b0 c hA hcef rfl
    have := huv s0' k0 b0' v hA' hvef rfl
    omega

/-- The hypotheses of C67 on the edges hold for the example run: VBM 1 at the second k-point, CBM 2 at the
first. -/
example : eigenEnergies true exampleRun = .ok ⟨[[1 / 2, 2], [1, 3]], []⟩ ∧
    ∀ s k b e, (⟨[[1 / 2, 2], [1, 3]], []⟩ : EigenTable).At s k b e →
      (3 / 2 ≤ e → roundDec 4 e = roundDec 4 2 → k = 0) ∧ (e ≤ 3 / 2 → roundDec 4 e = roundDec 4 1 → k = 1) := by
  constructor
  · decide +kernel
  · intro s k b e h
    have := (mem_allEntries _ s k b e).2 h
    have hall : ∀ x ∈ allEntries ⟨[[1 / 2, 2], [1, 3]], []⟩,
        (3 / 2 ≤ x.2.2.2 → roundDec 4 x.2.2.2 = roundDec 4 2 → x.2.1 = 0) ∧
        (x.2.2.2 ≤ 3 / 2 → roundDec 4 x.2.2.2 = roundDec 4 1 → x.2.1 = 1) := by decide +kernel
    exact hall _ this

/-- A run whose valence-band maximum occurs at both k-points and whose conduction-band minimum at the
second. -/
def degenerateRun : RunFiles :=
  let rows := [chars% "NUM_KPT = 2\n", chars% "NUM_BAND = 2\n",
    chars% "eigen energies, in eV\n", chars% "1.0 3.0\n",
    chars% "eigen energies, in eV\n", chars% "1.0 2.0\n"]
  ⟨rows, rows, some [chars% "Fermi = 1.5 eV\n"]⟩

/-- C67 is false for degenerate edges: the second k-point holds both edges, but the gap is reported
indirect. -/
theorem C67_degenerate (np125 : Bool) : eigenEnergies np125 degenerateRun = .ok ⟨[[1, 3], [1, 2]], []⟩ ∧
    getBandgap np125 degenerateRun = .ok (some 1) ∧ getBandgapType np125 degenerateRun = .ok 0 := by
  cases np125 <;> decide +kernel

/-! ## C68 -/

/-- The edges appended by `edgeLists`. -/
theorem edgeLists_shared (t : EigenTable) (c : Edge) (shift : ℕ) (l : List Edge)
    (h : edgeLists t c shift = .ok (c :: l)) (v : ℚ) (hv : c.energy = some v) (x : Edge) :
    x ∈ l ↔ ∃ s b e, t.At s c.kpt b e ∧ b < npWidth t.up ∧ |e - v| < 1 / 1000 ∧
      x = ⟨some v, c.kpt, b + shift, some s⟩ := by
  unfold edgeLists at h
  split at h
  · cases h
  · obtain ⟨-, rfl⟩ := List.cons.inj (Except.ok.inj h)
    have hs : ∀ s, x ∈ shareEdges t c shift s ↔ ∃ b e, t.At s c.kpt b e ∧ b < npWidth t.up ∧
        |e - v| < 1 / 1000 ∧ x = ⟨some v, c.kpt, b + shift, some s⟩ := by
      intro s
      unfold shareEdges EigenTable.At
      simp only [List.mem_filterMap, List.mem_range, hv]
      constructor
      · rintro ⟨b, hb, hx⟩
        split at hx
        · rename_i row v' hrow hv'
          obtain rfl := Option.some.inj hv'
          split at hx
          · rename_i e he
            split at hx
            · rename_i hlt
              exact ⟨b, e, ⟨row, hrow, he⟩, hb, hlt, (Option.some.inj hx).symm⟩
            · cases hx
          · cases hx
        · cases hx
      · rintro ⟨b, e, ⟨row, hrow, he⟩, hb, hlt, rfl⟩
        refine ⟨b, hb, ?_⟩
        simp only [hrow, he, if_pos hlt]
    rw [List.mem_append, hs, hs]
    constructor
    · rintro (⟨b, e, h⟩ | ⟨b, e, h⟩)
      · exact ⟨.up, b, e, h⟩
      · exact ⟨.down, b, e, h⟩
    · rintro ⟨s, b, e, h⟩
      cases s
      · exact Or.inl ⟨b, e, h⟩
      · exact Or.inr ⟨b, e, h⟩

/-- C68, the CBM: what is appended to the edge: the bands of the *following* k-point whose energy is within
0.001 of the edge, under the k-point number of the edge, counted from 1. Against the claim the k-point is
wrong, see `C68_wrong_bands`. -/
theorem C68_cbm_partial (np125 : Bool) (f : RunFiles) (t : EigenTable) (ht : eigenEnergies np125 f = .ok t)
    (c : Edge) (l : List Edge) (h : getCbm np125 f = .ok (some (c :: l))) (v : ℚ) (hv : c.energy = some v)
    (x : Edge) :
    x ∈ l ↔ ∃ s b e, t.At s c.kpt b e ∧ b < npWidth t.up ∧ |e - v| < 1 / 1000 ∧
      x = ⟨some v, c.kpt, b + 1, some s⟩ := by
  unfold getCbm at h
  cases hm : isMetal np125 f with
  | error e => rw [hm] at h; cases h
  | ok b =>
    rw [hm, ok_bind] at h
    cases b with
    | true => cases h
    | false =>
      simp only [Bool.false_eq_true, if_false] at h
      cases hef : getEfermi (f.fermi.getD []) with
      | error e => rw [hef] at h; cases h
      | ok ef =>
        simp only [hef, ok_bind, ht] at h
        cases hl : edgeLists t ((allEntries t).foldl (cbmStep ef) ⟨none, 0, 0, none⟩) 1 with
        | error e => rw [hl] at h; cases h
        | ok l' =>
          rw [hl, ok_bind] at h
          obtain rfl := Option.some.inj (Except.ok.inj h)
          obtain ⟨c', hc'⟩ : ∃ c', (allEntries t).foldl (cbmStep ef) ⟨none, 0, 0, none⟩ = c' := ⟨_, rfl⟩
          rw [hc'] at hl
          obtain rfl : c' = c := by
            unfold edgeLists at hl
            split at hl
            · cases hl
            · exact (List.cons.inj (Except.ok.inj hl)).1
          exact edgeLists_shared t c' 1 l hl v hv x

/-- C68, the VBM: the same with the bands counted from 0. Against the claim both the k-point and the band
number are wrong, see `C68_wrong_bands`. -/
theorem C68_vbm_partial (np125 : Bool) (f : RunFiles) (t : EigenTable) (ht : eigenEnergies np125 f = .ok t)
    (c : Edge) (l : List Edge) (h : getVbm np125 f = .ok (some (c :: l))) (v : ℚ) (hv : c.energy = some v)
    (x : Edge) :
    x ∈ l ↔ ∃ s b e, t.At s c.kpt b e ∧ b < npWidth t.up ∧ |e - v| < 1 / 1000 ∧
      x = ⟨some v, c.kpt, b, some s⟩ := by
  unfold getVbm at h
  cases hm : isMetal np125 f with
  | error e => rw [hm] at h; cases h
  | ok b =>
    rw [hm, ok_bind] at h
    cases b with
    | true => cases h
    | false =>
      simp only [Bool.false_eq_true, if_false] at h
      cases hef : getEfermi (f.fermi.getD []) with
      | error e => rw [hef] at h; cases h
      | ok ef =>
        simp only [hef, ok_bind, ht] at h
        cases hl : edgeLists t ((allEntries t).foldl (vbmStep ef) ⟨none, 0, 0, none⟩) 0 with
        | error e => rw [hl] at h; cases h
        | ok l' =>
          rw [hl, ok_bind] at h
          obtain rfl := Option.some.inj (Except.ok.inj h)
          obtain ⟨c', hc'⟩ : ∃ c', (allEntries t).foldl (vbmStep ef) ⟨none, 0, 0, none⟩ = c' := ⟨_, rfl⟩
          rw [hc'] at hl
          obtain rfl : c' = c := by
            unfold edgeLists at hl
            split at hl
            · cases hl
            · exact (List.cons.inj (Except.ok.inj hl)).1
          exact edgeLists_shared t c' 0 l hl v hv x

/-- A run whose only k-point-1 band pair is degenerate at the valence edge. -/
def sharedRun : RunFiles :=
  let rows := [chars% "NUM_KPT = 2\n", chars% "NUM_BAND = 3\n",
    chars% "eigen energies, in eV\n", chars% "1.0 1.0 3.0\n",
    chars% "eigen energies, in eV\n", chars% "0.0 0.5 2.0\n"]
  ⟨rows, rows, some [chars% "Fermi = 1.5 eV\n"]⟩

/-- C68 is false: the degenerate second band of the first k-point is missing for `sharedRun`, and for
`degenerateRun` a band numbered 0 of the first k-point is listed although it belongs to the second k-point
and bands count from 1. -/
theorem C68_wrong_bands (np125 : Bool) :
    (getVbm np125 sharedRun) = .ok (some [⟨some 1, 1, 1, some .up⟩]) ∧
    (getVbm np125 degenerateRun) = .ok (some [⟨some 1, 1, 1, some .up⟩, ⟨some 1, 1, 0, some .up⟩]) := by
  cases np125 <;> decide +kernel

/-- A run whose conduction-band minimum occurs, up to 0.001, at the next k-point too. -/
def nextRun : RunFiles :=
  let rows := [chars% "NUM_KPT = 2\n", chars% "NUM_BAND = 2\n",
    chars% "eigen energies, in eV\n", chars% "1.0 2.0\n",
    chars% "eigen energies, in eV\n", chars% "0.5 2.0005\n"]
  ⟨rows, rows, some [chars% "Fermi = 1.5 eV\n"]⟩

/-- The second band of the second k-point is listed under the first k-point, as band 2. -/
example (np125 : Bool) : getCbm np125 nextRun = .ok (some [⟨some 2, 1, 2, some .up⟩, ⟨some 2, 1, 2, some .up⟩]) := by
  cases np125 <;> decide +kernel

end MaterSDK
