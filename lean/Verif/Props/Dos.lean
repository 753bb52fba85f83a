import Verif.Lemmas.DosAux
import Verif.Lemmas.Dos
import Verif.Lemmas.Num

/-!
# C58, C59, C79-C81: densities of states, fat bands and job scripts
-/

namespace MaterSDK



/-! ## C58 -/

/-- C58 (DOS), what the code computes: the elements are the symbols of the columns from the third on; the
value of an element is the sum of its own columns plus the sum of all other columns whose name starts with
its symbol. -/
theorem C58_dos_values (O : SetOrder) (f : Frame) (hE : chars% "Energy" ∈ f.cols) :
    ∃ els : List Str, els.Nodup ∧ (∀ x, x ∈ els ↔ ∃ c ∈ f.cols.drop 2, symbolOf c = x) ∧
      getPdosElements O f = .ok ⟨chars% "Energy" :: els, f.rows.map (fun r =>
        r.getD (f.cols.idxOf (chars% "Energy")) 0
          :: els.map (fun el => ownSum 2 f.cols el r + strangerSum 2 f.cols el r))⟩ := by
  refine ⟨O.toList ((f.cols.drop 2).map colElement), O.nodup _, ?_, ?_⟩
  · intro x
    rw [O.mem, List.mem_map]
    simp only [colElement_eq]
  · unfold getPdosElements
    rw [colIdx_ok hE, ok_bind]
    simp only [maskSum_split 2]
    rfl

/-- C58 (DOS): the value of an element is the sum of its own columns when no symbol is the beginning of
another symbol, nor of the names of the first two columns. Missing: tables with such symbols (S and Si, C and
Co, ...), for which it is false, see `C58_dos_prefix`. -/
theorem C58_dos_partial (O : SetOrder) (f : Frame) (hE : chars% "Energy" ∈ f.cols)
    (h1 : ∀ c ∈ f.cols.drop 2, ∀ d ∈ f.cols.take 2, ¬ symbolOf c <+: d)
    (h2 : ∀ c ∈ f.cols.drop 2, ∀ d ∈ f.cols.drop 2, symbolOf c <+: symbolOf d → symbolOf d = symbolOf c) :
    ∃ els : List Str, els.Nodup ∧ (∀ x, x ∈ els ↔ ∃ c ∈ f.cols.drop 2, symbolOf c = x) ∧
      getPdosElements O f = .ok ⟨chars% "Energy" :: els, f.rows.map (fun r =>
        r.getD (f.cols.idxOf (chars% "Energy")) 0 :: els.map (fun el => ownSum 2 f.cols el r))⟩ := by
  obtain ⟨els, hn, hm, he⟩ := C58_dos_values O f hE
  refine ⟨els, hn, hm, he.trans ?_⟩
  congr 2
  refine List.map_congr_left (fun r _ => ?_)
  congr 1
  refine List.map_congr_left (fun el hel => ?_)
  obtain ⟨c, hc, rfl⟩ := (hm el).1 hel
  rw [strangerSum_zero 2 _ _ _ (symbolOf_no_dash c) (h1 c hc) (h2 c hc), add_zero]

/-- MoS2, the system of the documentation, meets the hypotheses. -/
example : let f : Frame := ⟨[chars% "Energy", chars% "Total", chars% "Mo-5S", chars% "Mo-4D", chars% "S-3P"],
      [[-5, 7, 1, 2, 4]]⟩
    chars% "Energy" ∈ f.cols ∧ (∀ c ∈ f.cols.drop 2, ∀ d ∈ f.cols.take 2, ¬ symbolOf c <+: d) ∧
    (∀ c ∈ f.cols.drop 2, ∀ d ∈ f.cols.drop 2, symbolOf c <+: symbolOf d → symbolOf d = symbolOf c) ∧
    ownSum 2 f.cols (chars% "Mo") [-5, 7, 1, 2, 4] = 3 := by
  decide +kernel

/-- C58 is violated: with sulphur and silicon, the density of silicon is also counted for sulphur. -/
theorem C58_dos_prefix (O : SetOrder) (e t a b : ℚ) :
    ∃ g : Frame, getPdosElements O ⟨[chars% "Energy", chars% "Total", chars% "S-3S", chars% "Si-3S"],
        [[e, t, a, b]]⟩ = .ok g ∧
      (∃ j : ℕ, g.cols[j]? = some (chars% "S") ∧ g.rows.map (fun (r : List ℚ) => r[j]?) = [some (a + b)]) ∧
      (∃ j : ℕ, g.cols[j]? = some (chars% "Si") ∧ g.rows.map (fun (r : List ℚ) => r[j]?) = [some b]) := by
  have hS : maskSum [chars% "Energy", chars% "Total", chars% "S-3S", chars% "Si-3S"]
      (fun c => List.isPrefixOf (chars% "S") c) [e, t, a, b] = a + b := by
    simp [maskSum, List.isPrefixOf]
  have hSi : maskSum [chars% "Energy", chars% "Total", chars% "S-3S", chars% "Si-3S"]
      (fun c => List.isPrefixOf (chars% "Si") c) [e, t, a, b] = b := by
    simp [maskSum, List.isPrefixOf]
  have hc : ([chars% "S-3S", chars% "Si-3S"].map colElement) = [chars% "S", chars% "Si"] := by
    decide +kernel
  unfold getPdosElements
  simp only [List.drop_succ_cons, List.drop_zero, hc]
  rw [colIdx_ok (by simp), ok_bind]
  rcases toList_two O (chars% "S") (chars% "Si") (by decide) with h | h
  · refine ⟨_, rfl, ⟨1, ?_, ?_⟩, ⟨2, ?_, ?_⟩⟩ <;> simp [h, hS, hSi]
  · refine ⟨_, rfl, ⟨2, ?_, ?_⟩, ⟨1, ?_, ?_⟩⟩ <;> simp [h, hS, hSi]

/-- A table without the column `Energy` is refused. -/
theorem C58_dos_no_energy (O : SetOrder) (f : Frame) (hE : chars% "Energy" ∉ f.cols) :
    getPdosElements O f = .error .keyError := by
  unfold getPdosElements
  rw [colIdx, if_neg hE, error_bind]

/-- C58 (fat bands), what the code computes for a table with the usual first three columns. -/
theorem C58_fat_values (O : SetOrder) (rest : List Str) (rows : List (List ℚ)) :
    let cols := [chars% "KPOINT", chars% "ENERGY", chars% "weight_tot"] ++ rest
    ∃ els : List Str, fatElements O ⟨cols, rows⟩ = .ok els ∧ els.Nodup ∧
      (∀ x, x ∈ els ↔ ∃ c ∈ rest, symbolOf c = x) ∧
      fatElementFrame ⟨cols, rows⟩ els
        = .ok ⟨[chars% "KPOINT", chars% "ENERGY", chars% "weight_tot"] ++ els, rows.map (fun r =>
          [r.getD 0 0, r.getD 1 0, r.getD 2 0]
            ++ els.map (fun el => ownSum 3 cols el r + strangerSum 3 cols el r))⟩ := by
  intro cols
  refine ⟨O.toList (rest.map colElement), ?_, O.nodup _, ?_, ?_⟩
  · unfold fatElements
    have h1 : pyRemove cols (chars% "KPOINT") = .ok ([chars% "ENERGY", chars% "weight_tot"] ++ rest) := by
      rw [pyRemove, if_pos (by simp [cols])]
      simp [cols]
    have h2 : pyRemove ([chars% "ENERGY", chars% "weight_tot"] ++ rest) (chars% "ENERGY")
        = .ok ([chars% "weight_tot"] ++ rest) := by
      rw [pyRemove, if_pos (by simp)]
      simp
    have h3 : pyRemove ([chars% "weight_tot"] ++ rest) (chars% "weight_tot") = .ok rest := by
      rw [pyRemove, if_pos (by simp)]
      simp
    rw [h1, ok_bind, h2, ok_bind, h3, ok_bind]
    rfl
  · intro x
    rw [O.mem, List.mem_map]
    simp only [colElement_eq]
  · unfold fatElementFrame
    have i0 : cols.idxOf (chars% "KPOINT") = 0 := by simp [cols]
    have i1 : cols.idxOf (chars% "ENERGY") = 1 := by simp [cols]
    have i2 : cols.idxOf (chars% "weight_tot") = 2 := by simp [cols]
    rw [colIdx_ok (by simp [cols]), ok_bind, colIdx_ok (by simp [cols]), ok_bind,
      colIdx_ok (by simp [cols]), ok_bind, i0, i1, i2]
    simp only [maskSum_split 3]
    rfl

/-- C58 (fat bands): the weight of an element is the sum of its own columns when no symbol is the beginning
of another symbol, nor of `KPOINT`, `ENERGY` or `weight_tot`. Missing: other tables, see
`C58_fat_potassium`. -/
theorem C58_fat_partial (O : SetOrder) (rest : List Str) (rows : List (List ℚ))
    (h1 : ∀ c ∈ rest, ∀ d ∈ [chars% "KPOINT", chars% "ENERGY", chars% "weight_tot"], ¬ symbolOf c <+: d)
    (h2 : ∀ c ∈ rest, ∀ d ∈ rest, symbolOf c <+: symbolOf d → symbolOf d = symbolOf c) :
    let cols := [chars% "KPOINT", chars% "ENERGY", chars% "weight_tot"] ++ rest
    ∃ els : List Str, fatElements O ⟨cols, rows⟩ = .ok els ∧ els.Nodup ∧
      (∀ x, x ∈ els ↔ ∃ c ∈ rest, symbolOf c = x) ∧
      fatElementFrame ⟨cols, rows⟩ els
        = .ok ⟨[chars% "KPOINT", chars% "ENERGY", chars% "weight_tot"] ++ els, rows.map (fun r =>
          [r.getD 0 0, r.getD 1 0, r.getD 2 0] ++ els.map (fun el => ownSum 3 cols el r))⟩ := by
  intro cols
  obtain ⟨els, h0, hn, hm, he⟩ := C58_fat_values O rest rows
  refine ⟨els, h0, hn, hm, he.trans ?_⟩
  congr 2
  refine List.map_congr_left (fun r _ => ?_)
  congr 1
  refine List.map_congr_left (fun el hel => ?_)
  obtain ⟨c, hc, rfl⟩ := (hm el).1 hel
  rw [strangerSum_zero 3 _ _ _ (symbolOf_no_dash c) (by simpa using h1 c hc) (by simpa using h2 c hc),
    add_zero]

/-- C58 is violated for potassium: the position of the k-point is added to its weight. -/
theorem C58_fat_potassium (O : SetOrder) (k e t w : ℚ) :
    let f : Frame := ⟨[chars% "KPOINT", chars% "ENERGY", chars% "weight_tot", chars% "K-4S"], [[k, e, t, w]]⟩
    fatElements O f = .ok [chars% "K"] ∧
    fatElementFrame f [chars% "K"]
      = .ok ⟨[chars% "KPOINT", chars% "ENERGY", chars% "weight_tot", chars% "K"], [[k, e, t, k + w]]⟩ := by
  intro f
  constructor
  · have h0 : (do
        let c ← pyRemove [chars% "KPOINT", chars% "ENERGY", chars% "weight_tot", chars% "K-4S"] (chars% "KPOINT")
        let c ← pyRemove c (chars% "ENERGY")
        pyRemove c (chars% "weight_tot")) = .ok [chars% "K-4S"] := by decide +kernel
    obtain ⟨a, ha, h0⟩ := bind_eq_ok.1 h0
    obtain ⟨b, hb, hc⟩ := bind_eq_ok.1 h0
    unfold fatElements
    change (do
      let c ← pyRemove [chars% "KPOINT", chars% "ENERGY", chars% "weight_tot", chars% "K-4S"] (chars% "KPOINT")
      _) = _
    rw [ha, ok_bind, hb, ok_bind, hc, ok_bind]
    have : [chars% "K-4S"].map colElement = [chars% "K"] := by decide +kernel
    rw [this, toList_one]
    rfl
  · have hK : maskSum f.cols (fun c => List.isPrefixOf (chars% "K") c) [k, e, t, w] = k + w := by
      simp [maskSum, List.isPrefixOf, f]
    unfold fatElementFrame
    have i0 : f.cols.idxOf (chars% "KPOINT") = 0 := by simp [f]
    have i1 : f.cols.idxOf (chars% "ENERGY") = 1 := by simp [f]
    have i2 : f.cols.idxOf (chars% "weight_tot") = 2 := by simp [f]
    rw [colIdx_ok (by simp [f]), ok_bind, colIdx_ok (by simp [f]), ok_bind,
      colIdx_ok (by simp [f]), ok_bind, i0, i1, i2]
    have hr : f.rows = [[k, e, t, w]] := rfl
    simp only [hr, List.map_cons, List.map_nil, hK]
    rfl

/-! ## C79: one table per band -/

/-- C79: for a file with two or more bands of equally many k-points, the tables are those of the bands, in
order; so are the tables of element weights. Missing: files with one band, see `C79_single_band`. -/
theorem C79_bands_partial (O : SetOrder) (hdr : Str) (rest : List Str) (bands : List BandText) (nk : ℕ)
    (hh : strIn (chars% "BAND") (upper hdr) = false)
    (hcols : split hdr = [chars% "KPOINT", chars% "ENERGY", chars% "weight_tot"] ++ rest)
    (hnd : (split hdr).Nodup) (hnb : 2 ≤ bands.length)
    (h : ∀ b ∈ bands, b.Wellformed (split hdr).length nk) :
    fatTotal O (fatText hdr bands)
      = .ok (bands.map (fun b => ⟨split hdr, b.vals.map (scaleK (split hdr))⟩)) ∧
    ∃ els : List Str, els.Nodup ∧ (∀ x, x ∈ els ↔ ∃ c ∈ rest, symbolOf c = x) ∧
      fatElementDfs O (fatText hdr bands)
        = .ok (bands.map (fun b => ⟨[chars% "KPOINT", chars% "ENERGY", chars% "weight_tot"] ++ els,
            (b.vals.map (scaleK (split hdr))).map (fun r => [r.getD 0 0, r.getD 1 0, r.getD 2 0]
              ++ els.map (fun el => ownSum 3 (split hdr) el r + strangerSum 3 (split hdr) el r))⟩)) := by
  have hh' : strIn (chars% "BAND") hdr = false := by
    cases hc : strIn (chars% "BAND") hdr with
    | false => rfl
    | true => rw [band_upper hc] at hh; cases hh
  have hk : chars% "KPOINT" ∈ split hdr := by rw [hcols]; simp
  have hframe := fatFrame_text hdr bands nk hh' hnd hk h
  obtain ⟨els, hel, hnodup, hm, hg0⟩ := C58_fat_values O rest
    (bands.flatMap (fun b => b.vals.map (scaleK (split hdr))))
  rw [← hcols] at hel hg0
  have hvl : ∀ b ∈ bands, b.vals.length = nk := by
    intro b hb
    rw [← (h b hb).points, (h b hb).reads.length_eq]
  obtain ⟨b, c, bands', rfl⟩ : ∃ b c bands', bands = b :: c :: bands' := by
    match bands, hnb with
    | b :: c :: bs, _ => exact ⟨b, c, bs, rfl⟩
  have hcount := fatCounts_text hdr b c bands' _ nk hh h
  have hinit : fatInit O (fatText hdr (b :: c :: bands')) = .ok ((b :: c :: bands').length,
      ⟨split hdr, (b :: c :: bands').flatMap (fun b => b.vals.map (scaleK (split hdr)))⟩, els) := by
    unfold fatInit
    rw [hcount, ok_bind, hframe, ok_bind, hel, ok_bind]
    rfl
  generalize hB : b :: c :: bands' = bands at *
  have hne : bands ≠ [] := by rw [← hB]; simp
  constructor
  · unfold fatTotal
    rw [hinit, ok_bind]
    have := arraySplit_flatten (bands.map (fun b => b.vals.map (scaleK (split hdr)))) nk (by
      intro p hp
      obtain ⟨x, hx, rfl⟩ := List.mem_map.1 hp
      rw [List.length_map, hvl x hx]) (by simpa using hne)
    rw [List.length_map, ← flatMap_map_flatten] at this
    simp only [this, ok_bind]
    rw [List.map_map]
    rfl
  · refine ⟨els, hnodup, hm, ?_⟩
    unfold fatElementDfs
    rw [hinit, ok_bind]
    simp only
    rw [hg0, ok_bind]
    have := arraySplit_flatten (bands.map (fun b => (b.vals.map (scaleK (split hdr))).map
      (fun r => [r.getD 0 0, r.getD 1 0, r.getD 2 0]
        ++ els.map (fun el => ownSum 3 (split hdr) el r + strangerSum 3 (split hdr) el r)))) nk (by
      intro p hp
      obtain ⟨x, hx, rfl⟩ := List.mem_map.1 hp
      rw [List.length_map, List.length_map, hvl x hx]) (by simpa using hne)
    rw [List.length_map, ← flatMap_map_flatten] at this
    simp only [List.map_flatMap, this, ok_bind]
    rw [List.map_map]
    rfl

/-- C79 is violated for a file with a single band: it cannot be read. -/
theorem C79_single_band (O : SetOrder) (hdr : Str) (b : BandText) (w nk : ℕ)
    (hh : strIn (chars% "BAND") (upper hdr) = false) (h : b.Wellformed w nk) :
    fatTotal O (fatText hdr [b]) = .error .indexError ∧
    fatElementDfs O (fatText hdr [b]) = .error .indexError := by
  have hlen : (lineLocate (fatText hdr [b]) (chars% "BAND")).length = 1 := by
    unfold lineLocate fatText
    rw [lineLocateFrom, if_neg (by rw [hh]; simp)]
    exact fat_locate [b] w nk (by simpa using h) _
  have hc : fatCounts (fatText hdr [b]) = .error .indexError := by
    unfold fatCounts
    have : pyGet (lineLocate (fatText hdr [b]) (chars% "BAND")) 1 = .error .indexError := by
      rw [pyGet, List.getElem?_eq_none (by omega)]
    simp only [this, error_bind]
  have hi : fatInit O (fatText hdr [b]) = .error .indexError := by
    unfold fatInit
    rw [hc, error_bind]
  constructor
  · unfold fatTotal
    rw [hi, error_bind]
  · unfold fatElementDfs
    rw [hi, error_bind]

/-- A band with one k-point in the layout of the tool. -/
def bandExample (e : Str) (v : ℚ) (_h : parseFloat e = .ok v := by decide +kernel) : BandText :=
  ⟨chars% "BAND   1\n", [chars% " 0.5 " ++ e ++ chars% " 1.0 0.25 0.75\n"], [[1 / 2, v, 1, 1 / 4, 3 / 4]], [['\n']]⟩

/-- The hypotheses are met by a file with two bands, a k-point and two elements. -/
example : let hdr : Str := chars% "KPOINT ENERGY weight_tot Mo-4D S-3P\n"
    let bands := [bandExample (chars% "-1.5") (-3 / 2), bandExample (chars% "2.25") (9 / 4)]
    strIn (chars% "BAND") (upper hdr) = false ∧
    split hdr = [chars% "KPOINT", chars% "ENERGY", chars% "weight_tot"] ++ [chars% "Mo-4D", chars% "S-3P"] ∧
    (split hdr).Nodup ∧ 2 ≤ bands.length ∧ ∀ b ∈ bands, b.Wellformed (split hdr).length 1 := by
  refine ⟨by decide +kernel, by decide +kernel, by decide +kernel, by decide, ?_⟩
  intro b hb
  simp only [List.mem_cons, List.not_mem_nil, or_false] at hb
  rcases hb with rfl | rfl
  · exact ⟨by decide +kernel, by decide +kernel, by decide +kernel, by decide +kernel, by decide +kernel,
      by decide +kernel, by decide +kernel⟩
  · exact ⟨by decide +kernel, by decide +kernel, by decide +kernel, by decide +kernel, by decide +kernel,
      by decide +kernel, by decide +kernel⟩

/-! ## C80: tables of the DOS file -/

/-- C80: a header with `#` as a word of its own (or without it) gives the table of the file: the header words
as column names and the numbers of the rows. Missing: `#` glued to the first name, see `C80_glued`. -/
theorem C80_file_partial (first : Str) (rest : List Str) (names : List Str) (vals : List (List ℚ))
    (hfirst : split first = ['#'] :: names ∨ split first = names) (hn : names.Nodup) (hne : names ≠ [])
    (hhash : ['#'] ∉ names)
    (hvals : List.Forall₂ (fun r vs => List.Forall₂ (fun x v => parseFloat x = .ok v) (split r) vs) rest vals)
    (hw : ∀ vs ∈ vals, vs.length = names.length) :
    dosFrame (first :: rest) = .ok ⟨names, vals⟩ := by
  have hH : dosHeader first = names := by
    unfold dosHeader
    rcases hfirst with h | h
    · rw [h, List.erase_cons_head]
    · rw [h, List.erase_of_not_mem hhash]
  have hwords : ∀ w ∈ names, w ≠ [] ∧ ∀ c ∈ w, isSpace c = false := by
    intro w hw
    refine split_words first w ?_
    rcases hfirst with h | h <;> rw [h] <;> simp [hw]
  unfold dosFrame dosBackup
  rw [ok_bind, hH]
  have hs := split_join names hwords
  rw [readCsv_eq _ _ (by rw [hs]; exact hne), hs, mangleFrom_nodup [] _ hn (by simp)]
  have hf : (rest.map split).filter (fun ws => ws ≠ []) = rest.map split := by
    rw [List.filter_eq_self]
    intro ws hws
    obtain ⟨r, hr, rfl⟩ := List.mem_map.1 hws
    obtain ⟨vs, hvs, hf⟩ := forall₂_mem_left hvals r hr
    have : (split r).length = names.length := by rw [hf.length_eq, hw vs hvs]
    have : split r ≠ [] := by
      intro e; rw [e] at this; simp at this; exact hne (List.length_eq_zero_iff.1 this.symm)
    simpa using this
  rw [hf]
  have hm : (rest.map split).mapM (fun (ws : List Str) =>
      if ws.length = names.length then ws.mapM parseFloat else .error .valueError)
      = (.ok vals : Except PyErr (List (List ℚ))) := by
    rw [mapM_eq_ok, List.forall₂_map_left_iff]
    clear hf
    induction hvals with
    | nil => exact .nil
    | cons hx _ ih =>
      refine .cons (csvRow_ok _ _ _ hx (hw _ List.mem_cons_self)) (ih ?_)
      intro vs hvs
      exact hw vs (List.mem_cons_of_mem _ hvs)
  rw [hm, ok_bind]
  rfl

/-- C80: `get_tdos` returns the columns `Energy` and `Total` (or, without `Total`, `total`); without them it
is a `KeyError`. -/
theorem C80_tdos (f : Frame) :
    (chars% "Energy" ∈ f.cols → chars% "Total" ∈ f.cols →
      getTdos f = .ok ⟨[chars% "Energy", chars% "Total"], f.rows.map (fun r =>
        [r.getD (f.cols.idxOf (chars% "Energy")) 0, r.getD (f.cols.idxOf (chars% "Total")) 0])⟩) ∧
    (chars% "Energy" ∈ f.cols → chars% "Total" ∉ f.cols → chars% "total" ∈ f.cols →
      getTdos f = .ok ⟨[chars% "Energy", chars% "total"], f.rows.map (fun r =>
        [r.getD (f.cols.idxOf (chars% "Energy")) 0, r.getD (f.cols.idxOf (chars% "total")) 0])⟩) ∧
    (chars% "Energy" ∉ f.cols ∨ (chars% "Total" ∉ f.cols ∧ chars% "total" ∉ f.cols) →
      getTdos f = .error .keyError) := by
  refine ⟨?_, ?_, ?_⟩
  · intro h1 h2
    unfold getTdos
    rw [if_pos ⟨h1, h2⟩]
    rfl
  · intro h1 h2 h3
    unfold getTdos
    rw [if_neg (fun h => h2 h.2), colIdx_ok h1, ok_bind, colIdx_ok h3, ok_bind]
    rfl
  · intro h
    unfold getTdos
    rw [if_neg (by rintro ⟨h1, h2⟩; rcases h with h | h; exacts [h h1, h.1 h2])]
    by_cases hE : chars% "Energy" ∈ f.cols
    · rcases h with h | h
      · exact absurd hE h
      · rw [colIdx_ok hE, ok_bind, colIdx, if_neg h.2, error_bind]
    · rw [colIdx, if_neg hE, error_bind]

/-- C80: `get_pdos_orbitals` returns every column but the total, in order. -/
theorem C80_orbitals (a b : List Str) (x : Str) (rows : List (List ℚ))
    (hx : x = chars% "Total" ∨ (x = chars% "total" ∧ chars% "Total" ∉ a ++ b)) (ha : x ∉ a) :
    getPdosOrbitals ⟨a ++ x :: b, rows⟩
      = .ok ⟨a ++ b, rows.map (fun r => r.take a.length ++ r.drop (a.length + 1))⟩ := by
  have hi : (a ++ x :: b).idxOf x = a.length := by
    rw [List.idxOf_append_of_notMem ha]; simp
  unfold getPdosOrbitals
  have : (if chars% "Total" ∈ a ++ x :: b then colIdx (a ++ x :: b) (chars% "Total")
      else colIdx (a ++ x :: b) (chars% "total")) = .ok a.length := by
    rcases hx with rfl | ⟨rfl, hT⟩
    · rw [if_pos (by simp), colIdx_ok (by simp), hi]
    · rw [if_neg (by
        intro h
        apply hT
        rw [List.mem_append, List.mem_cons] at h
        rcases h with h | h | h
        · exact List.mem_append_left _ h
        · exact absurd h (by decide)
        · exact List.mem_append_right _ h), colIdx_ok (by simp), hi]
  simp only [this, ok_bind]
  change Except.ok _ = Except.ok _
  congr 2
  · rw [List.eraseIdx_append_of_length_le (le_refl _)]; simp
  · refine List.map_congr_left (fun r _ => ?_)
    exact List.eraseIdx_eq_take_drop_succ r _

/-- C80 is violated when `#` is glued to the first name: reading succeeds, the energy is not found. -/
theorem C80_glued (O : SetOrder) :
    ∃ f, dosFrame [chars% "#Energy Total Mo-4D\n", chars% "-1.5 2.0 2.0\n"] = .ok f ∧
      getTdos f = .error .keyError ∧ getPdosElements O f = .error .keyError := by
  refine ⟨⟨[chars% "#Energy", chars% "Total", chars% "Mo-4D"], [[-3 / 2, 2, 2]]⟩, by decide +kernel,
    by decide +kernel, ?_⟩
  exact C58_dos_no_energy O _ (by decide)

/-- The file of the documentation. -/
example : dosFrame [chars% "#   Energy  Total  Mo-4D\n", chars% "-1.5 2.0 2.0\n"]
    = .ok ⟨[chars% "Energy", chars% "Total", chars% "Mo-4D"], [[-3 / 2, 2, 2]]⟩ := by decide +kernel

/-! ## C59 -/

/-- The rows of every generated script (partition and name without line breaks). -/
theorem C59_rows (j : Job) (hp : '\n' ∉ showOpt id j.partition) (hn : '\n' ∉ showOpt id j.name) :
    fileLines (jobText j) =
      [chars% "#!/bin/bash\n",
       chars% "#SBATCH --partition=" ++ showOpt id j.partition ++ ['\n'],
       chars% "#SBATCH --job-name=" ++ showOpt id j.name ++ ['\n'],
       chars% "#SBATCH --nodes=" ++ showOpt showInt j.numNodes ++ ['\n'],
       chars% "#SBATCH --ntasks-per-node=" ++ showOpt showInt j.numTasks ++ ['\n'],
       chars% "#SBATCH --threads-per-core=" ++ showOpt showInt j.threads
         ++ chars% "#SBATCH --gres=gpu:" ++ showOpt showInt j.numGpus
         ++ chars% "#SBATCH --gpus-per-task=" ++ showOpt showInt j.gpusPerTask ++ ['\n'],
       ['\n'], ['\n']] ++ fileLines (showOpt id j.command) := by
  have e : jobText j = chars% "#!/bin/bash" ++ '\n' :: ((chars% "#SBATCH --partition=" ++ showOpt id j.partition)
      ++ '\n' :: ((chars% "#SBATCH --job-name=" ++ showOpt id j.name)
      ++ '\n' :: ((chars% "#SBATCH --nodes=" ++ showOpt showInt j.numNodes)
      ++ '\n' :: ((chars% "#SBATCH --ntasks-per-node=" ++ showOpt showInt j.numTasks)
      ++ '\n' :: ((chars% "#SBATCH --threads-per-core=" ++ showOpt showInt j.threads
         ++ chars% "#SBATCH --gres=gpu:" ++ showOpt showInt j.numGpus
         ++ chars% "#SBATCH --gpus-per-task=" ++ showOpt showInt j.gpusPerTask)
      ++ '\n' :: ([] ++ '\n' :: ([] ++ '\n' :: showOpt id j.command))))))) := by
    simp only [jobText, List.append_assoc]
    rfl
  have h1 := showOptInt_no_newline j.numNodes
  have h2 := showOptInt_no_newline j.numTasks
  have h3 := showOptInt_no_newline j.threads
  have h4 := showOptInt_no_newline j.numGpus
  have h5 := showOptInt_no_newline j.gpusPerTask
  rw [e, fileLines_row (by decide), fileLines_row (by simp [hp]), fileLines_row (by simp [hn]),
    fileLines_row (by simp [h1]), fileLines_row (by simp [h2]), fileLines_row (by simp [h3, h4, h5]),
    fileLines_row (by simp), fileLines_row (by simp)]
  simp

/-- C59: the first four directives stand on rows of their own. Missing: the other three, which are joined in
one row, see `C59_joined`. -/
theorem C59_first_partial (j : Job) (hp : '\n' ∉ showOpt id j.partition) (hn : '\n' ∉ showOpt id j.name) :
    (chars% "#SBATCH --partition=" ++ showOpt id j.partition ++ ['\n']) ∈ fileLines (jobText j) ∧
    (chars% "#SBATCH --job-name=" ++ showOpt id j.name ++ ['\n']) ∈ fileLines (jobText j) ∧
    (chars% "#SBATCH --nodes=" ++ showOpt showInt j.numNodes ++ ['\n']) ∈ fileLines (jobText j) ∧
    (chars% "#SBATCH --ntasks-per-node=" ++ showOpt showInt j.numTasks ++ ['\n']) ∈ fileLines (jobText j) := by
  rw [C59_rows j hp hn]
  simp

/-- C59 is violated for every job: no row of the script starts with the directive for the graphics cards
(`--gres`, `--gpus-per-task`), unless the command itself contains such a row. -/
theorem C59_joined (j : Job) (hp : '\n' ∉ showOpt id j.partition) (hn : '\n' ∉ showOpt id j.name)
    (hc : ∀ r ∈ fileLines (showOpt id j.command), ¬ chars% "#SBATCH" <+: r) :
    ∀ r ∈ fileLines (jobText j),
      ¬ chars% "#SBATCH --gres" <+: r ∧ ¬ chars% "#SBATCH --gpus-per-task" <+: r := by
  rw [C59_rows j hp hn]
  intro r hr
  rcases List.mem_append.1 hr with hr | hr
  · simp only [List.mem_cons, List.not_mem_nil, or_false] at hr
    rcases hr with rfl | rfl | rfl | rfl | rfl | rfl | rfl | rfl <;> simp
  · have := hc r hr
    constructor <;> intro h <;> apply this
    · exact List.IsPrefix.trans (by decide) h
    · exact List.IsPrefix.trans (by decide) h

/-- A job of the base class meets the hypotheses. -/
example : let j : Job := ⟨some (chars% "cpu"), some (chars% "relax"), some 1, some 16, some 1, some 4, some 1, none⟩
    '\n' ∉ showOpt id j.partition ∧ '\n' ∉ showOpt id j.name ∧
    ∀ r ∈ fileLines (showOpt id j.command), ¬ chars% "#SBATCH" <+: r := by decide +kernel

/-! ## C81: unset options -/

/-- C81: options that are set appear with their value. Missing: options that are not set still appear, see
`C81_unset`. -/
theorem C81_set_partial (j : Job) (p n : Str) (a b c d e : ℤ) (cmd : Str)
    (hj : j = ⟨some p, some n, some a, some b, some c, some d, some e, some cmd⟩) :
    chars% "--partition=" ++ p <:+: jobText j ∧ chars% "--job-name=" ++ n <:+: jobText j ∧
    chars% "--nodes=" ++ showInt a <:+: jobText j ∧ chars% "--ntasks-per-node=" ++ showInt b <:+: jobText j ∧
    chars% "--threads-per-core=" ++ showInt c <:+: jobText j ∧ chars% "--gres=gpu:" ++ showInt d <:+: jobText j ∧
    chars% "--gpus-per-task=" ++ showInt e <:+: jobText j ∧ cmd <:+ jobText j := by
  subst hj
  let L : List Str := [chars% "#!/bin/bash\n#SBATCH ", chars% "--partition=" ++ p, chars% "\n#SBATCH ",
    chars% "--job-name=" ++ n, chars% "\n#SBATCH ", chars% "--nodes=" ++ showInt a, chars% "\n#SBATCH ",
    chars% "--ntasks-per-node=" ++ showInt b, chars% "\n#SBATCH ", chars% "--threads-per-core=" ++ showInt c,
    chars% "#SBATCH ", chars% "--gres=gpu:" ++ showInt d, chars% "#SBATCH ",
    chars% "--gpus-per-task=" ++ showInt e, chars% "\n\n\n", cmd]
  have e : jobText ⟨some p, some n, some a, some b, some c, some d, some e, some cmd⟩ = L.flatten := by
    simp only [jobText, showOpt, L, List.append_assoc, List.flatten_cons, List.flatten_nil, id]
    simp only [List.append_nil]
    rfl
  have hmem : ∀ x ∈ L, x <:+: L.flatten := by
    intro x hx
    obtain ⟨l1, l2, h⟩ := List.append_of_mem hx
    exact ⟨l1.flatten, l2.flatten, by rw [h]; simp⟩
  rw [e]
  refine ⟨hmem _ (by simp [L]), hmem _ (by simp [L]), hmem _ (by simp [L]), hmem _ (by simp [L]),
    hmem _ (by simp [L]), hmem _ (by simp [L]), hmem _ (by simp [L]), ?_⟩
  have hL : L = L.dropLast ++ [cmd] := rfl
  exact ⟨(L.dropLast).flatten, by rw [← List.flatten_singleton (l := cmd), ← List.flatten_append, ← hL]⟩

/-- C81 is violated: a job of the base class with no option set asks for the partition `None`, `None` nodes
and `None` graphics cards, and runs the command `None`. -/
theorem C81_unset : fileLines (jobText ⟨none, none, none, none, none, none, none, none⟩) =
    [chars% "#!/bin/bash\n", chars% "#SBATCH --partition=None\n", chars% "#SBATCH --job-name=None\n",
     chars% "#SBATCH --nodes=None\n", chars% "#SBATCH --ntasks-per-node=None\n",
     chars% "#SBATCH --threads-per-core=None#SBATCH --gres=gpu:None#SBATCH --gpus-per-task=None\n",
     chars% "\n", chars% "\n", chars% "None"] := by
  decide +kernel

end MaterSDK
