import Verif.Props.Dos

/-!
# C183: the tables of one orbital

`FatbandStructure.get_orbital_dfs_lst`, `/repo/matersdk/io/pwmat/output/fatabandstructureTxt.py` 180-196.
-/

namespace MaterSDK

/-- Two names are the same but for the case of letters. -/
def sameName (a b : Str) : Prop := a.map Char.toLower = b.map Char.toLower

instance (a b : Str) : Decidable (sameName a b) := inferInstanceAs (Decidable (_ = _))

/-- The cells of the columns with a property. -/
def cellsOf (keep : Str → Prop) [DecidablePred keep] (cols : List Str) (row : List ℚ) : List ℚ :=
  ((cols.zip row).filter (fun cv => decide (keep cv.1))).map Prod.snd

/-- Reading a well-formed file with two or more bands. -/
theorem fatInit_text (O : SetOrder) (hdr : Str) (rest : List Str) (bands : List BandText) (nk : ℕ)
    (hh : strIn (chars% "BAND") (upper hdr) = false)
    (hcols : split hdr = [chars% "KPOINT", chars% "ENERGY", chars% "weight_tot"] ++ rest)
    (hnd : (split hdr).Nodup) (hnb : 2 ≤ bands.length)
    (h : ∀ b ∈ bands, b.Wellformed (split hdr).length nk) :
    ∃ els : List Str, fatInit O (fatText hdr bands)
      = .ok (bands.length, ⟨split hdr, bands.flatMap (fun b => b.vals.map (scaleK (split hdr)))⟩, els) := by
  have hh' : strIn (chars% "BAND") hdr = false := by
    cases hc : strIn (chars% "BAND") hdr with
    | false => rfl
    | true => rw [band_upper hc] at hh; cases hh
  have hk : chars% "KPOINT" ∈ split hdr := by rw [hcols]; simp
  have hframe := fatFrame_text hdr bands nk hh' hnd hk h
  obtain ⟨els, hel, -, -, -⟩ := C58_fat_values O rest
    (bands.flatMap (fun b => b.vals.map (scaleK (split hdr))))
  rw [← hcols] at hel
  obtain ⟨b, c, bands', rfl⟩ : ∃ b c bands', bands = b :: c :: bands' := by
    match bands, hnb with
    | b :: c :: bs, _ => exact ⟨b, c, bs, rfl⟩
  have hcount := fatCounts_text hdr b c bands' _ nk hh h
  refine ⟨els, ?_⟩
  unfold fatInit
  rw [hcount, ok_bind, hframe, ok_bind, hel, ok_bind]
  rfl

theorem orbitalMask_iff (o c : Str) : orbitalMask o c = true ↔
    o.map Char.toLower <:+: c.map Char.toLower ∨ (chars% "kpoint") <:+: c.map Char.toLower ∨
    (chars% "energy") <:+: c.map Char.toLower ∨ (chars% "weight_tot") <:+: c.map Char.toLower := by
  have e1 : lower (chars% "KPOINT") = chars% "kpoint" := by decide
  have e2 : lower (chars% "ENERGY") = chars% "energy" := by decide
  have e3 : lower (chars% "weight_tot") = chars% "weight_tot" := by decide
  unfold orbitalMask
  rw [e1, e2, e3]
  simp only [Bool.or_eq_true, strIn_iff, or_assoc]
  rfl

/-- What `get_orbital_dfs_lst` returns, with the selection of columns as in the code. -/
theorem fatOrbital_text (O : SetOrder) (hdr : Str) (rest : List Str) (bands : List BandText) (nk : ℕ) (o : Str)
    (hh : strIn (chars% "BAND") (upper hdr) = false)
    (hcols : split hdr = [chars% "KPOINT", chars% "ENERGY", chars% "weight_tot"] ++ rest)
    (hnd : (split hdr).Nodup) (hnb : 2 ≤ bands.length)
    (h : ∀ b ∈ bands, b.Wellformed (split hdr).length nk) :
    fatOrbitalDfs O (fatText hdr bands) o
      = .ok (bands.map (fun b => ⟨(split hdr).filter (orbitalMask o),
          (b.vals.map (scaleK (split hdr))).map (fun r =>
            (((split hdr).zip r).filter (fun cv => orbitalMask o cv.1)).map Prod.snd)⟩)) := by
  obtain ⟨els, hinit⟩ := fatInit_text O hdr rest bands nk hh hcols hnd hnb h
  have hvl : ∀ b ∈ bands, b.vals.length = nk := by
    intro b hb
    rw [← (h b hb).points, (h b hb).reads.length_eq]
  have hne : bands ≠ [] := by rintro rfl; simp at hnb
  unfold fatOrbitalDfs
  rw [hinit, ok_bind]
  have := arraySplit_flatten (bands.map (fun b => (b.vals.map (scaleK (split hdr))).map (fun r =>
      (((split hdr).zip r).filter (fun cv => orbitalMask o cv.1)).map Prod.snd))) nk (by
    intro p hp
    obtain ⟨x, hx, rfl⟩ := List.mem_map.1 hp
    rw [List.length_map, List.length_map, hvl x hx]) (by simpa using hne)
  rw [List.length_map, ← flatMap_map_flatten] at this
  simp only [List.map_flatMap, this, ok_bind]
  rw [List.map_map]
  rfl

/-- C183: for a file with two or more bands, the tables of an orbital are one per band, in order, with the
columns `KPOINT`, `ENERGY`, `weight_tot` and that of the orbital, whatever the case of its letters, and the
numbers of the file. An orbital the file does not have gives tables with the first three columns. Missing:
names contained in names of other orbitals, see `C183_violated_substring`, orbitals with `kpoint`, `energy` or
`weight_tot` in their name, and files with one band, see `C183_single_band`. -/
theorem C183_orbital_partial (O : SetOrder) (hdr : Str) (rest : List Str) (bands : List BandText) (nk : ℕ)
    (o : Str) (hh : strIn (chars% "BAND") (upper hdr) = false)
    (hcols : split hdr = [chars% "KPOINT", chars% "ENERGY", chars% "weight_tot"] ++ rest)
    (hnd : (split hdr).Nodup) (hnb : 2 ≤ bands.length)
    (h : ∀ b ∈ bands, b.Wellformed (split hdr).length nk)
    (hsub : ∀ c ∈ rest, ∀ n ∈ [o, chars% "KPOINT", chars% "ENERGY", chars% "weight_tot"],
      n.map Char.toLower <:+: c.map Char.toLower → sameName c o) :
    fatOrbitalDfs O (fatText hdr bands) o
      = .ok (bands.map (fun b =>
          ⟨[chars% "KPOINT", chars% "ENERGY", chars% "weight_tot"] ++ rest.filter (fun c => sameName c o),
            (b.vals.map (scaleK (split hdr))).map (fun r =>
              [r.getD 0 0, r.getD 1 0, r.getD 2 0] ++ cellsOf (fun c => sameName c o) rest (r.drop 3))⟩)) := by
  rw [fatOrbital_text O hdr rest bands nk o hh hcols hnd hnb h]
  have m1 : orbitalMask o (chars% "KPOINT") = true := (orbitalMask_iff _ _).2 (Or.inr (Or.inl (by decide)))
  have m2 : orbitalMask o (chars% "ENERGY") = true :=
    (orbitalMask_iff _ _).2 (Or.inr (Or.inr (Or.inl (by decide))))
  have m3 : orbitalMask o (chars% "weight_tot") = true :=
    (orbitalMask_iff _ _).2 (Or.inr (Or.inr (Or.inr (by decide))))
  have hm : ∀ c ∈ rest, orbitalMask o c = decide (sameName c o) := by
    intro c hc
    rw [Bool.eq_iff_iff, orbitalMask_iff, decide_eq_true_iff]
    constructor
    · rintro (h1 | h1 | h1 | h1)
      · exact hsub c hc o (by simp) h1
      · exact hsub c hc (chars% "KPOINT") (by simp) h1
      · exact hsub c hc (chars% "ENERGY") (by simp) h1
      · exact hsub c hc (chars% "weight_tot") (by simp) h1
    · intro h1
      left
      rw [show c.map Char.toLower = o.map Char.toLower from h1]
  congr 1
  apply List.map_congr_left
  intro b hb
  congr 1
  · rw [hcols]
    simp only [List.cons_append, List.nil_append, List.filter_cons, m1, m2, m3, if_true]
    rw [List.filter_congr hm]
  · apply List.map_congr_left
    intro r hr
    obtain ⟨v, hv, rfl⟩ := List.mem_map.1 hr
    have hl : (scaleK (split hdr) v).length = (split hdr).length := by
      unfold scaleK
      rw [List.length_map, List.length_zip, (h b hb).width v hv, min_self]
    generalize scaleK (split hdr) v = r at hl
    rw [hcols] at hl ⊢
    obtain ⟨x, y, z, r', rfl⟩ : ∃ x y z r', r = x :: y :: z :: r' := by
      match r, hl with
      | x :: y :: z :: r', _ => exact ⟨x, y, z, r', rfl⟩
      | [], hl => simp at hl
      | [_], hl => simp at hl
      | [_, _], hl => simp at hl
    simp only [List.cons_append, List.nil_append, List.zip_cons_cons, List.filter_cons, m1, m2, m3, if_true,
      List.map_cons, List.drop_succ_cons, List.drop_zero]
    unfold cellsOf
    rw [List.filter_congr (q := fun cv : Str × ℚ => decide (sameName cv.1 o))
      (fun cv hcv => hm cv.1 (List.of_mem_zip (a := cv.1) (b := cv.2) hcv).1)]
    rfl

/-- C183 is violated: a column whose name contains that of the orbital is returned as well. -/
theorem C183_violated_contains (O : SetOrder) (hdr : Str) (rest : List Str) (bands : List BandText) (nk : ℕ)
    (o : Str) (hh : strIn (chars% "BAND") (upper hdr) = false)
    (hcols : split hdr = [chars% "KPOINT", chars% "ENERGY", chars% "weight_tot"] ++ rest)
    (hnd : (split hdr).Nodup) (hnb : 2 ≤ bands.length)
    (h : ∀ b ∈ bands, b.Wellformed (split hdr).length nk) (c : Str) (hc : c ∈ rest)
    (hsub : o.map Char.toLower <:+: c.map Char.toLower) :
    ∃ dfs : List Frame, fatOrbitalDfs O (fatText hdr bands) o = .ok dfs ∧ dfs.length = bands.length ∧
      ∀ f ∈ dfs, c ∈ f.cols := by
  refine ⟨_, fatOrbital_text O hdr rest bands nk o hh hcols hnd hnb h, by rw [List.length_map], ?_⟩
  intro f hf
  obtain ⟨b, -, rfl⟩ := List.mem_map.1 hf
  refine List.mem_filter.2 ⟨by rw [hcols]; simp [hc], (orbitalMask_iff _ _).2 (Or.inl hsub)⟩

/-- A band with one k-point and three orbitals. -/
def bandExample3 (e : Str) (v : ℚ) : BandText :=
  ⟨chars% "BAND   1\n", [chars% " 0.5 " ++ e ++ chars% " 1.0 0.25 0.5 0.25\n"],
    [[1 / 2, v, 1, 1 / 4, 1 / 2, 1 / 4]], [['\n']]⟩

/-- A file with gallium, arsenic and sulfur and two bands. -/
def fatExample : Str × List BandText :=
  (chars% "KPOINT ENERGY weight_tot Ga-4Px As-4Py S-4Py\n",
    [bandExample3 (chars% "-1.5") (-3 / 2), bandExample3 (chars% "2.25") (9 / 4)])

theorem fatExample_ok : strIn (chars% "BAND") (upper fatExample.1) = false ∧
    split fatExample.1 = [chars% "KPOINT", chars% "ENERGY", chars% "weight_tot"]
      ++ [chars% "Ga-4Px", chars% "As-4Py", chars% "S-4Py"] ∧
    (split fatExample.1).Nodup ∧ 2 ≤ fatExample.2.length ∧
    ∀ b ∈ fatExample.2, b.Wellformed (split fatExample.1).length 1 := by
  refine ⟨by decide +kernel, by decide +kernel, by decide +kernel, by decide, ?_⟩
  intro b hb
  simp only [fatExample, List.mem_cons, List.not_mem_nil, or_false] at hb
  rcases hb with rfl | rfl
  · exact ⟨by decide +kernel, by decide +kernel, by decide +kernel, by decide +kernel, by decide +kernel,
      by decide +kernel, by decide +kernel⟩
  · exact ⟨by decide +kernel, by decide +kernel, by decide +kernel, by decide +kernel, by decide +kernel,
      by decide +kernel, by decide +kernel⟩

/-- C183 is violated: asking for `S-4Py` also gives `As-4Py`. -/
theorem C183_violated_substring (O : SetOrder) :
    ∃ dfs : List Frame, fatOrbitalDfs O (fatText fatExample.1 fatExample.2) (chars% "S-4Py") = .ok dfs ∧
      dfs.map Frame.cols = List.replicate 2
        [chars% "KPOINT", chars% "ENERGY", chars% "weight_tot", chars% "As-4Py", chars% "S-4Py"] := by
  obtain ⟨h1, h2, h3, h4, h5⟩ := fatExample_ok
  refine ⟨_, fatOrbital_text O _ _ _ 1 _ h1 h2 h3 h4 h5, ?_⟩
  rw [List.map_map, h2]
  decide +kernel

/-- The hypotheses of `C183_orbital_partial` are met by the orbital `ga-4PX` of that file, and the answer
is the column `Ga-4Px`. -/
example (O : SetOrder) :
    (∀ c ∈ [chars% "Ga-4Px", chars% "As-4Py", chars% "S-4Py"],
      ∀ n ∈ [chars% "ga-4PX", chars% "KPOINT", chars% "ENERGY", chars% "weight_tot"],
      n.map Char.toLower <:+: c.map Char.toLower → sameName c (chars% "ga-4PX")) ∧
    ∃ dfs : List Frame, fatOrbitalDfs O (fatText fatExample.1 fatExample.2) (chars% "ga-4PX") = .ok dfs ∧
      dfs.map Frame.cols = List.replicate 2
        [chars% "KPOINT", chars% "ENERGY", chars% "weight_tot", chars% "Ga-4Px"] ∧
      dfs.map (fun f => f.rows.map (fun r => r.drop 1)) = [[[-3 / 2, 1, 1 / 4]], [[9 / 4, 1, 1 / 4]]] := by
  obtain ⟨h1, h2, h3, h4, h5⟩ := fatExample_ok
  have hs : ∀ c ∈ [chars% "Ga-4Px", chars% "As-4Py", chars% "S-4Py"],
      ∀ n ∈ [chars% "ga-4PX", chars% "KPOINT", chars% "ENERGY", chars% "weight_tot"],
      n.map Char.toLower <:+: c.map Char.toLower → sameName c (chars% "ga-4PX") := by decide +kernel
  refine ⟨hs, _, C183_orbital_partial O _ _ _ 1 _ h1 h2 h3 h4 h5 hs, ?_, ?_⟩
  · rw [List.map_map]
    decide +kernel
  · rw [List.map_map, h2]
    decide +kernel

/-- C183 is violated for a file with a single band: it cannot be read. -/
theorem C183_single_band (O : SetOrder) (hdr : Str) (b : BandText) (w nk : ℕ) (o : Str)
    (hh : strIn (chars% "BAND") (upper hdr) = false) (h : b.Wellformed w nk) :
    fatOrbitalDfs O (fatText hdr [b]) o = .error .indexError := by
  have hc := (C79_single_band O hdr b w nk hh h).1
  unfold fatTotal at hc
  unfold fatOrbitalDfs
  cases hi : fatInit O (fatText hdr [b]) with
  | error e =>
    rw [hi, error_bind] at hc
    rw [error_bind]
    exact hc
  | ok t =>
    exfalso
    have hlen : (lineLocate (fatText hdr [b]) (chars% "BAND")).length = 1 := by
      unfold lineLocate fatText
      rw [lineLocateFrom, if_neg (by rw [hh]; simp)]
      exact fat_locate [b] w nk (by simpa using h) _
    unfold fatInit fatCounts at hi
    have : pyGet (lineLocate (fatText hdr [b]) (chars% "BAND")) 1 = .error .indexError := by
      rw [pyGet, List.getElem?_eq_none (by omega)]
    simp only [this, error_bind] at hi
    cases hi

end MaterSDK
