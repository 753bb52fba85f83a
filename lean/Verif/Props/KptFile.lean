import Verif.Lemmas.KptFile
import Verif.Props.Kpoints
import Mathlib.Tactic.FinCases

/-!
# C163 - C169: small input files
-/

namespace MaterSDK

/-- A row says: this point, with the coordinates to the sixth decimal, and its label. -/
def RowSays (row : Str) (label : Str) (v : Vec ℚ) : Prop :=
  ∃ a b c, ∃ x y z : ℚ, split row = [a, b, c, label] ∧ parseFloat a = .ok x ∧ parseFloat b = .ok y ∧
    parseFloat c = .ok z ∧ |x - v 0| ≤ 5 / 10 ^ 7 ∧ |y - v 1| ≤ 5 / 10 ^ 7 ∧ |z - v 2| ≤ 5 / 10 ^ 7

theorem kptRow_says (v : Vec ℚ) {label : Str} (hl : IsWord label) : RowSays (kptRow v label) label v := by
  have hc : (1 : ℚ) / 2 / 10 ^ 6 = 5 / 10 ^ 7 := by norm_num
  refine ⟨_, _, _, _, _, _, kptRow_split v hl, parseFloat_fmtFixed 6 _, parseFloat_fmtFixed 6 _,
    parseFloat_fmtFixed 6 _, ?_, ?_, ?_⟩ <;> rw [← hc] <;> exact fixedValue_error 6 _

/-! ## C163 -/

/-- C163: HIGHK lists every k-point once, in order, below one header row, whatever file was there
before. -/
theorem C163_highk (formula : Str) (kpts : KDict) (old : Option Str) (hf : '\n' ∉ formula)
    (hl : ∀ p ∈ kpts, IsWord p.1) :
    ∃ header rows, fileLines (highkFile formula kpts old) = header :: rows ∧
      List.Forall₂ (fun row (p : Str × Vec ℚ) => RowSays row p.1 p.2) rows kpts := by
  refine ⟨highkHeader formula, kpts.map (fun p => kptRow p.2 p.1), ?_, ?_⟩
  · have : highkFile formula kpts old =
        (highkHeader formula :: kpts.map (fun p => kptRow p.2 p.1)).flatten := rfl
    rw [this, fileLines_flatten_rows]
    intro r hr
    rcases List.mem_cons.1 hr with rfl | hr
    · exact highkHeader_body hf
    · obtain ⟨p, hp, rfl⟩ := List.mem_map.1 hr
      exact kptRow_body _ (hl p hp).no_newline
  · rw [List.forall₂_map_left_iff]
    exact List.forall₂_same.2 fun p hp => kptRow_says _ (hl p hp)

example : highkFile (chars% "Si2") [(chars% "X", ![1/2, 0, 1/3])] (some (chars% "old")) =
    chars% "High symmetry kpoints generated by MaterSDK, structure:Si2, fractional coordinates in reciprocal lattice\n        0.500000\t    0.000000\t    0.333333\tX\n" := by
  decide +kernel

/-! ## C164 -/

/-- A row says how many points a segment has; without limit for density 0. -/
def CountSays (row : Str) : Option ℤ → Prop
  | some n => ∃ w, split row = [w] ∧ parseFloat w = .ok (n : ℚ)
  | none => split row = [chars% "inf"]

theorem countRow_says (n : Option ℤ) : CountSays (countRow n) n := by
  cases n with
  | none => exact of_decide_eq_true (p := split _ = _) rfl
  | some n => exact countRow_split n

/-- C164: gen.kpt has a header row, then three rows for every pair of neighbouring points of every path, in
order: the number of points, the first point, the second point. -/
theorem C164_gen_kpt (formula dt : Str) (kpts : KDict) (paths : List (List Str))
    (lat : Matrix (Fin 3) (Fin 3) ℝ) (density : ℝ) (old : Option Str) (text : Str)
    (h : genKptFile formula dt kpts paths lat density old = .ok text) (hf : '\n' ∉ formula)
    (hd : '\n' ∉ dt) (hl : ∀ p ∈ paths, ∀ k ∈ p, IsWord k) :
    ∃ header, ∃ blocks : List (List (List Str)), fileLines text = header :: blocks.flatten.flatten ∧
      List.Forall₂ (fun (path : List Str) (bs : List (List Str)) => bs.length = path.length - 1 ∧
        ∀ i x y, path[i]? = some x → path[i + 1]? = some y → ∃ u v r0 r1 r2,
          pyDictGet kpts x = .ok u ∧ pyDictGet kpts y = .ok v ∧ bs[i]? = some [r0, r1, r2] ∧
          (∀ b, IsReciprocalCryst lat b → CountSays r0 (numBandpoint b density u v)) ∧
          RowSays r1 x u ∧ RowSays r2 y v) paths blocks := by
  unfold genKptFile at h
  obtain ⟨segs, hs, h⟩ := bind_eq_ok.1 h
  obtain rfl := Except.ok.inj h
  unfold genKpt at hs
  obtain ⟨b, hb, hs⟩ := bind_eq_ok.1 hs
  obtain ⟨ss, hss, hs⟩ := bind_eq_ok.1 hs
  obtain rfl := Except.ok.inj hs
  have hfor := mapM_eq_ok.1 hss
  -- no label is missing
  have hkey : ∀ p ∈ paths, ∀ k ∈ p, ∃ c, pyDictGet kpts k = .ok c := by
    intro p hp k hk
    cases hg : pyDictGet kpts k with
    | ok c => exact ⟨c, rfl⟩
    | error e =>
      exfalso
      have hno : k ∉ kpts.map Prod.fst := by
        have := pyDictGet_error_kind _ _ _ hg
        subst this
        intro hmem
        obtain ⟨⟨k', c⟩, hc, rfl⟩ := List.mem_map.1 hmem
        exact (pyDictGet_err kpts k').1 hg c hc
      obtain ⟨e', he'⟩ := mapM_isError (f := genPath kpts b density none) (l := paths)
        ⟨p, hp, genPath_error kpts b density none p ⟨k, hk, hno⟩⟩
      rw [he'] at hss
      cases hss
  have hmain : List.Forall₂ (fun (path : List Str) (s : List KSegment) => s.length = path.length - 1 ∧
      ∀ i x y, path[i]? = some x → path[i + 1]? = some y → ∃ u v,
        pyDictGet kpts x = .ok u ∧ pyDictGet kpts y = .ok v ∧
        s[i]? = some ⟨numBandpoint b density u v, (x, u), (y, v)⟩) paths ss := by
    clear * - hkey hl hfor
    induction hfor with
    | nil => exact .nil
    | @cons p s ps ss' hps _ ih =>
      refine .cons ?_ (ih (fun q hq => hl q (by simp [hq])) (fun q hq => hkey q (by simp [hq])))
      obtain ⟨s', h1, h2, h3⟩ := genPath_spec kpts b density p (hkey p (by simp))
      rw [h1] at hps
      obtain rfl := Except.ok.inj hps
      exact ⟨h2, h3⟩
  -- every segment has labels that are words
  have hwords : ∀ s ∈ ss.flatten, IsWord s.start.1 ∧ IsWord s.dest.1 := by
    intro s hsm
    obtain ⟨l, hlm, hsl⟩ := List.mem_flatten.1 hsm
    obtain ⟨j, hj, rfl⟩ := List.mem_iff_getElem.1 hlm
    have hj' : j < paths.length := by rw [hmain.length_eq]; exact hj
    obtain ⟨hlen, hall⟩ := (List.forall₂_iff_get.1 hmain).2 j hj' hj
    simp only [List.get_eq_getElem] at hlen hall
    obtain ⟨i, hi, rfl⟩ := List.mem_iff_getElem.1 hsl
    have hi1 : i < paths[j].length := by omega
    have hi2 : i + 1 < paths[j].length := by omega
    obtain ⟨u, v, -, -, hget⟩ := hall i _ _ (List.getElem?_eq_getElem hi1) (List.getElem?_eq_getElem hi2)
    rw [List.getElem?_eq_getElem hi, Option.some.injEq] at hget
    rw [hget]
    exact ⟨hl _ (List.getElem_mem hj') _ (List.getElem_mem hi1),
      hl _ (List.getElem_mem hj') _ (List.getElem_mem hi2)⟩
  refine ⟨genHeader formula dt, ss.map (fun s => s.map segRows), ?_, ?_⟩
  · have e : appendFile (removeFile old) (genHeader formula dt ++ (ss.flatten.flatMap segRows).flatten) =
        (genHeader formula dt :: ss.flatten.flatMap segRows).flatten := rfl
    rw [e, fileLines_flatten_rows]
    · rw [List.flatMap_def, List.map_flatten]
    · intro r hr
      rcases List.mem_cons.1 hr with rfl | hr
      · exact genHeader_body hf hd
      · obtain ⟨s, hsm, hr⟩ := List.mem_flatMap.1 hr
        obtain ⟨w1, w2⟩ := hwords s hsm
        simp only [segRows, List.mem_cons, List.not_mem_nil, or_false] at hr
        rcases hr with rfl | rfl | rfl
        · exact countRow_body _
        · exact kptRow_body _ w1.no_newline
        · exact kptRow_body _ w2.no_newline
  · rw [List.forall₂_map_right_iff]
    have hmem : List.Forall₂ (fun (path : List Str) (s : List KSegment) => path ∈ paths ∧
        (s.length = path.length - 1 ∧
        ∀ i x y, path[i]? = some x → path[i + 1]? = some y → ∃ u v,
          pyDictGet kpts x = .ok u ∧ pyDictGet kpts y = .ok v ∧
          s[i]? = some ⟨numBandpoint b density u v, (x, u), (y, v)⟩)) paths ss := by
      rw [List.forall₂_iff_get] at hmain ⊢
      exact ⟨hmain.1, fun i h1 h2 => ⟨List.get_mem _ _, hmain.2 i h1 h2⟩⟩
    refine List.Forall₂.imp ?_ hmem
    rintro path s ⟨hp, hlen, hall⟩
    refine ⟨by rw [List.length_map, hlen], ?_⟩
    intro i x y hx hy
    obtain ⟨u, v, hu, hv, hget⟩ := hall i x y hx hy
    refine ⟨u, v, countRow (numBandpoint b density u v), kptRow u x, kptRow v y, hu, hv, ?_, ?_,
      kptRow_says u (hl path hp x (List.mem_of_getElem? hx)),
      kptRow_says v (hl path hp y (List.mem_of_getElem? hy))⟩
    · rw [List.getElem?_map, hget]
      rfl
    · intro b' hb'
      obtain ⟨hdet, hB⟩ := recip_unique hb'
      rw [recip_cryst_ok hdet, hB] at hb
      rw [← Except.ok.inj hb]
      exact countRow_says _

example : ∃ text, genKptFile (chars% "Si2") (chars% "0.01") [(gName, 0), (chars% "X", ![1/2, 0, 0]),
    (chars% "M", ![1/2, 1/2, 0])] [[gName, chars% "X", chars% "M"], [chars% "X", gName]] 1 (1 / 100) none =
      .ok text := by
  obtain ⟨segs, hs, -⟩ := (C51_segments [(gName, 0), (chars% "X", ![1/2, 0, 0]),
    (chars% "M", ![1/2, 1/2, 0])] [[gName, chars% "X", chars% "M"], [chars% "X", gName]] 1 1 (1 / 100)
    (by unfold IsReciprocalCryst; simp)).2 (by simp)
  exact ⟨_, by unfold genKptFile; rw [hs]; rfl⟩

example : IsWord (chars% "X_1") ∧ IsWord gName := by
  constructor <;> exact ⟨by decide, by decide⟩

/-! ## C165 -/

/-- C165: fractional coordinates, weights and labels of an IN.KPT file belong to the same rows. -/
theorem C165_rows (rows : List Str) (cs : List (List ℚ)) (ws : List ℚ)
    (hc : kptCoordsFrac rows = .ok cs) (hw : kptWeights rows = .ok ws) :
    cs.length = (rows.drop 2).length ∧ ws.length = (rows.drop 2).length ∧
      ∀ (i : ℕ) row, (rows.drop 2)[i]? = some row → ∃ c w, cs[i]? = some c ∧ ws[i]? = some w ∧
        List.Forall₂ (fun t x => parseFloat t = .ok x) ((split row).take 3) c ∧
        ∃ t, (split row)[3]? = some t ∧ parseFloat t = .ok w := by
  unfold kptCoordsFrac at hc
  obtain ⟨cs', hcs, hc⟩ := bind_eq_ok.1 hc
  have hcs' : cs' = cs := by
    unfold npRect at hc
    split at hc
    · exact Except.ok.inj hc
    · split at hc
      · exact Except.ok.inj hc
      · cases hc
  subst hcs'
  have h1 := mapM_eq_ok.1 hcs
  have h2 := mapM_eq_ok.1 hw
  refine ⟨h1.length_eq.symm, h2.length_eq.symm, ?_⟩
  intro i row hi
  obtain ⟨hlt, he⟩ := List.getElem?_eq_some_iff.1 hi
  have hl1 : i < cs'.length := by rw [← h1.length_eq]; exact hlt
  have hl2 : i < ws.length := by rw [← h2.length_eq]; exact hlt
  have g1 := (List.forall₂_iff_get.1 h1).2 i hlt hl1
  have g2 := (List.forall₂_iff_get.1 h2).2 i hlt hl2
  simp only [List.get_eq_getElem, he] at g1 g2
  obtain ⟨t, ht, hp⟩ := bind_eq_ok.1 g2
  exact ⟨_, _, List.getElem?_eq_getElem hl1, List.getElem?_eq_getElem hl2, mapM_eq_ok.1 g1,
    t, pyGet_eq_ok.1 ht, hp⟩

/-- C165: the high-symmetry points are the labelled rows, in order: same labels as the list of labelled
indices, and the coordinates of those indices. -/
theorem C165_hsp (rows : List Str) (labels : List Str) (coords cs : List (List ℚ))
    (h : getHsp rows = .ok (labels, coords)) (hc : kptCoordsFrac rows = .ok cs) :
    labels = (idx2hsp rows).map Prod.snd ∧ coords.length = labels.length ∧
      ∀ (j i : ℕ) l, (idx2hsp rows)[j]? = some (i, l) → coords[j]? = cs[i]? ∧ ∃ row,
        (rows.drop 2)[i]? = some row ∧ (split row)[4]? = some l := by
  unfold getHsp at h
  obtain ⟨ps, hps, h⟩ := bind_eq_ok.1 h
  obtain ⟨rfl, rfl⟩ := Prod.mk.inj (Except.ok.inj h)
  have hz := zipIdx_filter_fst (fun r => decide ((split r).length = 5)) (rows.drop 2) 0
  have hfor := mapM_eq_ok.1 hps
  rw [← hz, List.forall₂_map_left_iff] at hfor
  have hrow : ∀ r l (v : List ℚ), (split r).length = 5 → hspRow r = .ok (l, v) →
      ((split r).getLast?).getD [] = l ∧ (split r)[4]? = some l ∧
      ((split r).take 3).mapM parseFloat = .ok v := by
    intro r l v h5 hr
    match hsp : split r, h5 with
    | [a, b, c, d, e], _ =>
      unfold hspRow at hr
      rw [hsp] at hr
      obtain ⟨l', hl', hr⟩ := bind_eq_ok.1 hr
      have hl'' : l' = e := (Except.ok.inj hl').symm
      subst hl''
      obtain ⟨x0, hx0, hr⟩ := bind_eq_ok.1 hr
      obtain rfl : a = x0 := Except.ok.inj hx0
      obtain ⟨x, hx, hr⟩ := bind_eq_ok.1 hr
      obtain ⟨y0, hy0, hr⟩ := bind_eq_ok.1 hr
      obtain rfl : b = y0 := Except.ok.inj hy0
      obtain ⟨y, hy, hr⟩ := bind_eq_ok.1 hr
      obtain ⟨z0, hz0, hr⟩ := bind_eq_ok.1 hr
      obtain rfl : c = z0 := Except.ok.inj hz0
      obtain ⟨z, hz, hr⟩ := bind_eq_ok.1 hr
      obtain ⟨rfl, rfl⟩ := Prod.mk.inj (Except.ok.inj hr)
      refine ⟨rfl, rfl, ?_⟩
      rw [mapM_eq_ok]
      exact .cons hx (.cons hy (.cons hz .nil))
  unfold kptCoordsFrac at hc
  obtain ⟨cs', hcs, hc⟩ := bind_eq_ok.1 hc
  have hcs' : cs' = cs := by
    unfold npRect at hc
    split at hc
    · exact Except.ok.inj hc
    · split at hc
      · exact Except.ok.inj hc
      · cases hc
  subst hcs'
  have h1 := mapM_eq_ok.1 hcs
  -- entry by entry
  have hent : ∀ (j : ℕ) (p : Str × ℕ),
      ((rows.drop 2).zipIdx.filter (fun p => decide ((split p.1).length = 5)))[j]? = some p →
      ∃ q, ps[j]? = some q ∧ hspRow p.1 = .ok q ∧ (split p.1).length = 5 ∧
        (rows.drop 2)[p.2]? = some p.1 := by
    intro j p hj
    obtain ⟨hlt, he⟩ := List.getElem?_eq_some_iff.1 hj
    have hl : j < ps.length := by rw [← hfor.length_eq]; exact hlt
    have g := (List.forall₂_iff_get.1 hfor).2 j hlt hl
    simp only [List.get_eq_getElem, he] at g
    have hmem := List.mem_filter.1 (List.mem_of_getElem? hj)
    refine ⟨_, List.getElem?_eq_getElem hl, g, of_decide_eq_true hmem.2, ?_⟩
    obtain ⟨h1, h2, h3⟩ := List.mem_zipIdx hmem.1
    simp only [Nat.sub_zero] at h3
    rw [List.getElem?_eq_getElem (by omega), h3]
  have hlen : (idx2hsp rows).length = ps.length := by
    unfold idx2hsp
    rw [List.length_map, hfor.length_eq]
  refine ⟨?_, by simp, ?_⟩
  · apply List.ext_getElem?
    intro j
    cases hj : ((rows.drop 2).zipIdx.filter (fun p => decide ((split p.1).length = 5)))[j]? with
    | none =>
      have : ps[j]? = none := by
        rw [List.getElem?_eq_none_iff] at hj ⊢
        rw [← hfor.length_eq]; exact hj
      simp only [idx2hsp, List.getElem?_map, hj, this, Option.map_none]
    | some p =>
      obtain ⟨q, hq, hr, h5, -⟩ := hent j p hj
      simp only [idx2hsp, List.getElem?_map, hj, hq, Option.map_some]
      rw [(hrow p.1 q.1 q.2 h5 hr).1]
  · intro j i l hj
    unfold idx2hsp at hj
    rw [List.getElem?_map] at hj
    cases hp : ((rows.drop 2).zipIdx.filter (fun p => decide ((split p.1).length = 5)))[j]? with
    | none => rw [hp] at hj; cases hj
    | some p =>
      rw [hp] at hj
      simp only [Option.map_some, Option.some.injEq, Prod.mk.injEq] at hj
      obtain ⟨rfl, hl⟩ := hj
      obtain ⟨q, hq, hr, h5, hget⟩ := hent j p hp
      obtain ⟨g1, g2, g3⟩ := hrow p.1 q.1 q.2 h5 hr
      obtain ⟨hlt, he⟩ := List.getElem?_eq_some_iff.1 hget
      have hl1 : p.2 < cs'.length := by rw [← h1.length_eq]; exact hlt
      have gc := (List.forall₂_iff_get.1 h1).2 p.2 hlt hl1
      simp only [List.get_eq_getElem, he, g3] at gc
      refine ⟨?_, p.1, hget, ?_⟩
      · rw [List.getElem?_map, hq, List.getElem?_eq_getElem hl1]
        simp only [Option.map_some]
        rw [Except.ok.inj gc]
      · rw [g2, ← hl, g1]

/-- C165: a row with fewer than four words makes the weights fail. -/
theorem C165_blank_rejected (rows : List Str) (r : Str) (hr : r ∈ rows.drop 2) (h : (split r).length ≤ 3) :
    ∃ e, kptWeights rows = .error e := by
  unfold kptWeights
  refine mapM_isError ⟨r, hr, .indexError, ?_⟩
  unfold pyGet
  rw [List.getElem?_eq_none h]
  rfl

/-- An IN.KPT file with three points, two of them labelled. -/
def threeKpts : List Str := [chars% "3\n", chars% "2 0\n", chars% "0 0 0 0.5 G\n", chars% "0.25 0 0 0.25\n",
  chars% "0.5 0 0 0.25 M\n"]

example : getHsp threeKpts = .ok ([chars% "G", chars% "M"], [[0, 0, 0], [1/2, 0, 0]]) ∧
    kptWeights threeKpts = .ok [1/2, 1/4, 1/4] ∧ idx2hsp threeKpts = [(0, chars% "G"), (2, chars% "M")] := by
  decide +kernel

/-! ## C166 -/

/-- C166 fails: a file that announces three points and has one is read without an error. -/
theorem C166_violated : ∃ rows, inkptNumKpts rows = .ok 3 ∧ inkptInit rows = .ok (2, 0) ∧
    kptWeights rows = .ok [1/2] ∧ kptCoordsFrac rows = .ok [[0, 0, 0]] ∧ ∃ h, getHsp rows = .ok h :=
  ⟨[chars% "3\n", chars% "2 0\n", chars% "0 0 0 0.5 G\n"], by decide +kernel, by decide +kernel,
    by decide +kernel, by decide +kernel, _, rfl⟩

/-- C166, what holds: the number announced is returned as written, and the lists have one entry per row
that is there. -/
theorem C166_number_partial (n : ℕ) (rows rest : List Str)
    (h : rows = (showNat n ++ ['\n']) :: rest) : inkptNumKpts rows = .ok (n : ℤ) := by
  subst h
  unfold inkptNumKpts getline
  obtain ⟨w1, w2⟩ := showNat_word n
  simp only [Nat.one_ne_zero, if_false, Nat.sub_self, List.getElem?_cons_zero, Option.getD_some]
  rw [split_word w1 w2 (by decide)]
  show parseInt (showNat n) = _
  exact parseInt_showNat n

/-! ## C167 -/

/-- The direction of a Cartesian k-point is the direction of its row. -/
def Parallel (u v : Vec ℝ) : Prop := ∃ t : ℝ, ∀ i, u i = t * v i

/-- An IN.KPT file with one k-point in Cartesian coordinates (`iflag = 1`), in units of `a0 = 10`. -/
def cartesianKpt : List Str := [chars% "1\n", chars% "1 10\n", chars% "1 1 0 1\n"]

/-- C167 fails: a file with Cartesian k-points is accepted, and its coordinates are taken for fractional
ones. In a cell with sides 1, 2 and 1 the point in direction `(1, 1, 0)` is turned into another
direction. -/
theorem C167_violated : inkptInit cartesianKpt = .ok (1, 10) ∧
    ∃ lat k, kptCoordsA cartesianKpt lat = .ok [k] ∧ ¬ Parallel k ![1, 1, 0] := by
  refine ⟨by decide +kernel, Matrix.diagonal ![1, 2, 1], ?_⟩
  have hb : (Matrix.diagonal ![(1 : ℝ), 2, 1]) * (Matrix.diagonal ![(1 : ℝ), 1 / 2, 1]).transpose = 1 := by
    rw [Matrix.diagonal_transpose, Matrix.diagonal_mul_diagonal, ← Matrix.diagonal_one]
    congr 1
    funext i
    fin_cases i <;> norm_num
  obtain ⟨hdet, hB⟩ := recip_unique hb
  refine ⟨_, (kptCoordsA_iff _ _ _).2 ⟨hdet, by decide, [![1, 1, 0]], ?_, rfl⟩, ?_⟩
  · refine .cons ?_ .nil
    refine ⟨chars% "1", chars% "1", chars% "0", [chars% "1"], 1, 1, 0, by decide +kernel, by decide +kernel,
      by decide +kernel, by decide +kernel, ?_⟩
    simp
  · rintro ⟨t, ht⟩
    rw [hB] at ht
    have h0 := ht 0
    have h1 := ht 1
    simp [Matrix.vecMul, dotProduct, Fin.sum_univ_three, Matrix.diagonal_apply] at h0 h1
    have := Real.pi_pos
    linarith

/-- C167 fails the other way round: the unit must be written as an integer. -/
theorem C167_violated_unit :
    inkptInit [chars% "1\n", chars% "1 10.2\n", chars% "1 1 0 1\n"] = .error .valueError := by
  decide +kernel

/-- C167, what holds: what is in row 2 makes no difference to the coordinates, so they are right for the
kind of file the class says it supports. -/
theorem C167_fractional_partial (r1 r2 r1' r2' : Str) (rest : List Str) (lat : Matrix (Fin 3) (Fin 3) ℝ)
    (cs : List (Vec ℝ)) (h : kptCoordsA (r1 :: r2 :: rest) lat = .ok cs) :
    kptCoordsA (r1' :: r2' :: rest) lat = .ok cs ∧
    kptCoordsBohr (r1 :: r2 :: rest) lat = .ok (cs.map (fun v => (529177249 / 10 ^ 9 : ℝ) • v)) ∧
    ∃ b, IsReciprocalCryst lat b ∧ ∀ (i : ℕ) row, rest[i]? = some row → ∃ f k, RowKpt row f ∧
      cs[i]? = some k ∧ k = fun j => 2 * Real.pi * ∑ m, f m * b m j := by
  refine ⟨?_, ?_, ?_⟩
  · exact h
  · unfold kptCoordsBohr
    rw [h]
    norm_num
  · obtain ⟨hdet, -, ks, hks, rfl⟩ := (kptCoordsA_iff _ _ _).1 h
    refine ⟨(lat⁻¹).transpose, ?_, ?_⟩
    · unfold IsReciprocalCryst
      rw [Matrix.transpose_transpose, Matrix.mul_nonsing_inv _ (isUnit_iff_ne_zero.2 hdet)]
    · intro i row hi
      have hks : List.Forall₂ RowKpt rest ks := hks
      obtain ⟨f, hf, hk⟩ := forall₂_get hks hi
      refine ⟨f, _, hk, by rw [List.getElem?_map, hf]; rfl, ?_⟩
      funext j
      simp only [Matrix.vecMul, dotProduct, Matrix.smul_apply, smul_eq_mul, Finset.mul_sum]
      exact Finset.sum_congr rfl fun m _ => by ring

/-! ## C168 -/

/-- C168: the rows of DOS.input: the two marks, the smearing (to the fifth decimal) with the number of
energies, the grid; behind each a comment. -/
theorem C168_dos_input (d : DosInput) (hg : ∀ w ∈ d.grid, IsWord w) :
    ∃ r1 r2 r3 r4 r5 w x, fileLines d.text = [r1, r2, r3, r4, r5] ∧
      (split r1).take 2 = [showInt d.markAtoms, chars% "#"] ∧
      (split r2).take 2 = [showInt d.markMethod, chars% "#"] ∧
      (split r3).take 3 = [w, showInt d.numEnergies, chars% "#"] ∧
      (parseFloat w = .ok x ∧ |x - d.ismear| ≤ 5 / 10 ^ 6) ∧
      (split r4).take (d.grid.length + 1) = d.grid ++ [chars% "#"] ∧
      (split r5).take 2 = [chars% "0", chars% "#"] := by
  obtain ⟨a1, a2⟩ := showInt_word d.markAtoms
  obtain ⟨b1, b2⟩ := showInt_word d.markMethod
  obtain ⟨e1, e2⟩ := showInt_word d.numEnergies
  obtain ⟨f1, f2⟩ := fmtFixed_word 5 d.ismear
  have hj := joinSpace_no_newline d.grid hg
  have hlj : '\n' ∉ ljust 10 (showInt d.numEnergies) := by
    intro hc
    rcases ljust_mem hc with h | h
    · exact (showInt_word d.numEnergies).no_newline h
    · revert h; decide
  have hpre : ∀ (a : Str) (s : Str), '\n' ∉ a → (∃ b, s = b ++ ['\n'] ∧ '\n' ∉ b) →
      ∃ b, a ++ s = b ++ ['\n'] ∧ '\n' ∉ b := by
    rintro a s ha ⟨b, rfl, hb⟩
    exact ⟨a ++ b, by simp, by simp [ha, hb]⟩
  have hlines : fileLines d.text = d.rows := by
    have hlast : fileLines (chars% "0  # 只对TDDFT DOS绘制有用") = [chars% "0  # 只对TDDFT DOS绘制有用"] := by
      decide +kernel
    unfold DosInput.text DosInput.rows
    have hstep : ∀ (r rest : Str), (∃ b, r = b ++ ['\n'] ∧ '\n' ∉ b) →
        fileLines (r ++ rest) = r :: fileLines rest := by
      rintro r rest ⟨b, rfl, hb⟩
      rw [List.append_assoc, List.singleton_append, fileLines_row hb]
    simp only [List.flatten_cons, List.flatten_nil, List.append_nil]
    rw [hstep, hstep, hstep, hstep, hlast]
    · exact hpre _ _ hj ⟨chars% "  # NM1,NM2,NM3 插值的格子密度，每个格子包含在NQ1, NQ2, NQ3中", rfl, by decide⟩
    · refine hpre _ _ ?_ ⟨chars% " # 做插值的imsearing energy (单位：eV); 能量网格点数，默认为4000", rfl, by decide⟩
      simp only [List.mem_append, not_or]
      exact ⟨⟨(fmtFixed_word 5 d.ismear).no_newline, by decide⟩, hlj⟩
    · exact hpre _ _ (showInt_word _).no_newline ⟨chars% "  # 设置为1，绘制DOS时使用插值；设置为0，使用高斯展宽(Gaussian broadening)，不做插值", rfl, by decide⟩
    · exact hpre _ _ (showInt_word _).no_newline ⟨chars% "  # 设置为0，则绘制所有原子的DOS；设置为1，则绘制部分原子的DOS，需要在atom.config文件POSITION部分的第8列设置原子权重", rfl, by decide⟩
  refine ⟨_, _, _, _, _, fmtFixed 5 d.ismear, _, hlines, ?_, ?_, ?_,
    ⟨parseFloat_fmtFixed 5 _, ?_⟩, ?_, ?_⟩
  · rw [split_word a1 a2 (by decide)]
    rfl
  · rw [split_word b1 b2 (by decide)]
    rfl
  · simp only [List.append_assoc, List.cons_append, List.nil_append]
    rw [split_word f1 f2 (by decide), split_space (by decide), split_ljust 10 e1 e2 (by decide)]
    rfl
  · have hc : (1 : ℚ) / 2 / 10 ^ 5 = 5 / 10 ^ 6 := by norm_num
    rw [← hc]
    exact fixedValue_error 5 _
  · rw [joinSpace_split d.grid hg (by decide), List.take_append, List.take_of_length_le (by omega)]
    simp only [Nat.add_sub_cancel_left]
    rfl
  · decide

example : ∀ w ∈ (DosInput.mk 0 1 (1/20) 4000 [chars% "8", chars% "8", chars% "8"]).grid, IsWord w := by
  intro w hw
  simp only [List.mem_cons, List.not_mem_nil, or_false, or_self] at hw
  subst hw
  exact ⟨by decide, by decide⟩

/-! ## C169 -/

/-- The number of parameters of each kind of potential, gen_vext.py 38-50. -/
def vextParams : ℤ → ℕ
  | 1 => 3
  | 2 => 6
  | _ => 2

/-- C169 fails: any number of parameters, and of coordinates of the centre, is accepted. -/
theorem C169_violated (center params : List Str) (t : ℤ) (a : Bool) (ht : t = 1 ∨ t = 2 ∨ t = 3) :
    GenVext.make center t a params = .ok ⟨center, t, a, params⟩ := by
  unfold GenVext.make
  rw [if_pos ht]

/-- C169, what holds: other kinds of potential are refused, and the file states centre, kind and parameters
as given. -/
theorem C169_text_partial (center params : List Str) (t : ℤ) (a : Bool) :
    (¬ (t = 1 ∨ t = 2 ∨ t = 3) → GenVext.make center t a params = .error .assertionError) ∧
    ∀ g, GenVext.make center t a params = .ok g → (∀ w ∈ center, IsWord w) → (∀ w ∈ params, IsWord w) →
      ∃ r1 r2 r3 r4, fileLines g.rows.flatten = [r1, r2, r3, r4] ∧
        split r1 = (chars% "VR_CENTER") :: (chars% "=") :: center ∧
        split r2 = [chars% "VR_TYPE", chars% "=", showInt t] ∧
        split r3 = (chars% "VR_DETAIL") :: (chars% "=") :: params ∧
        split r4 = [chars% "ADD_VR", chars% "=", if a then chars% "T" else chars% "F"] := by
  refine ⟨?_, ?_⟩
  · intro h
    unfold GenVext.make
    rw [if_neg h]
  · intro g hg hc hp
    unfold GenVext.make at hg
    split at hg
    · obtain rfl := Except.ok.inj hg
      obtain ⟨t1, t2⟩ := showInt_word t
      have hbody : ∀ (x y : Str), '\n' ∉ x → '\n' ∉ y → ∃ b, x ++ y ++ (chars% "\n") = b ++ ['\n'] ∧ '\n' ∉ b :=
        fun x y hx hy => ⟨x ++ y, rfl, by simp [hx, hy]⟩
      refine ⟨_, _, _, _, fileLines_flatten_rows ?_, ?_, ?_, ?_, ?_⟩
      · intro r hr
        simp only [GenVext.rows, List.mem_cons, List.not_mem_nil, or_false] at hr
        rcases hr with rfl | rfl | rfl | rfl
        · exact hbody _ _ (by decide) (joinSpace_no_newline _ hc)
        · exact hbody _ _ (by decide) (showInt_word t).no_newline
        · exact hbody _ _ (by decide) (joinSpace_no_newline _ hp)
        · refine hbody _ _ (by decide) ?_
          cases a <;> exact of_decide_eq_true rfl
      · have : split ((chars% "VR_CENTER = ") ++ (joinSpace center ++ '\n' :: [])) =
            (chars% "VR_CENTER") :: (chars% "=") :: split (joinSpace center ++ '\n' :: []) := rfl
        rw [joinSpace_split center hc (by decide)] at this
        simpa [split, splitAux] using this
      · have : split ((chars% "VR_TYPE = ") ++ (showInt t ++ '\n' :: [])) =
            (chars% "VR_TYPE") :: (chars% "=") :: split (showInt t ++ '\n' :: []) := rfl
        rw [split_word t1 t2 (by decide)] at this
        simpa [split, splitAux] using this
      · have : split ((chars% "VR_DETAIL = ") ++ (joinSpace params ++ '\n' :: [])) =
            (chars% "VR_DETAIL") :: (chars% "=") :: split (joinSpace params ++ '\n' :: []) := rfl
        rw [joinSpace_split params hp (by decide)] at this
        simpa [split, splitAux] using this
      · cases a <;> rfl
    · cases hg

/-- C169 fails for a linear potential with two parameters instead of three. -/
theorem C169_violated_example : ∃ g, GenVext.make [chars% "0.5"] 1 true [chars% "0.1", chars% "0"] = .ok g ∧
    g.params.length ≠ vextParams 1 ∧ g.center.length ≠ 3 := ⟨_, rfl, by decide, by decide⟩

/-! ## C170 -/

/-- C170, what holds: on the first read of a REPORT the structure file named is the last word of the first
row with `IN.ATOM`. Missing: later reads of an overwritten file (`C170_stale`). -/
theorem C170_in_atom_partial (f : RunFiles) (hc : f.cached = f.report) (row w : Str) (ws : List Str)
    (h : FirstWith f.report (chars% "IN.ATOM") row) (hs : split row = ws ++ [w]) :
    getInAtom f = .ok w := by
  obtain ⟨pre, post, hr, hk, hpre⟩ := h
  have hsearch : pyGet (searchAim f.report (chars% "IN.ATOM")) 0 = .ok (pre.length + 1) := by
    rw [pyGet_eq_ok, searchAim_eq, hr, aimFrom_append, aimFrom_none _ 0 pre hpre, aimFrom_cons,
      if_pos ((strIn_iff _ _).2 hk)]
    simp
  have hline : getline f.cached (pre.length + 1) = row := by
    unfold getline
    rw [if_neg (by omega), hc, hr]
    simp
  unfold getInAtom
  rw [hsearch, ok_bind, hline, hs]
  apply pyGetI_neg_one
  simp

/-- C170: a REPORT without such a row is an error. -/
theorem C170_missing_rejected (f : RunFiles) (h : ∀ r ∈ f.report, ¬ (chars% "IN.ATOM") <:+: r) :
    getInAtom f = .error .indexError := by
  unfold getInAtom
  rw [searchAim_eq, aimFrom_none _ 0 _ h]
  rfl

/-- C170 fails for an overwritten REPORT: the row number of the new file is looked up in the old one, and
a word that names no file is returned. -/
theorem C170_stale : getInAtom ⟨[chars% "JOB = SCF\n", chars% "IN.ATOM = new.config\n"],
      [chars% "IN.ATOM = old.config\n", chars% "PRECISION = DOUBLE\n"], none⟩ = .ok (chars% "DOUBLE") := by
  decide +kernel

example : getInAtom ⟨[chars% "JOB = SCF\n", chars% "IN.ATOM = atom.config\n"],
    [chars% "JOB = SCF\n", chars% "IN.ATOM = atom.config\n"], none⟩ = .ok (chars% "atom.config") := by
  decide +kernel

end MaterSDK
