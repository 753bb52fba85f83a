import Verif.Lemmas.DeepMDMove

/-!
# C23-C28: DeepPot-SE features of one element pair
-/

set_option linter.unusedSectionVars false

namespace MaterSDK

open Classical Topology

/-! ## C23 -/

/-- C23, on any neighbour table with columns: the rows of the result belong, in order, to the table
rows whose centre has element `cz`; each is the list of the non-centre entries of element `nz` in
table order, with coordinates relative to the centre, filled up with zeros to the largest such number;
`expandRc` fills up to the requested width and refuses a smaller one. -/
theorem C23_table (table : List (List NbrEntry)) (hne : table ≠ []) (hc : ∀ r ∈ table, r ≠ [])
    (cz nz : ℕ) :
    ∃ (w : ℕ) (rows : List (List NbrEntry)), extractFeaturePair table cz nz = .ok (w, rows) ∧
      (w = 0 ∨ ∃ (c : NbrEntry) (nbrs : List NbrEntry), c :: nbrs ∈ table ∧ c.1 = cz ∧
        nbrs.countP (fun e => e.1 = nz) = w) ∧
      List.Forall₂ (fun trow row => ∃ (c : NbrEntry) (nbrs : List NbrEntry) (k : ℕ),
          trow = c :: nbrs ∧ row.length = w ∧
          row = (nbrs.filter (fun e => e.1 = nz)).map (fun e => (e.1, e.2.1, e.2.2 - c.2.2))
            ++ List.replicate k (0, 0, 0))
        (table.filter (fun r => r.head?.map Prod.fst = some cz)) rows ∧
      (∀ width : ℕ, w ≤ width → expandRc table cz nz width = .ok (rows.map (fun r =>
        r.map (fun e => e.2.2) ++ List.replicate (width - w) 0))) ∧
      (∀ width : ℤ, width < w → expandRc table cz nz width = .error .assertionError) := by
  refine ⟨_, _, extract_ok table hne hc cz nz, ?_, ?_, ?_, ?_⟩
  · by_cases h0 : table.filter (centreIs cz) = []
    · left; rw [h0]; rfl
    · right
      obtain ⟨row, h1, h2⟩ := List.mem_map.1
        (runningMax_mem (l := (table.filter (centreIs cz)).map (fun r => (pairEntries r nz).length))
          (by simpa using h0))
      obtain ⟨h3, h4⟩ := List.mem_filter.1 h1
      match row, h3, h4, h2 with
      | [], h3, _, _ => exact absurd rfl (hc _ h3)
      | c :: nbrs, h3, h4, h2 =>
        refine ⟨c, nbrs, h3, by simpa [centreIs] using h4, ?_⟩
        rw [← h2, List.countP_eq_length_filter, pairEntries, List.length_map]
  · rw [List.forall₂_map_right_iff]
    refine List.forall₂_same.2 ?_
    intro row hrow
    obtain ⟨h3, h4⟩ := List.mem_filter.1 hrow
    have hle := le_runningMax (l := (table.filter (centreIs cz)).map (fun r => (pairEntries r nz).length))
      (List.mem_map.2 ⟨row, hrow, rfl⟩)
    match row, h3, hle with
    | [], h3, _ => exact absurd rfl (hc _ h3)
    | c :: nbrs, h3, hle =>
      refine ⟨c, nbrs, _, rfl, ?_, rfl⟩
      rw [List.length_append, List.length_replicate]
      omega
  · intro width hw
    unfold expandRc
    rw [extract_ok table hne hc cz nz, ok_bind]
    simp only
    rw [if_neg (by omega)]
    rfl
  · intro width hw
    unfold expandRc
    rw [extract_ok table hne hc cz nz, ok_bind]
    simp only
    rw [if_pos hw]

/-- A table without columns (no neighbour at all, or no atom) is refused. -/
theorem C23_no_columns (table : List (List NbrEntry)) (h : table = [] ∨ [] ∈ table) (cz nz : ℕ) :
    extractFeaturePair table cz nz = .error .indexError := extract_error table h cz nz

/-- C23, for the table of a structure: for every atom of element `cz` (in element order) the row lists
by non-decreasing distance exactly its neighbours of element `nz` within the cutoff, each with its own
distance and the vector from the centre to it, then zeros. -/
theorem C23_structure (A : ArgSort) (s S : Struct ℝ) (hL : s.lattice.det ≠ 0) (hsep : Separated s)
    (hne : s.sites ≠ []) (r : ℝ) (hr : 0 ≤ r) (sc : Fin 3 → ℤ) (m : Fin 3 → ℕ)
    (h : ∀ i, sc i = 2 * (m i : ℤ) + 1) (hS : s.makeSupercell sc true = .ok S) (cz nz : ℕ)
    (hnz : 0 < nz) :
    ∃ (table : List (List NbrEntry)) (w : ℕ) (rows : List (List NbrEntry)),
      neighborTable A s r sc = .ok table ∧ extractFeaturePair table cz nz = .ok (w, rows) ∧
      (∀ c ∈ s.sites, c.z = cz → (nbrsOf S c.pos r nz).length ≤ w) ∧
      (w = 0 ∨ ∃ c ∈ s.sites, c.z = cz ∧ (nbrsOf S c.pos r nz).length = w) ∧
      List.Forall₂ (fun c row => row.length = w ∧ ∃ (ts : List (Site ℝ)) (k : ℕ),
          ts.Perm (nbrsOf S c.pos r nz) ∧
          ts.Pairwise (fun a b => dist3 a.pos c.pos ≤ dist3 b.pos c.pos) ∧
          row = ts.map (fun t => (nz, dist3 t.pos c.pos, t.pos - c.pos))
            ++ List.replicate k (0, 0, 0))
        (s.reformat_.sites.filter (fun c => c.z = cz)) rows := by
  obtain ⟨table, w, rows, h1, h2, h3, h4, h5⟩ := pair_sites A s S hL hsep hne r hr sc m h hS cz nz hnz
  refine ⟨table, w, rows, h1, h2, h3, h4, h5.imp ?_⟩
  rintro c row ⟨ts, e1, e2, e3, e4⟩
  refine ⟨?_, ts, _, e1, e2, e4⟩
  rw [e4, List.length_append, List.length_map, List.length_replicate]
  omega

/-- A table with one Li and one Si centre; the Li-Si pair has one row with one neighbour. -/
example : extractFeaturePair
    [[(3, 0, ![1, 0, 0]), (14, 2, ![3, 0, 0]), (3, 5, ![6, 0, 0])],
     [(14, 0, ![3, 0, 0]), (3, 2, ![1, 0, 0]), (0, 0, 0)]] 3 14
      = .ok (1, [[(14, 2, ![2, 0, 0])]]) := by
  rw [extract_ok _ (by simp) (by simp)]
  simp [centreIs, pairEntries, runningMax]
  norm_num

/-- The hypotheses of C23 hold for a cell with two Li atoms and a Si atom. -/
example : originCell.lattice.det ≠ 0 ∧ Separated originCell ∧ originCell.sites ≠ [] :=
  ⟨by simp [originCell, Matrix.det_diagonal], originCell_separated, by simp [originCell]⟩

/-! ## C24 -/

/-- C24: below the cutoff the weight is positive, at most `1/r`, equal to `1/r` up to `rs`, strictly
decreasing, and it is the weight of the paper; for distance 0 it is 0. -/
theorem C24_weight (rcut rs : ℝ) (h : rs < rcut) :
    (∀ r, 0 < r → r < rcut → 0 < getS rcut rs r ∧ getS rcut rs r ≤ 1 / r) ∧
    (∀ r, 0 < r → r ≤ rs → getS rcut rs r = 1 / r) ∧
    (∀ r r', 0 < r → r < r' → r' < rcut → getS rcut rs r' < getS rcut rs r) ∧
    (∀ r, 0 < r → r < rcut → getS rcut rs r = smoothWeight rcut rs r) ∧
    getS rcut rs 0 = 0 := by
  refine ⟨fun r h0 hr => ?_, fun r h0 hr => ?_, fun r r' h0 h1 h2 => ?_, fun r _ hr => getS_smoothWeight h hr, ?_⟩
  · rw [getS_eq h hr, one_div]
    have hp : 0 < r⁻¹ := inv_pos.2 h0
    refine ⟨mul_pos hp (clampSwitch_pos (frac_lt_one h hr)), ?_⟩
    have := mul_le_mul_of_nonneg_left (clampSwitch_le_one ((r - rs) / (rcut - rs))) hp.le
    rwa [mul_one] at this
  · rw [getS_eq h (lt_of_le_of_lt hr h), clampSwitch_of_nonpos, mul_one, one_div]
    exact div_nonpos_of_nonpos_of_nonneg (by linarith) (by linarith)
  · have hr : r < rcut := h1.trans h2
    rw [getS_eq h h2, getS_eq h hr]
    have a1 : r'⁻¹ < r⁻¹ := (inv_lt_inv₀ (h0.trans h1) h0).2 h1
    have a2 : clampSwitch ((r' - rs) / (rcut - rs)) ≤ clampSwitch ((r - rs) / (rcut - rs)) :=
      clampSwitch_antitone (div_le_div_of_nonneg_right (by linarith) (by linarith))
    have a3 := clampSwitch_pos (frac_lt_one h h2)
    have a4 : 0 < r⁻¹ := inv_pos.2 h0
    calc r'⁻¹ * clampSwitch ((r' - rs) / (rcut - rs))
        < r⁻¹ * clampSwitch ((r' - rs) / (rcut - rs)) := mul_lt_mul_of_pos_right a1 a3
      _ ≤ r⁻¹ * clampSwitch ((r - rs) / (rcut - rs)) := mul_le_mul_of_nonneg_left a2 a4.le
  · simp [getS, recip]

/-- Between `rs = 1` and `rcut = 3` the switch is halved at the middle. -/
example : getS 3 1 2 = 1 / 4 := by
  unfold getS recip switchPoly
  norm_num

/-! ## C25 -/

/-- C25, below the cutoff: the weight is continuous for all `0 < r < rcut` and tends to 0 as `r`
approaches the cutoff from below. Missing: from the cutoff on it is not 0, see `C25_at_cutoff`. -/
theorem C25_below_partial (rcut rs : ℝ) (h0 : 0 < rcut) (h : rs < rcut) :
    ContinuousOn (getS rcut rs) (Set.Ioo 0 rcut) ∧
    Filter.Tendsto (getS rcut rs) (𝓝[<] rcut) (𝓝 0) := by
  have hc : ∀ r, 0 < r → ContinuousAt (fun d : ℝ => d⁻¹ * clampSwitch ((d - rs) / (rcut - rs))) r := by
    intro r hr
    refine (continuousAt_inv₀ hr.ne').mul ?_
    have h1 : ContinuousAt (fun d : ℝ => (d - rs) / (rcut - rs)) r := by fun_prop
    exact (hasDerivAt_clampSwitch _).continuousAt.comp h1
  constructor
  · intro r hr
    refine ContinuousAt.continuousWithinAt ((hc r hr.1).congr ?_)
    filter_upwards [Iio_mem_nhds hr.2] with d hd
    exact (getS_eq h hd).symm
  · have h2 := (hc rcut h0).tendsto
    rw [div_self (sub_pos.2 h).ne', clampSwitch_of_nonneg zero_le_one, switchPoly_one, mul_zero] at h2
    refine (h2.mono_left nhdsWithin_le_nhds).congr' ?_
    filter_upwards [self_mem_nhdsWithin] with d hd
    exact (getS_eq h hd).symm

/-- C25 fails from the cutoff on: the weight jumps back to `1/r`, so it is discontinuous at the
cutoff. -/
theorem C25_at_cutoff (rcut rs : ℝ) (h0 : 0 < rcut) (h : rs < rcut) :
    (∀ r, rcut ≤ r → getS rcut rs r = 1 / r) ∧ ¬ ContinuousAt (getS rcut rs) rcut := by
  have h1 : ∀ r, rcut ≤ r → getS rcut rs r = 1 / r := by
    intro r hr
    unfold getS
    simp only
    rw [if_neg (fun hc => absurd hc.2 (not_lt.2 hr)), recip, if_neg (by linarith)]
  refine ⟨h1, fun hc => ?_⟩
  have h2 : Filter.Tendsto (getS rcut rs) (𝓝[<] rcut) (𝓝 (getS rcut rs rcut)) :=
    hc.tendsto.mono_left nhdsWithin_le_nhds
  have h3 := tendsto_nhds_unique h2 (C25_below_partial rcut rs h0 h).2
  rw [h1 rcut le_rfl] at h3
  exact (one_div_pos.2 h0).ne' h3

/-! ## C26 -/

/-- C26, on a structure. With a width that is large enough for every centre, the row of a centre has
that many entries; entry `i` belongs to the `i`-th neighbour by distance and is
`(s, s x/r, s y/r, s z/r)`; all further entries are zero. -/
theorem C26_structure (A : ArgSort) (s S : Struct ℝ) (hL : s.lattice.det ≠ 0) (hsep : Separated s)
    (hne : s.sites ≠ []) (rcut rs : ℝ) (hr : 0 ≤ rcut) (hrs : rs < rcut) (sc : Fin 3 → ℤ)
    (m : Fin 3 → ℕ) (h : ∀ i, sc i = 2 * (m i : ℤ) + 1) (hS : s.makeSupercell sc true = .ok S)
    (cz nz : ℕ) (hnz : 0 < nz) (width : ℕ)
    (hw : ∀ c ∈ s.sites, c.z = cz → (nbrsOf S c.pos rcut nz).length ≤ width) :
    ∃ (table : List (List NbrEntry)) (rows : List (List (Fin 4 → ℝ))),
      neighborTable A s rcut sc = .ok table ∧ getTildeR rcut rs table cz nz width = .ok rows ∧
      List.Forall₂ (fun c row => row.length = width ∧
        ∃ ts : List (Site ℝ), ts.Perm (nbrsOf S c.pos rcut nz) ∧
          ts.Pairwise (fun a b => dist3 a.pos c.pos ≤ dist3 b.pos c.pos) ∧
          (∀ (i : ℕ) (t : Site ℝ), ts[i]? = some t →
            let r := dist3 t.pos c.pos
            let w := getS rcut rs r
            row[i]? = some ![w, w * (t.pos 0 - c.pos 0) / r, w * (t.pos 1 - c.pos 1) / r,
              w * (t.pos 2 - c.pos 2) / r]) ∧
          (∀ i, ts.length ≤ i → i < width → row[i]? = some 0))
        (s.reformat_.sites.filter (fun c => c.z = cz)) rows := by
  obtain ⟨table, rows, h1, h2, _, h3⟩ :=
    env_structure A s S hL hsep hne rcut rs hr hrs sc m h hS cz nz hnz width hw
  refine ⟨table, _, h1, h2, ?_⟩
  rw [List.forall₂_map_right_iff]
  refine h3.imp ?_
  rintro c row ⟨e1, _, ts, e2, e3, e4, e5⟩
  exact ⟨e1, ts, e2, e3, fun i t hi => (e4 i t hi).1, fun i h6 h7 => (e5 i h6 h7).1⟩

/-- C26: the last three entries of a row have Euclidean norm `s`. -/
theorem C26_norm (w : ℝ) (hw : 0 ≤ w) (p c : Vec ℝ) (hp : p ≠ c) :
    Real.sqrt ((w * (p 0 - c 0) / dist3 p c) ^ 2 + (w * (p 1 - c 1) / dist3 p c) ^ 2
      + (w * (p 2 - c 2) / dist3 p c) ^ 2) = w := by
  have hd : 0 < dist3 p c := dist3_pos.2 hp
  have hsq : dist3 p c ^ 2 = (p 0 - c 0) ^ 2 + (p 1 - c 1) ^ 2 + (p 2 - c 2) ^ 2 := by
    rw [dist3, Real.sq_sqrt (Finset.sum_nonneg (fun i _ => sq_nonneg _)), Fin.sum_univ_three]
  have e : (w * (p 0 - c 0) / dist3 p c) ^ 2 + (w * (p 1 - c 1) / dist3 p c) ^ 2
      + (w * (p 2 - c 2) / dist3 p c) ^ 2 = w ^ 2 := by
    rw [div_pow, div_pow, div_pow, ← add_div, ← add_div, mul_pow, mul_pow, mul_pow, ← mul_add, ← mul_add,
      ← hsq, mul_div_assoc, div_self (pow_pos hd 2).ne', mul_one]
  rw [e, Real.sqrt_sq hw]

/-- C26: a width below the real number of neighbours is refused, except that width 0 silently drops
the neighbours when no centre has more than one. -/
theorem C26_too_small (rcut rs : ℝ) (table : List (List NbrEntry)) (cz nz w : ℕ)
    (rows : List (List NbrEntry)) (h : extractFeaturePair table cz nz = .ok (w, rows)) (width : ℤ)
    (hw : width < w) :
    getTildeR rcut rs table cz nz width =
      if width = 0 ∧ w = 1 then .ok (rows.map (fun _ => [])) else .error .valueError := by
  unfold getTildeR pairTildeR
  rw [h, ok_bind]
  show padWidth 0 (w, rows.map (List.map (envRow rcut rs))) width = _
  split
  · rename_i hc
    obtain ⟨rfl, rfl⟩ := hc
    simp [padWidth, Function.comp_def]
  · rename_i hc
    apply padWidth_error _ _ _ _ hw
    by_contra h1
    push Not at h1
    apply hc
    refine ⟨?_, h1.2⟩
    have := h1.2
    omega

/-- C25 on a structure: an atom exactly at the cutoff contributes a row starting with `1/rcut`, while
the limit from inside is 0. -/
theorem C25_atom_at_cutoff (A : ArgSort) (s S : Struct ℝ) (hL : s.lattice.det ≠ 0)
    (hsep : Separated s) (rcut rs : ℝ) (hr : 0 < rcut) (hrs : rs < rcut) (sc : Fin 3 → ℤ)
    (m : Fin 3 → ℕ) (h : ∀ i, sc i = 2 * (m i : ℤ) + 1) (hS : s.makeSupercell sc true = .ok S)
    (c t : Site ℝ) (hc : c ∈ s.sites) (ht : t ∈ S.sites) (hz : 0 < t.z) (hd : dist3 t.pos c.pos = rcut) :
    ∃ (table : List (List NbrEntry)) (width : ℕ) (rows : List (List (Fin 4 → ℝ))),
      neighborTable A s rcut sc = .ok table ∧ getTildeR rcut rs table c.z t.z width = .ok rows ∧
      ∃ row ∈ rows, ∃ v ∈ row, v 0 = 1 / rcut := by
  have hne : s.sites ≠ [] := List.ne_nil_of_mem hc
  obtain ⟨_, W, _, _, _, hW, _, _⟩ := pair_sites A s S hL hsep hne rcut hr.le sc m h hS c.z t.z hz
  obtain ⟨table, rows, h1, h2, _, h3⟩ := env_structure A s S hL hsep hne rcut rs hr.le hrs sc m h hS
    c.z t.z hz W hW
  refine ⟨table, W, _, h1, h2, ?_⟩
  have hcm : c ∈ s.reformat_.sites.filter (fun x => decide (x.z = c.z)) := by
    rw [List.mem_filter]
    exact ⟨(sortByKey_perm _ _).mem_iff.2 hc, by simp⟩
  obtain ⟨j, hj, hjc⟩ := List.mem_iff_getElem.1 hcm
  have hj' : j < rows.length := by rw [← h3.length_eq]; exact hj
  obtain ⟨_, _, ts, e1, _, e2, _⟩ := h3.get hj hj'
  simp only [List.get_eq_getElem, hjc] at e1 e2
  have htm : t ∈ ts := by
    rw [e1.mem_iff]
    unfold nbrsOf
    rw [List.mem_filter]
    exact ⟨ht, by simp [hd, hr]⟩
  obtain ⟨i, hi, hit⟩ := List.mem_iff_getElem.1 htm
  obtain ⟨g, _⟩ := e2 i t (by rw [List.getElem?_eq_getElem hi, hit])
  refine ⟨rows[j].1, List.mem_map.2 ⟨_, List.getElem_mem hj', rfl⟩, _, List.mem_of_getElem? g, ?_⟩
  simp only [Matrix.cons_val_zero]
  rw [hd]
  exact (C25_at_cutoff rcut rs hr hrs).1 rcut le_rfl

/-! ## C27 -/

/-- C27: for every neighbour position `p` and centre `x` closer than the cutoff, the block computed
from distance and relative coordinates is the derivative of the environment row with respect to the
centre (including `r = rs`). -/
theorem C27_derivative (rcut rs : ℝ) (h : rs < rcut) (p x : Vec ℝ) (nz : ℕ) (h0 : 0 < dist3 p x)
    (hd : dist3 p x < rcut) :
    HasFDerivAt (fun y => envRow rcut rs (nz, dist3 p y, p - y))
      (derivBlock rcut rs (nz, dist3 p x, p - x)).mulVecLin.toContinuousLinearMap x := by
  refine (hasFDerivAt_env rcut rs h p x nz h0 hd).congr_of_eventuallyEq ?_
  have hcont : ContinuousAt (fun y => dist3 p y) x := (hasFDerivAt_dist3 p x h0).continuousAt
  filter_upwards [hcont.eventually (Iio_mem_nhds hd)] with y hy
  have hy' : dist3 p y < rcut := hy
  have hS := getS_smoothWeight h hy'
  ext a
  fin_cases a <;> simp [envRow, envAt, recip_eq, hS] <;> ring

/-- C27, on a structure: in the row of a centre the derivative block at the place of a neighbour closer
than the cutoff is the derivative of that neighbour's environment row (the entry at the same place of
the environment matrix) with respect to the centre's position; the blocks after the last neighbour are
zero. -/
theorem C27_structure (A : ArgSort) (s S : Struct ℝ) (hL : s.lattice.det ≠ 0) (hsep : Separated s)
    (hne : s.sites ≠ []) (rcut rs : ℝ) (hr : 0 ≤ rcut) (hrs : rs < rcut) (sc : Fin 3 → ℤ)
    (m : Fin 3 → ℕ) (h : ∀ i, sc i = 2 * (m i : ℤ) + 1) (hS : s.makeSupercell sc true = .ok S)
    (cz nz : ℕ) (hnz : 0 < nz) (width : ℕ)
    (hw : ∀ c ∈ s.sites, c.z = cz → (nbrsOf S c.pos rcut nz).length ≤ width) :
    ∃ (table : List (List NbrEntry)) (rows : List (List (Fin 4 → ℝ) × List (Matrix (Fin 4) (Fin 3) ℝ))),
      neighborTable A s rcut sc = .ok table ∧
      getTildeR rcut rs table cz nz width = .ok (rows.map Prod.fst) ∧
      calcDerivative rcut rs table cz nz width = .ok (rows.map Prod.snd) ∧
      List.Forall₂ (fun c row => row.1.length = width ∧ row.2.length = width ∧
        ∃ ts : List (Site ℝ), ts.Perm (nbrsOf S c.pos rcut nz) ∧
          ts.Pairwise (fun a b => dist3 a.pos c.pos ≤ dist3 b.pos c.pos) ∧
          (∀ (i : ℕ) (t : Site ℝ), ts[i]? = some t →
            let r := dist3 t.pos c.pos
            let w := getS rcut rs r
            row.1[i]? = some ![w, w * (t.pos 0 - c.pos 0) / r, w * (t.pos 1 - c.pos 1) / r,
              w * (t.pos 2 - c.pos 2) / r] ∧
            (r < rcut → row.1[i]? = some (envAt rcut rs t.pos c.pos) ∧ ∃ M, row.2[i]? = some M ∧
              HasFDerivAt (fun x => envAt rcut rs t.pos x) M.mulVecLin.toContinuousLinearMap c.pos)) ∧
          (∀ i, ts.length ≤ i → i < width → row.1[i]? = some 0 ∧ row.2[i]? = some 0))
        (s.reformat_.sites.filter (fun c => c.z = cz)) rows := env_structure A s S hL hsep hne rcut rs hr hrs sc m h hS cz nz hnz width hw

/-- C27: the block of a padding entry is zero. -/
theorem C27_padding (rcut rs : ℝ) : derivBlock rcut rs (0, 0, 0) = 0 := by
  ext a b; fin_cases a <;> fin_cases b <;> simp [derivBlock, recip]

/-- A neighbour at distance 2 on the x axis, inside the switching region of `rs = 1`, `rcut = 3`. -/
example : dist3 ![2, 0, 0] 0 = 2 ∧ (derivBlock 3 1 (14, 2, ![2, 0, 0])) 0 0 = 19 / 32 := by
  constructor
  · simp [dist3, Fin.sum_univ_three]
  · simp [derivBlock, recip]; norm_num

/-! ## C28 -/

/-- C28: moving the whole structure by an orthogonal matrix `Q` (lattice and atoms) and a translation
`v` leaves the weights unchanged and multiplies the last three entries of every row by `Q`. -/
theorem C28_rigid_motion (A : ArgSort) (s : Struct ℝ) (Q : Matrix (Fin 3) (Fin 3) ℝ)
    (hQ : Q.transpose * Q = 1) (v : Vec ℝ) (r : ℝ) (sc : Fin 3 → ℤ) (table : List (List NbrEntry))
    (hT : neighborTable A s r sc = .ok table) :
    ∃ table', neighborTable A (s.move Q v) r sc = .ok table' ∧
      ∀ (rcut rs : ℝ) (cz nz : ℕ) (width : ℤ), 0 < nz →
        getTildeR rcut rs table' cz nz width =
          (getTildeR rcut rs table cz nz width).map (List.map (List.map (rotateRow Q))) := by
  obtain ⟨rows, n, W, rfl, h⟩ := move_table Q v hQ A s r sc table hT
  exact ⟨_, h, fun rcut rs cz nz width hnz => move_getTildeR Q v nz hnz cz rows n W rcut rs width⟩

/-- C28: translating all atoms by the same vector leaves the environment matrix unchanged. -/
theorem C28_translation (A : ArgSort) (s : Struct ℝ) (v : Vec ℝ) (r : ℝ) (sc : Fin 3 → ℤ)
    (table : List (List NbrEntry)) (hT : neighborTable A s r sc = .ok table) :
    ∃ table', neighborTable A ⟨s.lattice, s.sites.map (fun t => ⟨t.z, t.pos + v, t.mag⟩)⟩ r sc
        = .ok table' ∧
      ∀ (rcut rs : ℝ) (cz nz : ℕ) (width : ℤ), 0 < nz →
        getTildeR rcut rs table' cz nz width = getTildeR rcut rs table cz nz width := by
  obtain ⟨table', h1, h2⟩ := C28_rigid_motion A s 1 (by simp) v r sc table hT
  refine ⟨table', ?_, ?_⟩
  · rw [← h1]
    simp [Struct.move]
  · intro rcut rs cz nz width hnz
    rw [h2 rcut rs cz nz width hnz]
    have : rotateRow 1 = id := by
      funext row
      ext a
      fin_cases a <;> simp [rotateRow]
    rw [this]
    cases getTildeR rcut rs table cz nz width <;> simp [Except.map]

/-- A rotation by 90 degrees about the z axis satisfies the hypothesis of C28. -/
example : (!![0, -1, 0; 1, 0, 0; 0, 0, 1] : Matrix (Fin 3) (Fin 3) ℝ).transpose
    * !![0, -1, 0; 1, 0, 0; 0, 0, 1] = 1 := by
  ext i j
  fin_cases i <;> fin_cases j <;> simp [Matrix.mul_apply, Fin.sum_univ_three]

end MaterSDK
