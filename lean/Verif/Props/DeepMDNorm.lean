import Verif.Lemmas.DeepMDNorm
import Verif.Model.Float64

/-! # Assembled environment matrices and their normalisation: C29, C30, C31 -/

namespace MaterSDK

open Classical

/-! ## C29 -/

/-- C29: position of every entry in the vector returned by `se.py`. The vector is flat and ordered by
centre element, then neighbour element, then atom; it is *not* one row per centre atom (see
`C29_not_row_major`). -/
theorem C29_flat_partial (rcut rs : ℝ) (table : List (List NbrEntry)) (centres nbrs ws : List ℕ)
    (hlen : ws.length = nbrs.length) (hrs : rcut - rs ≠ 0) (htab : table ≠ [])
    (hrows : ∀ r ∈ table, r ≠ []) (hcn : centres ≠ []) (hnn : nbrs ≠ [])
    (hwide : ∀ (c : NbrEntry) (l : List NbrEntry) (k nz w : ℕ), c :: l ∈ table → c.1 ∈ centres →
      nbrs[k]? = some nz → ws[k]? = some w → l.countP (fun e => e.1 = nz) ≤ w) :
    ∃ out, seTildeR rcut rs table centres nbrs (ws.map (Nat.cast : ℕ → ℤ)) = .ok out ∧
      out.length = (centres.map (numCentres table)).sum * (4 * ws.sum) ∧
      ∀ (i k cz nz w : ℕ), centres[i]? = some cz → nbrs[k]? = some nz → ws[k]? = some w →
        ∃ block, getTildeR rcut rs table cz nz w = .ok block ∧ block.length = numCentres table cz ∧
          ∀ (a b : ℕ) (q : Fin 4), a < numCentres table cz → b < w →
            ∃ row v, block[a]? = some row ∧ row[b]? = some v ∧
            out[((centres.take i).map (numCentres table)).sum * (4 * ws.sum) +
              (numCentres table cz * (4 * (ws.take k).sum) + (a * (4 * w) + (b * 4 + q)))]?
                = some (v q) :=
  seTildeR_spec rcut rs table centres nbrs ws hlen hrs htab hrows hcn hnn hwide

/-- C29 is false for `se.py`: the vector is not the rows of the centre atoms one after the other. The
entry where the Si block of the first Li atom should start is the Li entry of the second Li atom. -/
theorem C29_not_row_major : ¬ ∀ (rcut rs : ℝ) (table : List (List NbrEntry))
    (centres nbrs ws : List ℕ) (out : List ℝ),
    seTildeR rcut rs table centres nbrs (ws.map (Nat.cast : ℕ → ℤ)) = .ok out →
    ∀ (i k cz nz w a b : ℕ) (q : Fin 4) (block : List (List (Fin 4 → ℝ))) (row : List (Fin 4 → ℝ))
      (v : Fin 4 → ℝ), centres[i]? = some cz → nbrs[k]? = some nz → ws[k]? = some w →
      getTildeR rcut rs table cz nz w = .ok block → block[a]? = some row → row[b]? = some v →
      out[(((centres.take i).map (numCentres table)).sum + a) * (4 * ws.sum)
        + (4 * ((ws.take k).sum + b) + q)]? = some (v q) := by
  intro H
  obtain ⟨out, h1, -, h2⟩ := C29_flat_partial 3 2 twoLiTable [3] [3, 14] [1, 1] rfl (by norm_num)
    (by simp [twoLiTable]) (by simp [twoLiTable]) (by simp) (by simp) twoLi_wide
  have h3 := H 3 2 twoLiTable [3] [3, 14] [1, 1] out h1 0 1 3 14 1 0 0 0 _ [![2, 2, 0, 0]]
    ![2, 2, 0, 0] rfl rfl rfl twoLi_blocks.2 rfl rfl
  obtain ⟨block, h4, -, h5⟩ := h2 0 0 3 3 1 rfl rfl rfl
  rw [twoLi_blocks.1] at h4
  obtain rfl := Except.ok.inj h4
  obtain ⟨row, v, h6, h7, h8⟩ := h5 1 0 0 (by rw [twoLi_numCentres]; norm_num) (by norm_num)
  simp at h6
  subst h6
  simp at h7
  subst h7
  simp at h3 h8
  rw [h3] at h8
  norm_num at h8

/-- C29 holds for the matrix assembled by `TildeRNormalizer.normalize` when the two element lists agree:
one row per centre atom, grouped by centre element, all of the same width, the block of the k-th
neighbour element starting at the sum of the widths before it. The same for the derivatives. -/
theorem C29_normalizer (rcut rs : ℝ) (els ws : List ℕ) (davgs dstds : List (Fin 4 → ℝ)) (N : Normalizer)
    (hN : mkNormalizer rcut rs els els (ws.map (Nat.cast : ℕ → ℤ)) davgs dstds = .ok N)
    (hlen : ws.length = els.length) (hnd : els.Nodup) (hne : els ≠ []) (hrs : rcut ≠ rs)
    (table : List (List NbrEntry)) (htab : table ≠ []) (hrows : ∀ r ∈ table, r ≠ [])
    (hwide : ∀ (c : NbrEntry) (l : List NbrEntry) (k nz w : ℕ), c :: l ∈ table → c.1 ∈ els →
      els[k]? = some nz → ws[k]? = some w → l.countP (fun e => e.1 = nz) ≤ w) :
    ∃ (R : List (List (Fin 4 → ℝ))) (D : List (List (Matrix (Fin 4) (Fin 3) ℝ))),
      N.normalize table = .ok (R, D) ∧ R.length = (els.map (numCentres table)).sum ∧
      D.length = (els.map (numCentres table)).sum ∧
      ∀ (i k cz nz w : ℕ) (davg dstd : Fin 4 → ℝ), els[i]? = some cz → els[k]? = some nz →
        ws[k]? = some w → davgs[i]? = some davg → dstds[i]? = some dstd →
        ∃ Rp Dp, getTildeR rcut rs table cz nz w = .ok Rp ∧
          calcDerivative rcut rs table cz nz w = .ok Dp ∧
          ∀ a, a < numCentres table cz → ∃ row drow prow pdrow,
            R[((els.take i).map (numCentres table)).sum + a]? = some row ∧
            D[((els.take i).map (numCentres table)).sum + a]? = some drow ∧
            row.length = ws.sum ∧ drow.length = ws.sum ∧ Rp[a]? = some prow ∧ Dp[a]? = some pdrow ∧
            prow.length = w ∧ pdrow.length = w ∧
            ∀ b, b < w →
              row[(ws.take k).sum + b]? = prow[b]?.map (normalizeRow davg dstd) ∧
              drow[(ws.take k).sum + b]? = pdrow[b]?.map (normalizeDeriv dstd) := by
  unfold mkNormalizer at hN
  split at hN
  · cases hN
  rename_i hl
  push Not at hl
  obtain rfl := (Except.ok.inj hN).symm
  let wOf : ℕ → ℕ := fun nz => ws[els.idxOf nz]?.getD 0
  have hwOf : ∀ k nz w : ℕ, els[k]? = some nz → ws[k]? = some w → wOf nz = w := by
    intro k nz w h1 h2
    obtain ⟨hk, rfl⟩ := List.getElem?_eq_some_iff.1 h1
    simp only [wOf]
    rw [hnd.idxOf_getElem k hk, h2]; rfl
  have hget : ∀ k nz : ℕ, els[k]? = some nz → ws[k]? = some (wOf nz) := by
    intro k nz h1
    have hk : k < ws.length := by rw [hlen]; exact (List.getElem?_eq_some_iff.1 h1).1
    rw [hwOf k nz ws[k] h1 (List.getElem?_eq_getElem hk), List.getElem?_eq_getElem hk]
  have hmap : els.map wOf = ws := by
    apply List.ext_getElem?
    intro k
    rw [List.getElem?_map]
    by_cases hk : k < els.length
    · rw [hget k els[k] (List.getElem?_eq_getElem hk), List.getElem?_eq_getElem hk]; rfl
    · rw [List.getElem?_eq_none (by omega), List.getElem?_eq_none (by omega)]; rfl
  obtain ⟨R, D, r1, r2, r3, r4⟩ := normalize_spec
    ⟨rcut, rs, els, els, ws.map (Nat.cast : ℕ → ℤ), davgs, dstds⟩ table wOf
    (fun k nz h => by simp only [List.getElem?_map, hget k nz h, Option.map_some]) hl.1 hl.2 hnd hnd
    (fun _ h => h) hne (sub_ne_zero.2 hrs) htab hrows
    (fun c l nz h1 h2 h3 => by
      obtain ⟨k, hk⟩ := List.mem_iff_getElem?.1 h3
      exact hwide c l k nz _ h1 h2 hk (hget k nz hk))
  refine ⟨R, D, r1, r2, r3, ?_⟩
  intro i k cz nz w davg dstd h1 h2 h3 h4 h5
  have := r4 i k cz nz davg dstd h1 h2 h4 h5
  simp only [List.map_take, hmap, hwOf k nz w h2 h3] at this ⊢
  exact this

/-- The hypotheses of C29 hold for the table of two Li atoms with both elements as neighbours. -/
example : (∀ r ∈ twoLiTable, r ≠ []) ∧ numCentres twoLiTable 3 = 2 ∧
    getTildeR 3 2 twoLiTable 3 14 (1 : ℕ) = .ok [[![2, 2, 0, 0]], [![2, 2, 0, 0]]] :=
  ⟨by simp [twoLiTable], twoLi_numCentres, twoLi_blocks.2⟩

/-! ## C30 -/

/-- C30: a standard deviation that is a number is at least 1e-2. -/
theorem C30_floor (sum2 sum : ℝ) (n : ℕ) (σ : ℝ) (h : calcStd sum2 sum n = some σ) : 1 / 100 ≤ σ := by
  unfold calcStd at h
  split at h
  · simp at h; rw [← h]; norm_num
  · simp only at h
    split at h
    · cases h
    · split at h
      · simp at h; rw [← h]; norm_num
      · rename_i h1 h2
        simp only [Option.some.injEq] at h
        rw [abs_of_nonneg (Real.sqrt_nonneg _)] at h2
        rw [← h]; linarith

/-- C30: it is a number exactly when the variance of the two sums is not negative. -/
theorem C30_number_iff (sum2 sum : ℝ) (n : ℕ) :
    (∃ σ, calcStd sum2 sum n = some σ) ↔ n = 0 ∨ (sum / n) ^ 2 ≤ sum2 / n := by
  unfold calcStd
  split
  · rename_i h; simp [h]
  · rename_i h
    simp only [h, false_or]
    split
    · rename_i h1
      simp only [reduceCtorEq, exists_false, false_iff, not_le]
      rw [sq]; linarith
    · rename_i h1
      constructor
      · intro _; rw [sq]; linarith
      · intro _; split <;> exact ⟨_, rfl⟩

/-- C30: the statistics of samples: for every list of sample rows, empty or constant included, the four
deviations are numbers not below 1e-2. Exact arithmetic; in doubles it can fail, see `C30_double_nan`. -/
theorem C30_samples_partial (rows : List (Fin 4 → ℝ)) (q : Fin 4) :
    ∃ σ, (calcPairStats rows).dstd q = some σ ∧ 1 / 100 ≤ σ := by
  have hrad : ∃ σ, calcStd ((rows.map (fun v => v 0)).map (fun x => x * x)).sum
      (rows.map (fun v => v 0)).sum (rows.map (fun v => v 0)).length = some σ := by
    rw [C30_number_iff]
    by_cases h0 : (rows.map (fun v => v 0)).length = 0
    · exact Or.inl h0
    · right
      have hn : (0 : ℝ) < (rows.map (fun v => v 0)).length := by exact_mod_cast Nat.pos_of_ne_zero h0
      have := sum_sq_le (rows.map (fun v => v 0))
      rw [div_pow, div_le_div_iff₀ (by positivity) hn]
      nlinarith
  have hang : ∃ σ, calcStd (((rows.flatMap (fun v => [v 1, v 2, v 3])).map (fun x => x * x)).sum / 3)
      ((rows.flatMap (fun v => [v 1, v 2, v 3])).sum / 3) (rows.map (fun v => v 0)).length
        = some σ := by
    rw [C30_number_iff]
    by_cases h0 : (rows.map (fun v => v 0)).length = 0
    · exact Or.inl h0
    · right
      have hn : (0 : ℝ) < (rows.map (fun v => v 0)).length := by exact_mod_cast Nat.pos_of_ne_zero h0
      have h1 := sum_sq_le (rows.flatMap (fun v => [v 1, v 2, v 3]))
      rw [flatMap_three] at h1
      rw [List.length_map] at hn ⊢
      push_cast at h1
      rw [div_pow, div_le_div_iff₀ (by positivity) hn, div_pow]
      generalize (rows.flatMap (fun v => [v 1, v 2, v 3])).sum = S at *
      generalize ((rows.flatMap (fun v => [v 1, v 2, v 3])).map (fun x => x * x)).sum = Q at *
      have : S ^ 2 ≤ 3 * rows.length * Q := by linarith
      nlinarith
  obtain ⟨σ1, h1⟩ := hrad
  obtain ⟨σ2, h2⟩ := hang
  fin_cases q
  · exact ⟨σ1, h1, C30_floor _ _ _ _ h1⟩
  · exact ⟨σ2, h2, C30_floor _ _ _ _ h2⟩
  · exact ⟨σ2, h2, C30_floor _ _ _ _ h2⟩
  · exact ⟨σ2, h2, C30_floor _ _ _ _ h2⟩

/-- C30: with deviations not below 1e-2, multiplying by the deviation and adding the average gives the
row back, and the derivative block is recovered in the same way. -/
theorem C30_invertible (davg dstd : Fin 4 → ℝ) (h : ∀ q, 1 / 100 ≤ dstd q) (row : Fin 4 → ℝ)
    (b : Matrix (Fin 4) (Fin 3) ℝ) (q : Fin 4) (j : Fin 3) :
    normalizeRow davg dstd row q * dstd q + davg q = row q ∧ normalizeDeriv dstd b q j * dstd q = b q j := by
  have : dstd q ≠ 0 := by have := h q; intro h0; rw [h0] at this; norm_num at this
  unfold normalizeRow normalizeDeriv
  constructor
  · rw [div_mul_cancel₀ _ this]; ring
  · rw [div_mul_cancel₀ _ this]

/-- C30: the averages: the mean of the weights (with 1e-15 added to the count), zero for the other
columns, and zero without samples. -/
theorem C30_average (rows : List (Fin 4 → ℝ)) :
    (calcPairStats rows).davg 0 * (rows.length + 1 / 10 ^ 15) = (rows.map (fun v => v 0)).sum ∧
      ∀ q, q ≠ 0 → (calcPairStats rows).davg q = 0 := by
  constructor
  · have : (rows.length : ℝ) + 1 / 10 ^ 15 ≠ 0 := by positivity
    simp only [calcPairStats, List.length_map, Matrix.cons_val_zero]
    rw [div_mul_cancel₀ _ this]
  · intro q hq
    fin_cases q
    · exact absurd rfl hq
    · rfl
    · rfl
    · rfl

/-- C30 fails in double arithmetic: for three equal weights 0.1 the rounded variance is negative, so the
square root is NaN, which the comparison with 1e-2 lets through. -/
theorem C30_double_nan : flVariance [fl (1 / 10), fl (1 / 10), fl (1 / 10)] < 0 ∧
    calcStd (-1) 0 1 = none := by
  constructor
  · decide +kernel
  · simp [calcStd]

/-- Constant weights 1/2 have deviation exactly 1e-2; weights 0 and 2 have deviation 1. -/
example : (calcPairStats [![1 / 2, 0, 0, 0], ![1 / 2, 0, 0, 0]]).dstd 0 = some (1 / 100) ∧
    (calcPairStats [![0, 0, 0, 0], ![2, 0, 0, 0]]).dstd 0 = some 1 := by
  constructor
  · simp [calcPairStats, calcStd]
    try norm_num
  · simp [calcPairStats, calcStd]
    try norm_num

/-! ## C31 -/

/-- C31: what `normalize` covers when every centre element is a neighbour element: for each centre
element the blocks of those neighbour elements that are also *centre* elements, in the order of the centre
list. Missing against the claim: neighbour elements that are not centre elements get no columns (the row
length is the sum of the widths of the centre elements), see `C31_not_all_neighbours`; centre elements
outside the neighbour list are refused, see `C31_key_error`. -/
theorem C31_covers_partial (N : Normalizer) (table : List (List NbrEntry)) (wOf : ℕ → ℕ)
    (hw : ∀ k nz : ℕ, N.nbrs[k]? = some nz → N.widths[k]? = some (wOf nz : ℤ))
    (hdavg : N.davgs.length = N.centres.length) (hdstd : N.dstds.length = N.centres.length)
    (hc : N.centres.Nodup) (hn : N.nbrs.Nodup) (hsub : N.centres ⊆ N.nbrs) (hne : N.centres ≠ [])
    (hrs : N.rcut - N.rs ≠ 0) (htab : table ≠ []) (hrows : ∀ r ∈ table, r ≠ [])
    (hwide : ∀ (c : NbrEntry) (l : List NbrEntry) (nz : ℕ), c :: l ∈ table → c.1 ∈ N.centres →
      nz ∈ N.nbrs → l.countP (fun e => e.1 = nz) ≤ wOf nz) :
    ∃ (R : List (List (Fin 4 → ℝ))) (D : List (List (Matrix (Fin 4) (Fin 3) ℝ))),
      N.normalize table = .ok (R, D) ∧
      R.length = (N.centres.map (numCentres table)).sum ∧
      D.length = (N.centres.map (numCentres table)).sum ∧
      ∀ (i k cz nz : ℕ) (davg dstd : Fin 4 → ℝ), N.centres[i]? = some cz → N.centres[k]? = some nz →
        N.davgs[i]? = some davg → N.dstds[i]? = some dstd →
        ∃ Rp Dp, getTildeR N.rcut N.rs table cz nz (wOf nz) = .ok Rp ∧
          calcDerivative N.rcut N.rs table cz nz (wOf nz) = .ok Dp ∧
          ∀ a, a < numCentres table cz → ∃ row drow prow pdrow,
            R[((N.centres.take i).map (numCentres table)).sum + a]? = some row ∧
            D[((N.centres.take i).map (numCentres table)).sum + a]? = some drow ∧
            row.length = (N.centres.map wOf).sum ∧ drow.length = (N.centres.map wOf).sum ∧
            Rp[a]? = some prow ∧ Dp[a]? = some pdrow ∧ prow.length = wOf nz ∧ pdrow.length = wOf nz ∧
            ∀ b, b < wOf nz →
              row[((N.centres.take k).map wOf).sum + b]? = prow[b]?.map (normalizeRow davg dstd) ∧
              drow[((N.centres.take k).map wOf).sum + b]? = pdrow[b]?.map (normalizeDeriv dstd) :=
  normalize_spec N table wOf hw hdavg hdstd hc hn hsub hne hrs htab hrows hwide

/-- The normaliser of a training set with Li centres and Li, Si neighbours. -/
noncomputable def liSiNormalizer : Normalizer :=
  ⟨3, 2, [3], [3, 14], [1, 1], [![0, 0, 0, 0]], [![1, 1, 1, 1]]⟩

/-- C31 is false: with Li centres and Li, Si neighbours the Si blocks are silently dropped. Every row has
one entry although the widths add up to two. -/
theorem C31_not_all_neighbours : ∃ R D, liSiNormalizer.normalize twoLiTable = .ok (R, D) ∧
    (∀ row ∈ R, row.length = 1) ∧ R ≠ [] ∧ liSiNormalizer.widths.sum = 2 := by
  obtain ⟨R, D, h1, h2, -, h3⟩ := C31_covers_partial liSiNormalizer twoLiTable (fun _ => 1)
    (by
      intro k nz hk
      match k with
      | 0 => rfl
      | 1 => rfl
      | k + 2 => simp [liSiNormalizer] at hk)
    rfl rfl (by simp [liSiNormalizer]) (by simp [liSiNormalizer])
    (by simp [liSiNormalizer]) (by simp [liSiNormalizer]) (by norm_num [liSiNormalizer])
    (by simp [twoLiTable]) (by simp [twoLiTable])
    (by
      intro c l nz h hc hnz
      obtain ⟨k, hk⟩ := List.mem_iff_getElem?.1 hnz
      have hk2 : k < 2 := (List.getElem?_eq_some_iff.1 hk).1
      refine twoLi_wide c l k nz 1 h hc hk ?_
      interval_cases k <;> rfl)
  refine ⟨R, D, h1, ?_, ?_, by simp [liSiNormalizer]⟩
  · intro row hrow
    obtain ⟨a, ha⟩ := List.mem_iff_getElem?.1 hrow
    have hlen : R.length = 2 := by rw [h2]; simp [liSiNormalizer, twoLi_numCentres]
    have hal : a < 2 := by rw [← hlen]; exact (List.getElem?_eq_some_iff.1 ha).1
    obtain ⟨_, _, _, _, h4⟩ := h3 0 0 3 3 _ _ rfl rfl rfl rfl
    obtain ⟨row', _, _, _, h5, _, h6, _⟩ := h4 a (by rw [twoLi_numCentres]; exact hal)
    simp at h5
    rw [ha] at h5
    rw [Option.some.inj h5, h6]
    simp [liSiNormalizer]
  · intro h0
    rw [h0] at h2
    simp [liSiNormalizer, twoLi_numCentres] at h2

/-- C31: a centre element that is not a neighbour element makes the last step fail with `KeyError`. -/
theorem C31_key_error (N : Normalizer) (table : List (List NbrEntry))
    (dict : List ((ℕ × ℕ) × NormBlock)) (hd : N.normalizeDict table = .ok dict)
    (c : ℕ) (hc : c ∈ N.centres) (hn : c ∉ N.nbrs) :
    N.normalize table = .error .keyError := by
  have hkey : ∀ cz b, ((cz, c), b) ∉ dict := by
    intro cz b hb
    unfold Normalizer.normalizeDict at hd
    obtain ⟨items, h1, h2⟩ := bind_eq_ok.1 hd
    obtain rfl := (Except.ok.inj h2)
    obtain ⟨l, hl, hbl⟩ := List.mem_flatten.1 hb
    obtain ⟨i, hi⟩ := List.mem_iff_getElem?.1 hl
    obtain ⟨x, hx, hf⟩ := forall₂_get' (mapM_eq_ok.1 h1) hi
    obtain ⟨k, hk⟩ := List.mem_iff_getElem?.1 hbl
    obtain ⟨y, hy, hg⟩ := forall₂_get' (mapM_eq_ok.1 hf) hk
    obtain ⟨b', _, hb'⟩ := bind_eq_ok.1 hg
    have := Except.ok.inj hb'
    simp only [Prod.mk.injEq] at this
    have hy' := List.mem_of_getElem? ((zipIdx_get _ _).1 (List.mem_of_getElem? hy))
    rw [this.1.2] at hy'
    exact hn hy'
  unfold Normalizer.normalize
  rw [hd, ok_bind]
  obtain ⟨c0, rest, hcs⟩ := List.exists_cons_of_ne_nil (List.ne_nil_of_mem hc)
  have hinner : ∀ cz, N.centres.mapM (fun nz => pyDictGet dict (cz, nz)) = .error .keyError := by
    intro cz
    have : ∃ e, N.centres.mapM (fun nz => pyDictGet dict (cz, nz)) = .error e := by
      exact mapM_isError ⟨c, hc, .keyError, (pyDictGet_err dict (cz, c)).2 (hkey cz)⟩
    obtain ⟨e, he⟩ := this
    obtain ⟨x, _, hx⟩ := mapM_eq_error he
    rw [he, pyDictGet_error_kind dict _ e hx]
  have houter : N.centres.mapM (fun cz => do
      let blocks ← N.centres.mapM (fun nz => pyDictGet dict (cz, nz))
      let r ← concatAxis1 (blocks.map Prod.fst)
      let d ← concatAxis1 (blocks.map Prod.snd)
      return (r, d)) = Except.error PyErr.keyError := by
    simp only [hinner]
    rw [hcs]
    rfl
  rw [houter]
  rfl

end MaterSDK
