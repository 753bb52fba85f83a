import Verif.Lemmas.DeepMDNorm
import Verif.Lemmas.DeepMDDRows
import Verif.Spec.NormBuild
import Verif.Spec.NeighD

/-! # Helper lemmas for the normaliser in doubles -/

namespace MaterSDK

open Classical

theorem blockD_id (N : Normalizer) (table : List (List NbrEntry)) : N.blockD id table = N.block table := by
  funext cz ci nz ni
  unfold Normalizer.blockD Normalizer.block pairTildeR
  have e1 : envRowPyD id N.rcut N.rs = envRow N.rcut N.rs := by
    funext e a
    simp [envRowPyD, envRow, getSD_id, recipD, recip]
  have e2 : ∀ w, calcDerivativeD id N.rcut N.rs table cz nz w = calcDerivative N.rcut N.rs table cz nz w := by
    intro w
    unfold calcDerivativeD calcDerivative
    have : derivBlockD id N.rcut N.rs = derivBlock N.rcut N.rs := funext fun e => derivBlockD_id _ _ e
    rw [extractFeaturePairD_id, this]
    rfl
  rw [extractFeaturePairD_id, e1]
  simp only [e2]
  cases extractFeaturePair table cz nz <;> rfl

/-- Without rounding the normaliser is that of `DeepMD.lean`. -/
theorem normalizeD_id (N : Normalizer) (table : List (List NbrEntry)) : N.normalizeD id table = N.normalize table := by
  unfold Normalizer.normalizeD
  rw [blockD_id]
  rfl

theorem norm_err {v e μ σ E : ℝ} (hσ : 0 < σ) (h : |v - e| ≤ E) :
    |flR (flR (v - μ) / σ) - (e - μ) / σ| ≤ (2 * E + 3 * (uR * |e - μ|)) / σ := by
  obtain ⟨d1, h1, e1⟩ := flR_rel (v - μ)
  obtain ⟨d2, h2, e2⟩ := flR_rel (flR (v - μ) / σ)
  rw [e2, e1]
  have hu := uR_pos
  have hu1 : uR ≤ 1 / 1000 := by rw [uR_eq]; norm_num
  have hk : |(1 + d1) * (1 + d2) - 1| ≤ 3 * uR := by
    have : (1 + d1) * (1 + d2) - 1 = d1 + d2 + d1 * d2 := by ring
    rw [this]
    have h3 : |d1 * d2| ≤ uR * 1 := by
      rw [abs_mul]
      exact mul_le_mul h1 (by linarith) (abs_nonneg _) hu.le
    have := abs_add_le (d1 + d2) (d1 * d2)
    have := abs_add_le d1 d2
    linarith
  have hk2 : |(1 + d1) * (1 + d2)| ≤ 2 := by
    have := abs_le.1 hk
    rw [abs_le]; constructor <;> linarith
  have e3 : (v - μ) * (1 + d1) / σ * (1 + d2) - (e - μ) / σ =
      ((v - e) * ((1 + d1) * (1 + d2)) + (e - μ) * ((1 + d1) * (1 + d2) - 1)) / σ := by
    field_simp
    ring
  rw [e3, abs_div, abs_of_pos hσ]
  refine div_le_div_of_nonneg_right ?_ hσ.le
  refine (abs_add_le _ _).trans ?_
  rw [abs_mul (v - e), abs_mul (e - μ)]
  have hE : 0 ≤ E := (abs_nonneg _).trans h
  have a1 := mul_le_mul h hk2 (abs_nonneg _) hE
  have a2 := mul_le_mul_of_nonneg_left hk (abs_nonneg (e - μ))
  linarith

theorem norm_deriv_err {b d σ E : ℝ} (hσ : 0 < σ) (h : |b - d| ≤ E) :
    |flR (b / σ) - d / σ| ≤ 2 * E / σ + uR * |d / σ| := by
  obtain ⟨d2, h2, e2⟩ := flR_rel (b / σ)
  rw [e2]
  have hu1 : uR ≤ 1 / 1000 := by rw [uR_eq]; norm_num
  have e3 : b / σ * (1 + d2) - d / σ = (b - d) * (1 + d2) / σ + d2 * (d / σ) := by
    field_simp
    ring
  rw [e3]
  refine (abs_add_le _ _).trans (add_le_add ?_ ?_)
  · rw [abs_div, abs_of_pos hσ, abs_mul]
    refine div_le_div_of_nonneg_right ?_ hσ.le
    have hE : 0 ≤ E := (abs_nonneg _).trans h
    have h3 : |1 + d2| ≤ 2 := by
      have := abs_le.1 h2
      rw [abs_le]; constructor <;> linarith
    have := mul_le_mul h h3 (abs_nonneg _) hE
    linarith
  · rw [abs_mul]
    exact mul_le_mul_of_nonneg_right h2 (abs_nonneg _)

/-- Where the entries of the blocks are put when centre and neighbour elements agree. -/
theorem normalizeWith_place (els ws : List ℕ) (block : ℕ → ℕ → ℕ → ℕ → Except PyErr NormBlock)
    (B : ℕ → ℕ → NormBlock)
    (h : ∀ (i k cz nz : ℕ), els[i]? = some cz → els[k]? = some nz → block cz i nz k = .ok (B i k))
    (hnd : els.Nodup) (hne : els ≠ []) (hws : ws.length = els.length) (n : ℕ → ℕ)
    (hlen : ∀ (i k cz w : ℕ), els[i]? = some cz → ws[k]? = some w →
      (B i k).1.length = n cz ∧ (B i k).2.length = n cz ∧
      (∀ r ∈ (B i k).1, r.length = w) ∧ ∀ r ∈ (B i k).2, r.length = w) :
    ∃ R D, normalizeWith els els block = .ok (R, D) ∧ R.length = (els.map n).sum ∧ D.length = (els.map n).sum ∧
      ∀ (i cz a : ℕ), els[i]? = some cz → a < n cz → ∃ row drow,
        R[((els.take i).map n).sum + a]? = some row ∧ D[((els.take i).map n).sum + a]? = some drow ∧
        row.length = ws.sum ∧ drow.length = ws.sum ∧
        ∀ (k w b : ℕ), ws[k]? = some w → b < w →
          row[(ws.take k).sum + b]? = ((B i k).1[a]?.getD [])[b]? ∧
          drow[(ws.take k).sum + b]? = ((B i k).2[a]?.getD [])[b]? := by
  have hwk : ∀ k, k < els.length → ∃ w, ws[k]? = some w := fun k hk =>
    ⟨ws[k], List.getElem?_eq_getElem (by omega)⟩
  obtain ⟨R, D, r1, r2, r3, r4⟩ := normalizeWith_core els els block B h hnd hnd (fun _ h => h) hne n (by
    intro i k cz hi hk
    obtain ⟨w, hw⟩ := hwk k hk
    obtain ⟨g1, g2, -⟩ := hlen i k cz w hi hw
    exact ⟨g1, g2⟩)
  refine ⟨R, D, r1, r2, r3, fun i cz a hi ha => ?_⟩
  obtain ⟨f1, f2⟩ := r4 i cz a hi ha
  have hget : ∀ k w, ws[k]? = some w →
      ((B i k).1[a]?.getD []).length = w ∧ ((B i k).2[a]?.getD []).length = w := by
    intro k w hw
    obtain ⟨g1, g2, g3, g4⟩ := hlen i k cz w hi hw
    rw [List.getElem?_eq_getElem (by omega), List.getElem?_eq_getElem (by omega)]
    exact ⟨g3 _ (List.getElem_mem _), g4 _ (List.getElem_mem _)⟩
  have hl1 : (els.map (fun c => (B i (els.idxOf c)).1[a]?.getD [])).map List.length = ws := by
    refine List.ext_getElem (by simp [hws]) fun k hk1 hk2 => ?_
    simp only [List.getElem_map]
    rw [hnd.idxOf_getElem]
    exact (hget k _ (List.getElem?_eq_getElem hk2)).1
  have hl2 : (els.map (fun c => (B i (els.idxOf c)).2[a]?.getD [])).map List.length = ws := by
    refine List.ext_getElem (by simp [hws]) fun k hk1 hk2 => ?_
    simp only [List.getElem_map]
    rw [hnd.idxOf_getElem]
    exact (hget k _ (List.getElem?_eq_getElem hk2)).2
  refine ⟨_, _, f1, f2, by rw [List.length_flatten, hl1], by rw [List.length_flatten, hl2], ?_⟩
  intro k w b hw hb
  obtain ⟨q1, q2⟩ := hget k w hw
  have hk : k < els.length := by rw [← hws]; exact (List.getElem?_eq_some_iff.1 hw).1
  constructor
  · conv_lhs => rw [← hl1, ← List.map_take]
    exact flatten_get _ k ((B i k).1[a]?.getD []) (by
      rw [List.getElem?_map, List.getElem?_eq_getElem hk, Option.map_some, hnd.idxOf_getElem]) b (by omega)
  · conv_lhs => rw [← hl2, ← List.map_take]
    exact flatten_get _ k ((B i k).2[a]?.getD []) (by
      rw [List.getElem?_map, List.getElem?_eq_getElem hk, Option.map_some, hnd.idxOf_getElem]) b (by omega)

/-- A block of the normaliser from the arrays of its pair. -/
theorem blockD_ok (N : Normalizer) (table : List (List NbrEntry)) {cz ci nz ni : ℕ} {width : ℤ}
    {davg dstd : Fin 4 → ℝ} {Rp Dp} (hw : pyGet N.widths ni = .ok width) (h1 : pyGet N.davgs ci = .ok davg)
    (h2 : pyGet N.dstds ci = .ok dstd) (hR : getTildeRD flR N.rcut N.rs table cz nz width = .ok Rp)
    (hD : calcDerivativeD flR N.rcut N.rs table cz nz width = .ok Dp) :
    N.blockD flR table cz ci nz ni = .ok (Rp.map (List.map (normalizeRowD flR davg dstd)),
      Dp.map (List.map (normalizeDerivD flR dstd))) := by
  unfold getTildeRD at hR
  obtain ⟨⟨w, rows⟩, g1, g2⟩ := bind_eq_ok.1 hR
  unfold Normalizer.blockD
  rw [g1, ok_bind]
  simp only at g2 ⊢
  rw [hw, ok_bind, g2, ok_bind, hD, ok_bind, h1, ok_bind, h2, ok_bind]
  rfl

end MaterSDK
