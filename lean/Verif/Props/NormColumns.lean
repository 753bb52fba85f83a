import Verif.Lemmas.NormColumns
import Verif.Props.DeepMDNorm

/-! # Exactly when the normalised rows cover all neighbour elements: C31 -/

namespace MaterSDK

/-- C31, the exact condition: the rows have columns for all neighbour elements iff the two lists name the same
elements. -/
theorem C31_all_columns_iff (N : Normalizer) (table : List (List NbrEntry)) (wOf : ℕ → ℕ)
    (hw : ∀ k nz : ℕ, N.nbrs[k]? = some nz → N.widths[k]? = some (wOf nz : ℤ))
    (hdavg : N.davgs.length = N.centres.length) (hdstd : N.dstds.length = N.centres.length)
    (hc : N.centres.Nodup) (hn : N.nbrs.Nodup) (hpos : ∀ nz ∈ N.nbrs, 0 < wOf nz)
    (hatom : ∃ cz ∈ N.centres, 0 < numCentres table cz)
    (hrs : N.rcut - N.rs ≠ 0) (htab : table ≠ []) (hrows : ∀ r ∈ table, r ≠ [])
    (hwide : ∀ (c : NbrEntry) (l : List NbrEntry) (nz : ℕ), c :: l ∈ table → c.1 ∈ N.centres →
      nz ∈ N.nbrs → l.countP (fun e => e.1 = nz) ≤ wOf nz) :
    (∃ R D, N.normalize table = .ok (R, D) ∧ (∀ row ∈ R, row.length = (N.nbrs.map wOf).sum) ∧
      ∀ row ∈ D, row.length = (N.nbrs.map wOf).sum) ↔ N.centres.Perm N.nbrs := by
  obtain ⟨cz, hcz, hcn⟩ := hatom
  have hne : N.centres ≠ [] := List.ne_nil_of_mem hcz
  have hstat : ∀ i c : ℕ, N.centres[i]? = some c → ∃ davg dstd, N.davgs[i]? = some davg ∧ N.dstds[i]? = some dstd := by
    intro i c hi
    have hlt := (List.getElem?_eq_some_iff.1 hi).1
    exact ⟨_, _, List.getElem?_eq_getElem (by omega), List.getElem?_eq_getElem (by omega)⟩
  constructor
  · rintro ⟨R, D, hok, hR, -⟩
    have hsub : N.centres ⊆ N.nbrs := by
      intro c hcc
      by_contra hcn
      cases hd : N.normalizeDict table with
      | error e =>
        unfold Normalizer.normalize at hok
        rw [hd] at hok
        cases hok
      | ok dict =>
        rw [C31_key_error N table dict hd c hcc hcn] at hok
        cases hok
    obtain ⟨R', D', h1, -, -, h4⟩ := C31_covers_partial N table wOf hw hdavg hdstd hc hn hsub hne hrs htab hrows hwide
    rw [h1] at hok
    obtain ⟨rfl, rfl⟩ := Prod.mk.inj (Except.ok.inj hok)
    obtain ⟨i, hi⟩ := List.mem_iff_getElem?.1 hcz
    obtain ⟨davg, dstd, ha, hs⟩ := hstat i cz hi
    obtain ⟨_, _, _, _, h5⟩ := h4 i i cz cz davg dstd hi hi ha hs
    obtain ⟨row, _, _, _, g1, _, g2, _⟩ := h5 0 hcn
    exact perm_of_sum wOf hc hsub hpos (g2.symm.trans (hR row (List.mem_of_getElem? g1)))
  · intro hp
    obtain ⟨R, D, h1, h2, h3, h4⟩ :=
      C31_covers_partial N table wOf hw hdavg hdstd hc hn hp.subset hne hrs htab hrows hwide
    have hsum : (N.centres.map wOf).sum = (N.nbrs.map wOf).sum := (hp.map wOf).sum_eq
    refine ⟨R, D, h1, fun row hrow => ?_, fun row hrow => ?_⟩
    · obtain ⟨j, hj⟩ := List.mem_iff_getElem?.1 hrow
      obtain ⟨i, c, a, hi, ha, rfl⟩ := block_place (numCentres table) N.centres j
        (h2 ▸ (List.getElem?_eq_some_iff.1 hj).1)
      obtain ⟨davg, dstd, hda, hds⟩ := hstat i c hi
      obtain ⟨_, _, _, _, h5⟩ := h4 i i c c davg dstd hi hi hda hds
      obtain ⟨row', _, _, _, g1, _, g2, _⟩ := h5 a ha
      rw [hj] at g1
      rw [Option.some.inj g1, g2, hsum]
    · obtain ⟨j, hj⟩ := List.mem_iff_getElem?.1 hrow
      obtain ⟨i, c, a, hi, ha, rfl⟩ := block_place (numCentres table) N.centres j
        (h3 ▸ (List.getElem?_eq_some_iff.1 hj).1)
      obtain ⟨davg, dstd, hda, hds⟩ := hstat i c hi
      obtain ⟨_, _, _, _, h5⟩ := h4 i i c c davg dstd hi hi hda hds
      obtain ⟨_, drow, _, _, _, g1, _, g2, _⟩ := h5 a ha
      rw [hj] at g1
      rw [Option.some.inj g1, g2, hsum]

/-- Li centres, Li and Si neighbours: not all columns. -/
example : ¬ ∃ R D, liSiNormalizer.normalize twoLiTable = .ok (R, D) ∧
    (∀ row ∈ R, row.length = (liSiNormalizer.nbrs.map (fun _ => 1)).sum) ∧
      ∀ row ∈ D, row.length = (liSiNormalizer.nbrs.map (fun _ => 1)).sum := by
  rw [C31_all_columns_iff liSiNormalizer twoLiTable (fun _ => 1)
    (by
      intro k nz hk
      rcases k with _ | _ | k <;> simp [liSiNormalizer] at hk ⊢)
    rfl rfl (by simp [liSiNormalizer]) (by simp [liSiNormalizer]) (by simp)
    ⟨3, by simp [liSiNormalizer], by rw [twoLi_numCentres]; norm_num⟩
    (by simp [liSiNormalizer]; norm_num) (by simp [twoLiTable]) (by simp [twoLiTable])
    (by
      intro c l nz hl hc hn
      simp only [liSiNormalizer, List.mem_cons, List.not_mem_nil, or_false] at hn
      rcases hn with rfl | rfl
      · exact twoLi_wide c l 0 3 1 hl hc rfl rfl
      · exact twoLi_wide c l 1 14 1 hl hc rfl rfl)]
  intro h
  have := h.length_eq
  simp [liSiNormalizer] at this

end MaterSDK
