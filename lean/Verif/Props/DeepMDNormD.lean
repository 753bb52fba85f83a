import Verif.Lemmas.DeepMDNormD
import Verif.Lemmas.InferProps
import Verif.Lemmas.EnvMatrixUse
import Verif.Props.DeepMDD

/-!
# C222: normalised features of a structure in doubles

`M`, `δ`, `ρ` as in C209: bound of the coordinates in the supercell, change of a coordinate on its way through the
fractional ones of pymatgen, smallest distance of two atoms of the supercell.
-/

namespace MaterSDK

open Classical

/-- C222: `TildeRNormalizer.normalize` in double arithmetic, for positive deviations and widths large enough. One row per
atom, grouped by element; in the columns of the k-th element the neighbours of that element, each once. The
standardised entry and the derivative of the standardised row with respect to the centre are met up to the error of
C209 divided by the deviation and a few units of rounding; unused slots hold the standardised zero up to rounding and
derivative exactly zero. -/
theorem C222_normalized (keep : Matrix (Fin 3) (Fin 3) ℝ → Vec ℝ → Vec ℝ) (A : ArgSort) (s S : Struct ℝ)
    (hne : s.sites ≠ []) (rcut rs : ℝ) (hr : 0 ≤ rcut) (hrs : rs < rcut)
    (sc : Fin 3 → ℤ) (m : Fin 3 → ℕ) (h : ∀ i, sc i = 2 * (m i : ℤ) + 1) (hm : ∀ i, m i ≤ 2 ^ 52)
    (hS : s.makeSupercell sc true = .ok S) (M δ ρ : ℝ) (hM : CoordsUpTo s m M) (hδ : 0 ≤ δ) (hδM : 2 * δ ≤ M)
    (hk : KeptWithin (keep (superLatticeD flR s.lattice sc)) (2 * M) δ)
    (hρ : 0 < ρ) (hsep : S.sites.Pairwise (fun t u => ρ ≤ dist3 t.pos u.pos))
    (h1 : 64 * (2 * δ + 400 * (M * 2 ^ (-53 : ℤ))) ≤ ρ)
    (h2 : 64 * (2 * δ + 400 * (M * 2 ^ (-53 : ℤ))) ≤ rcut - rs)
    (hgap : ∀ c ∈ s.sites, ∀ t ∈ S.sites, 6 * δ + 126 * (M * 2 ^ (-53 : ℤ)) < |dist3 t.pos c.pos - rcut|)
    (els ws : List ℕ) (hws : ws.length = els.length) (hnd : els.Nodup) (hels : els ≠ []) (hpos : ∀ nz ∈ els, 0 < nz)
    (hw : ∀ c ∈ s.sites, c.z ∈ els → ∀ p ∈ els.zip ws, (nbrsOf S c.pos rcut p.1).length ≤ p.2)
    (davgs dstds : List (Fin 4 → ℝ)) (hσ : ∀ d ∈ dstds, ∀ q, 0 < d q) (N : Normalizer)
    (hN : mkNormalizer rcut rs els els (ws.map (Nat.cast : ℕ → ℤ)) davgs dstds = .ok N) :
    ∃ table R D, neighborTableD flR keep A s rcut sc = .ok table ∧ N.normalizeD flR table = .ok (R, D) ∧
      R.length = (els.map (atomCount s)).sum ∧ D.length = (els.map (atomCount s)).sum ∧
      ∀ (i cz a : ℕ) (c : Site ℝ) (davg dstd : Fin 4 → ℝ), els[i]? = some cz → davgs[i]? = some davg →
        dstds[i]? = some dstd → (s.reformat_.sites.filter (fun c => c.z = cz))[a]? = some c →
        ∃ row drow, R[((els.take i).map (atomCount s)).sum + a]? = some row ∧
          D[((els.take i).map (atomCount s)).sum + a]? = some drow ∧ row.length = ws.sum ∧ drow.length = ws.sum ∧
          ∀ (k nz w : ℕ), els[k]? = some nz → ws[k]? = some w →
            ∃ ts : List (Site ℝ), ts.Perm (nbrsOf S c.pos rcut nz) ∧
              (∀ (b : ℕ) (t : Site ℝ), ts[b]? = some t →
                (∃ v, row[(ws.take k).sum + b]? = some v ∧
                  ∀ q, |v q - (envAt rcut rs t.pos c.pos q - davg q) / dstd q| ≤
                    (2 * (32 * ((2 * δ + 400 * (M * 2 ^ (-53 : ℤ))) * (1 / (rcut - rs) + 1 / ρ) * (1 / ρ))) +
                      3 * (2 ^ (-53 : ℤ) * |envAt rcut rs t.pos c.pos q - davg q|)) / dstd q) ∧
                ∃ B D', drow[(ws.take k).sum + b]? = some B ∧
                  HasFDerivAt (fun y q => (envAt rcut rs t.pos y q - davg q) / dstd q)
                    (Matrix.mulVecLin D').toContinuousLinearMap c.pos ∧
                  ∀ q p, |B q p - D' q p| ≤ 2 * (256 * ((2 * δ + 400 * (M * 2 ^ (-53 : ℤ))) *
                    (1 / (rcut - rs) + 1 / ρ) * (1 / ρ * (1 / (rcut - rs) + 1 / ρ)))) / dstd q +
                    2 ^ (-53 : ℤ) * |D' q p|) ∧
              ∀ b, ts.length ≤ b → b < w →
                (∃ v, row[(ws.take k).sum + b]? = some v ∧
                  ∀ q, |v q - (0 - davg q) / dstd q| ≤ 3 * (2 ^ (-53 : ℤ) * |davg q|) / dstd q) ∧
                drow[(ws.take k).sum + b]? = some 0 := by
  have eN : ws.length = els.length ∧ davgs.length = els.length ∧ dstds.length = els.length ∧
      N = ⟨rcut, rs, els, els, ws.map (Nat.cast : ℕ → ℤ), davgs, dstds⟩ := by
    unfold mkNormalizer at hN
    split at hN
    · cases hN
    · rename_i hl
      push Not at hl
      exact ⟨hws, hl.1, hl.2, (Except.ok.inj hN).symm⟩
  obtain ⟨-, hla, hls, rfl⟩ := eN
  have hwide : ∀ (cz k nz w : ℕ), cz ∈ els → els[k]? = some nz → ws[k]? = some w →
      ∀ c ∈ s.sites, c.z = cz → (nbrsOf S c.pos rcut nz).length ≤ w := by
    intro cz k nz w hcz hk' hwk c hc hz
    refine hw c hc (hz ▸ hcz) (nz, w) (List.mem_iff_getElem?.2 ⟨k, ?_⟩)
    rw [List.getElem?_zip_eq_some]
    exact ⟨hk', hwk⟩
  have hrows := fun (cz k nz w : ℕ) (hcz : cz ∈ els) (hk' : els[k]? = some nz) (hwk : ws[k]? = some w) =>
    pyD_rows keep A s S hne rcut rs hr hrs sc m h hm hS M δ ρ hM hδ hδM hk hρ hsep h1 h2 hgap cz nz
      (hpos nz (List.mem_of_getElem? hk')) w (hwide cz k nz w hcz hk' hwk)
  have hlen0 : 0 < els.length := List.length_pos_iff.2 hels
  obtain ⟨table, -, htab, -⟩ := hrows els[0] 0 els[0] ws[0] (List.getElem_mem _)
    (List.getElem?_eq_getElem hlen0) (List.getElem?_eq_getElem (by omega))
  let cOf : ℕ → ℕ := fun i => els[i]?.getD 0
  let wOf : ℕ → ℕ := fun k => ws[k]?.getD 0
  have hP : ∀ i k : ℕ, i < els.length → k < els.length →
      ∃ rows : List (List (Fin 4 → ℝ) × List (Matrix (Fin 4) (Fin 3) ℝ)),
      getTildeRD flR rcut rs table (cOf i) (cOf k) (wOf k) = .ok (rows.map Prod.fst) ∧
      calcDerivativeD flR rcut rs table (cOf i) (cOf k) (wOf k) = .ok (rows.map Prod.snd) ∧
      List.Forall₂ (fun (c : Site ℝ) row => row.1.length = wOf k ∧ row.2.length = wOf k ∧
        ∃ ts : List (Site ℝ), ts.Perm (nbrsOf S c.pos rcut (cOf k)) ∧
          (∀ (i : ℕ) (t : Site ℝ), ts[i]? = some t →
            (∃ v, row.1[i]? = some v ∧ ∀ a, |v a - envAt rcut rs t.pos c.pos a|
              ≤ 32 * ((2 * δ + 400 * (M * 2 ^ (-53 : ℤ))) * (1 / (rcut - rs) + 1 / ρ) * (1 / ρ))) ∧
            dist3 t.pos c.pos < rcut ∧ ∃ B, row.2[i]? = some B ∧
              ∀ a b, |B a b + cEnvDeriv rcut rs (t.pos - c.pos) a b| ≤ 256 * ((2 * δ + 400 * (M * 2 ^ (-53 : ℤ))) *
                (1 / (rcut - rs) + 1 / ρ) * (1 / ρ * (1 / (rcut - rs) + 1 / ρ)))) ∧
          (∀ i, ts.length ≤ i → i < wOf k → row.1[i]? = some 0 ∧ row.2[i]? = some 0))
        (s.reformat_.sites.filter (fun c => c.z = cOf i)) rows := by
    intro i k hi hk'
    have e1 : els[i]? = some (cOf i) := by simp only [cOf]; rw [List.getElem?_eq_getElem hi]; rfl
    have e2 : els[k]? = some (cOf k) := by simp only [cOf]; rw [List.getElem?_eq_getElem hk']; rfl
    have e3 : ws[k]? = some (wOf k) := by
      simp only [wOf]; rw [List.getElem?_eq_getElem (by omega)]; rfl
    obtain ⟨table', rows, g1, g2⟩ := hrows (cOf i) k (cOf k) (wOf k) (List.mem_of_getElem? e1) e2 e3
    rw [htab] at g1
    obtain rfl := Except.ok.inj g1
    exact ⟨rows, g2⟩
  choose! P hP1 hP2 hP3 using hP
  let da : ℕ → Fin 4 → ℝ := fun i => davgs[i]?.getD 0
  let ds : ℕ → Fin 4 → ℝ := fun i => dstds[i]?.getD 0
  let B : ℕ → ℕ → NormBlock := fun i k =>
    (((P i k).map Prod.fst).map (List.map (normalizeRowD flR (da i) (ds i))),
     ((P i k).map Prod.snd).map (List.map (normalizeDerivD flR (ds i))))
  have hcount : ∀ cz, (s.reformat_.sites.filter (fun c => c.z = cz)).length = atomCount s cz := by
    intro cz
    rw [← List.countP_eq_length_filter]
    exact (sortByKey_perm Site.z s.sites).countP_eq _
  have hcOf : ∀ i cz, els[i]? = some cz → cOf i = cz := fun i cz hi => by simp only [cOf, hi, Option.getD_some]
  have hwOf : ∀ k w, ws[k]? = some w → wOf k = w := fun k w hk' => by simp only [wOf, hk', Option.getD_some]
  obtain ⟨R, D, r1, r2, r3, r4⟩ := normalizeWith_place els ws
    ((⟨rcut, rs, els, els, ws.map (Nat.cast : ℕ → ℤ), davgs, dstds⟩ : Normalizer).blockD flR table) B (by
      intro i k cz nz hi hk'
      have hil := (List.getElem?_eq_some_iff.1 hi).1
      have hkl := (List.getElem?_eq_some_iff.1 hk').1
      refine blockD_ok _ _ (width := (wOf k : ℤ)) ?_ ?_ ?_ ?_ ?_
      · rw [pyGet_eq_ok, List.getElem?_map, List.getElem?_eq_getElem (by omega)]
        simp only [wOf]
        rw [List.getElem?_eq_getElem (by omega)]; rfl
      · rw [pyGet_eq_ok]; simp only [da]
        rw [List.getElem?_eq_getElem (by omega)]; rfl
      · rw [pyGet_eq_ok]; simp only [ds]
        rw [List.getElem?_eq_getElem (by omega)]; rfl
      · rw [← hcOf i cz hi, ← hcOf k nz hk']; exact hP1 i k hil hkl
      · rw [← hcOf i cz hi, ← hcOf k nz hk']; exact hP2 i k hil hkl)
    hnd hels hws (atomCount s) (by
      intro i k cz w hi hwk
      have hil := (List.getElem?_eq_some_iff.1 hi).1
      have hkl : k < els.length := by rw [← hws]; exact (List.getElem?_eq_some_iff.1 hwk).1
      have g := hP3 i k hil hkl
      have gl := g.length_eq
      rw [hcOf i cz hi, hcount] at gl
      have gr : ∀ r ∈ P i k, r.1.length = w ∧ r.2.length = w := by
        intro r hr'
        obtain ⟨j, hj⟩ := List.mem_iff_getElem?.1 hr'
        obtain ⟨x, -, hx⟩ := forall₂_get' g hj
        rw [← hwOf k w hwk]
        exact ⟨hx.1, hx.2.1⟩
      refine ⟨by simp [B, gl], by simp [B, gl], ?_, ?_⟩
      · intro r hr'
        simp only [B, List.map_map, List.mem_map, Function.comp_apply] at hr'
        obtain ⟨x, hx, rfl⟩ := hr'
        rw [List.length_map]; exact (gr x hx).1
      · intro r hr'
        simp only [B, List.map_map, List.mem_map, Function.comp_apply] at hr'
        obtain ⟨x, hx, rfl⟩ := hr'
        rw [List.length_map]; exact (gr x hx).2)
  refine ⟨table, R, D, htab, r1, r2, r3, ?_⟩
  intro i cz a c davg dstd hi hda hds hc
  have hil := (List.getElem?_eq_some_iff.1 hi).1
  have hal : a < atomCount s cz := by rw [← hcount]; exact (List.getElem?_eq_some_iff.1 hc).1
  obtain ⟨row, drow, f1, f2, f3, f4, f5⟩ := r4 i cz a hi hal
  refine ⟨row, drow, f1, f2, f3, f4, ?_⟩
  intro k nz w hk' hwk
  have hkl := (List.getElem?_eq_some_iff.1 hk').1
  have eda : da i = davg := by simp only [da, hda, Option.getD_some]
  have eds : ds i = dstd := by simp only [ds, hds, Option.getD_some]
  have hσ' := hσ dstd (List.mem_of_getElem? hds)
  have g := hP3 i k hil hkl
  rw [hcOf i cz hi, hcOf k nz hk', hwOf k w hwk] at g
  obtain ⟨x, hx, q1, q2, ts, q3, q4, q5⟩ := forall₂_get g hc
  have eB : ∀ b, b < w → row[(ws.take k).sum + b]? = x.1[b]?.map (normalizeRowD flR davg dstd) ∧
      drow[(ws.take k).sum + b]? = x.2[b]?.map (normalizeDerivD flR dstd) := by
    intro b hb
    obtain ⟨e1, e2⟩ := f5 k w b hwk hb
    rw [e1, e2]
    simp only [B, List.getElem?_map, hx, Option.map_some, Option.getD_some, eda, eds, and_self]
  refine ⟨ts, q3, ?_, ?_⟩
  · intro b t hb
    obtain ⟨⟨v, v1, v2⟩, v3, B', v4, v5⟩ := q4 b t hb
    have hbw : b < w := by rw [← q1]; exact (List.getElem?_eq_some_iff.1 v1).1
    obtain ⟨e1, e2⟩ := eB b hbw
    have hmem := q3.mem_iff.1 (List.mem_of_getElem? hb)
    unfold nbrsOf at hmem
    have hmm := (List.mem_filter.1 hmem).2
    simp only [decide_eq_true_eq] at hmm
    refine ⟨⟨_, by rw [e1, v1]; rfl, fun q => norm_err (hσ' q) (v2 q)⟩, _, _, by rw [e2, v4]; rfl,
      hasFDerivAt_normalized hrs t.pos c.pos nz hmm.2.1 v3 davg dstd, fun q p => ?_⟩
    have hd : |B' q p - derivBlock rcut rs (nz, dist3 t.pos c.pos, t.pos - c.pos) q p| ≤
        256 * ((2 * δ + 400 * (M * 2 ^ (-53 : ℤ))) * (1 / (rcut - rs) + 1 / ρ) *
          (1 / ρ * (1 / (rcut - rs) + 1 / ρ))) := by
      rw [derivBlock_neg rcut rs nz _ _ v3, Matrix.neg_apply, sub_neg_eq_add]
      exact v5 q p
    exact norm_deriv_err (hσ' q) hd
  · intro b hb hbw
    obtain ⟨z1, z2⟩ := q5 b hb hbw
    obtain ⟨e1, e2⟩ := eB b hbw
    refine ⟨⟨_, by rw [e1, z1]; rfl, fun q => ?_⟩, ?_⟩
    · have := norm_err (v := 0) (e := 0) (μ := davg q) (E := 0) (hσ' q) (by simp)
      simpa [uR, normalizeRowD] using this
    · rw [e2, z2]
      simp only [Option.map_some, Option.some.injEq]
      ext q p
      simp [normalizeDerivD, flR_zero]

/-- Full instance: the cell of C209 with its two elements, for each as many slots as the supercell has atoms, cutoff 2.5. -/
example (A : ArgSort) : ∃ S N table R D, pairCell.makeSupercell ![3, 3, 3] true = .ok S ∧
    mkNormalizer (5 / 2) 1 [8, 14] [8, 14] ([S.sites.length, S.sites.length].map (Nat.cast : ℕ → ℤ)) [![1, 0, 0, 0], 0]
      [![1, 1, 1, 1], ![1 / 100, 1, 1, 1]] = .ok N ∧
    neighborTableD flR (fun _ x p => x p + 2 ^ (-40 : ℤ)) A pairCell (5 / 2) ![3, 3, 3] = .ok table ∧
    N.normalizeD flR table = .ok (R, D) ∧ R.length = 2 ∧ D.length = 2 := by
  have hodd : ∀ i : Fin 3, (![3, 3, 3] : Fin 3 → ℤ) i = 2 * (((fun _ => 1 : Fin 3 → ℕ) i : ℕ) : ℤ) + 1 := by
    intro i; fin_cases i <;> rfl
  obtain ⟨S, g1, g2, g3, g4, g5, g6⟩ := pairCell_doubles
  obtain ⟨table, R, D, r1, r2, r3, r4, -⟩ := C222_normalized (fun _ x p => x p + 2 ^ (-40 : ℤ)) A pairCell S
    (by simp [pairCell]) (5 / 2) 1 (by norm_num) (by norm_num) ![3, 3, 3] (fun _ => 1) hodd (fun _ => by norm_num) g1
    32 (2 ^ (-40 : ℤ)) 1 g2 (by positivity) (by rw [zpow_neg]; norm_num) g3 one_pos g4 g5
    (g5.trans (by norm_num)) g6 [8, 14] [S.sites.length, S.sites.length] rfl (by simp) (by simp) (by simp)
    (by
      intro c _ _ p hp
      simp only [List.zip_cons_cons, List.zip_nil_right, List.mem_cons, List.not_mem_nil, or_false] at hp
      have : (nbrsOf S c.pos (5 / 2) p.1).length ≤ S.sites.length := List.length_filter_le _ _
      rcases hp with rfl | rfl <;> exact this)
    [![1, 0, 0, 0], 0] [![1, 1, 1, 1], ![1 / 100, 1, 1, 1]]
    (by
      intro d hd q
      simp only [List.mem_cons, List.not_mem_nil, or_false] at hd
      rcases hd with rfl | rfl <;> fin_cases q <;> norm_num)
    _ rfl
  refine ⟨S, _, table, R, D, g1, rfl, r1, r2, ?_, ?_⟩
  · rw [r3]; simp [atomCount, pairCell]
  · rw [r4]; simp [atomCount, pairCell]

end MaterSDK
