import Verif.Lemmas.DeepMDD
import Verif.Lemmas.EnvMatrixUse
import Verif.Lemmas.DeepMDCalc
import Verif.Spec.NeighD
import Verif.Spec.DeepMD

/-! # Rows and derivative blocks of the Python code in doubles -/

namespace MaterSDK

open Classical

/-- The rows and blocks of one pair of elements. -/
theorem pyD_rows (keep : Matrix (Fin 3) (Fin 3) ℝ → Vec ℝ → Vec ℝ) (A : ArgSort) (s S : Struct ℝ)
    (hne : s.sites ≠ []) (rcut rs : ℝ) (hr : 0 ≤ rcut) (hrs : rs < rcut)
    (sc : Fin 3 → ℤ) (m : Fin 3 → ℕ) (h : ∀ i, sc i = 2 * (m i : ℤ) + 1) (hm : ∀ i, m i ≤ 2 ^ 52)
    (hS : s.makeSupercell sc true = .ok S) (M δ ρ : ℝ) (hM : CoordsUpTo s m M) (hδ : 0 ≤ δ) (hδM : 2 * δ ≤ M)
    (hk : KeptWithin (keep (superLatticeD flR s.lattice sc)) (2 * M) δ)
    (hρ : 0 < ρ) (hsep : S.sites.Pairwise (fun t u => ρ ≤ dist3 t.pos u.pos))
    (h1 : 64 * (2 * δ + 400 * (M * 2 ^ (-53 : ℤ))) ≤ ρ)
    (h2 : 64 * (2 * δ + 400 * (M * 2 ^ (-53 : ℤ))) ≤ rcut - rs)
    (hgap : ∀ c ∈ s.sites, ∀ t ∈ S.sites, 6 * δ + 126 * (M * 2 ^ (-53 : ℤ)) < |dist3 t.pos c.pos - rcut|)
    (cz nz : ℕ) (hnz : 0 < nz) (width : ℕ)
    (hw : ∀ c ∈ s.sites, c.z = cz → (nbrsOf S c.pos rcut nz).length ≤ width) :
    ∃ (table : List (List NbrEntry)) (rows : List (List (Fin 4 → ℝ) × List (Matrix (Fin 4) (Fin 3) ℝ))),
      neighborTableD flR keep A s rcut sc = .ok table ∧
      getTildeRD flR rcut rs table cz nz width = .ok (rows.map Prod.fst) ∧
      calcDerivativeD flR rcut rs table cz nz width = .ok (rows.map Prod.snd) ∧
      List.Forall₂ (fun (c : Site ℝ) row => row.1.length = width ∧ row.2.length = width ∧
        ∃ ts : List (Site ℝ), ts.Perm (nbrsOf S c.pos rcut nz) ∧
          (∀ (i : ℕ) (t : Site ℝ), ts[i]? = some t →
            (∃ v, row.1[i]? = some v ∧ ∀ a, |v a - envAt rcut rs t.pos c.pos a|
              ≤ 32 * ((2 * δ + 400 * (M * 2 ^ (-53 : ℤ))) * (1 / (rcut - rs) + 1 / ρ) * (1 / ρ))) ∧
            dist3 t.pos c.pos < rcut ∧ ∃ B, row.2[i]? = some B ∧
              ∀ a b, |B a b + cEnvDeriv rcut rs (t.pos - c.pos) a b| ≤ 256 * ((2 * δ + 400 * (M * 2 ^ (-53 : ℤ))) * (1 / (rcut - rs) + 1 / ρ) *
                (1 / ρ * (1 / (rcut - rs) + 1 / ρ)))) ∧
          (∀ i, ts.length ≤ i → i < width → row.1[i]? = some 0 ∧ row.2[i]? = some 0))
        (s.reformat_.sites.filter (fun c => c.z = cz)) rows := by
  have eu : M * 2 ^ (-53 : ℤ) = uR * M := by unfold uR; ring
  have et : 6 * δ + 126 * (M * 2 ^ (-53 : ℤ)) = 6 * (δ + 9 * (uR * M)) + 72 * (uR * M) := by rw [eu]; ring
  rw [et] at hgap
  rw [eu] at h1 h2 ⊢
  have hM0 : 0 ≤ M := by linarith
  have huM : 0 ≤ uR * M := mul_nonneg uR_pos.le hM0
  obtain ⟨table, w, prows, g1, g2, g3, g4⟩ := pairD_sites keep A s S hne rcut rs hr hrs sc m h hm hS M δ ρ hM hδ hδM hk
    hρ hsep h1 h2 hgap cz nz hnz
  set τ := 2 * δ + 400 * (uR * M) with hτ
  have hww : w ≤ width := by
    rcases g3 with g3 | ⟨c, hc, hz, g3⟩
    · omega
    · rw [← g3]; exact hw c hc hz
  refine ⟨table, prows.map (fun r => (r.map (envRowPyD flR rcut rs) ++ List.replicate (width - w) 0,
    r.map (derivBlockD flR rcut rs) ++ List.replicate (width - w) 0)), g1, ?_, ?_, ?_⟩
  · unfold getTildeRD
    rw [g2, ok_bind]
    show padWidth 0 (w, prows.map (List.map (envRowPyD flR rcut rs))) (width : ℤ) = _
    rw [padWidth_ok _ _ _ _ hww, List.map_map, List.map_map]
    rfl
  · have hne0 : flR (rcut - rs) ≠ 0 := by
      obtain ⟨e, he, ee⟩ := flR_rel (rcut - rs)
      rw [ee]
      have hu1 : uR ≤ 1 / 1000 := by rw [uR_eq]; norm_num
      have := (abs_le.1 he).1
      exact mul_ne_zero (sub_pos.2 hrs).ne' (by linarith)
    unfold calcDerivativeD
    rw [g2, ok_bind]
    simp only
    rw [if_neg (by omega), if_neg hne0, padWidth_ok _ _ _ _ hww, List.map_map, List.map_map]
    rfl
  · rw [List.forall₂_map_right_iff]
    rw [List.forall₂_iff_zip] at g4 ⊢
    refine ⟨g4.1, fun {c row} hcr => ?_⟩
    have hcs : c ∈ s.sites :=
      (sortByKey_perm _ _).mem_iff.1 (List.mem_of_mem_filter (List.of_mem_zip hcr).1)
    obtain ⟨es, ts, rfl, e2, e3, e4⟩ := g4.2 hcr
    have z1 : envRowPyD flR rcut rs zeroEntry = 0 := by
      ext a; fin_cases a <;> simp [envRowPyD, getSD, recipD, zeroEntry, flR_zero]
    have z2 : derivBlockD flR rcut rs zeroEntry = 0 := by
      ext a b
      fin_cases a <;> fin_cases b <;>
        simp [derivBlockD, recipD, zeroEntry, flR_zero, pyDerivD0, pyDerivDD, pyDerivDO]
    have hl := e4.length_eq
    simp only [List.map_append, List.map_replicate, z1, z2, List.append_assoc, List.replicate_append_replicate]
    have hk' : w - es.length + (width - w) = width - es.length := by omega
    rw [hk']
    refine ⟨by simp; omega, by simp; omega, ts, e3, ?_, ?_⟩
    · intro i t hi
      obtain ⟨hil, rfl⟩ := List.getElem?_eq_some_iff.1 hi
      have hil' : i < es.length := by rw [hl]; exact hil
      have hN : NbrD rcut rs τ ρ nz c ts[i] es[i] := e4.get hil' hil
      have hmem := e3.mem_iff.1 (List.getElem_mem hil)
      unfold nbrsOf at hmem
      obtain ⟨hSt, hm⟩ := List.mem_filter.1 hmem
      simp only [decide_eq_true_eq] at hm
      obtain ⟨_, hpos, hle⟩ := hm
      have hlt : dist3 ts[i].pos c.pos < rcut := by
        refine lt_of_le_of_ne hle fun hc => ?_
        have := hgap c hcs _ hSt
        rw [hc, sub_self, abs_zero] at this
        linarith
      have hes : es[i] = (nz, lengthD flR es[i].2.2, es[i].2.2) := by
        have a1 := hN.elem
        have a2 := hN.len
        rw [← a2, ← a1]
      have hlen : lengthD flR es[i].2.2 < rcut := by rw [← hN.len]; exact hN.lt
      refine ⟨⟨envRowPyD flR rcut rs es[i], ?_, ?_⟩, hlt, derivBlockD flR rcut rs es[i], ?_, ?_⟩
      · rw [List.getElem?_append_left (by simpa using hil'), List.getElem?_map, List.getElem?_eq_getElem hil']
        rfl
      · intro a
        rw [hes, ← cEnvRow_envAt]
        exact hN.close.pyRow hlen nz a
      · rw [List.getElem?_append_left (by simpa using hil'), List.getElem?_map, List.getElem?_eq_getElem hil']
        rfl
      · intro a b
        have := hN.close.pyDeriv hlen nz a b
        rw [Matrix.neg_apply, sub_neg_eq_add] at this
        rw [hes]
        exact this
    · intro i h6 h7
      constructor
      · rw [List.getElem?_append_right (by simp; omega), List.getElem?_replicate, if_pos (by simp; omega)]
      · rw [List.getElem?_append_right (by simp; omega), List.getElem?_replicate, if_pos (by simp; omega)]


end MaterSDK
