import Verif.Model.FFInfer
import Verif.Lemmas.DeepMDMove
import Verif.Lemmas.Dataset
import Verif.Lemmas.Dict
import Verif.Lemmas.Extractor
import Mathlib.Data.List.ProdSigma

/-! # Lemmas on the features for inference -/

namespace MaterSDK

open Classical

theorem pairKey_inj {c n c' n' : ℕ} (h : pairKey c n = pairKey c' n') : c = c' ∧ n = n' := by
  unfold pairKey at h
  obtain ⟨h1, h2⟩ := digits_sep (fun x hx => (showNat_spec c).2.1 x hx)
    (fun x hx => (showNat_spec c').2.1 x hx) (by simp) (by simp) h
  exact ⟨showNat_inj h1, showNat_inj (List.cons.inj h2).2⟩

theorem ffPair_some (rcut rs : ℝ) (table : List (List NbrEntry)) (maxNbrs : List (ℕ × ℤ))
    (d : List (Str × List (List (Fin 4 → ℝ)))) (p : ℕ × ℕ) (w : ℤ) (hw : pyDictGet maxNbrs p.2 = .ok w) :
    ffPair rcut rs table maxNbrs d p = (do
      let b ← getTildeR rcut rs table p.1 p.2 w
      return dictSet d (pairKey p.1 p.2) b) := by
  unfold ffPair getTildeR
  rw [hw]
  cases pairTildeR rcut rs table p.1 p.2 with
  | error e => rfl
  | ok a => rfl

theorem getTildeR_wide (rcut rs : ℝ) (table : List (List NbrEntry)) (cz nz w : ℕ)
    (rows : List (List NbrEntry)) (h : extractFeaturePair table cz nz = .ok (w, rows)) (width : ℕ)
    (hw : w ≤ width) :
    getTildeR rcut rs table cz nz width = .ok ((rows.map (List.map (envRow rcut rs))).map
      (fun r => r ++ List.replicate (width - w) 0)) := by
  unfold getTildeR pairTildeR
  rw [h]
  simp only [ok_bind]
  exact padWidth_ok _ w _ width hw

/-- All passes succeed. -/
theorem ff_fold (rcut rs : ℝ) (table : List (List NbrEntry)) (maxNbrs : List (ℕ × ℤ))
    (blk : ℕ × ℕ → List (List (Fin 4 → ℝ))) (l : List (ℕ × ℕ)) (hl : l.Nodup)
    (d0 : List (Str × List (List (Fin 4 → ℝ))))
    (hd : ∀ p ∈ l, pairKey p.1 p.2 ∉ d0.map Prod.fst)
    (h : ∀ p ∈ l, ∃ w, pyDictGet maxNbrs p.2 = .ok w ∧ getTildeR rcut rs table p.1 p.2 w = .ok (blk p)) :
    l.foldlM (ffPair rcut rs table maxNbrs) d0
      = .ok (d0 ++ l.map (fun p => (pairKey p.1 p.2, blk p))) := by
  induction l generalizing d0 with
  | nil => simp [List.foldlM_nil]; rfl
  | cons p l ih =>
    obtain ⟨w, hw, hb⟩ := h p (by simp)
    rw [List.foldlM_cons, ffPair_some _ _ _ _ _ _ w hw, hb, ok_bind]
    show l.foldlM _ (dictSet d0 (pairKey p.1 p.2) (blk p)) = _
    rw [dictSet_new _ _ _ (hd p (by simp)), ih (List.nodup_cons.1 hl).2 _ _ (fun q hq => h q (by simp [hq]))]
    · simp
    · intro q hq hm
      rw [List.map_append, List.mem_append] at hm
      rcases hm with hm | hm
      · exact hd q (by simp [hq]) hm
      · simp only [List.map_cons, List.map_nil, List.mem_singleton] at hm
        obtain ⟨e1, e2⟩ := pairKey_inj hm
        exact (List.nodup_cons.1 hl).1 (by rwa [← Prod.ext e1 e2])

/-- A pass that is refused is refused in the same way whatever was stored before. -/
theorem ff_fold_error (rcut rs : ℝ) (table : List (List NbrEntry)) (maxNbrs : List (ℕ × ℤ)) (e : PyErr)
    (l : List (ℕ × ℕ)) (d0 : List (Str × List (List (Fin 4 → ℝ))))
    (h : ∀ p ∈ l, (∀ d, ∃ d', ffPair rcut rs table maxNbrs d p = .ok d') ∨
      (∀ d, ffPair rcut rs table maxNbrs d p = .error e))
    (hb : ∃ p ∈ l, ∀ d, ffPair rcut rs table maxNbrs d p = .error e) :
    l.foldlM (ffPair rcut rs table maxNbrs) d0 = .error e := by
  induction l generalizing d0 with
  | nil => simp at hb
  | cons p l ih =>
    rw [List.foldlM_cons]
    rcases h p (by simp) with h1 | h1
    · obtain ⟨d', h2⟩ := h1 d0
      rw [h2, ok_bind]
      apply ih _ (fun q hq => h q (by simp [hq]))
      obtain ⟨q, hq, hq2⟩ := hb
      rcases List.mem_cons.1 hq with rfl | hq
      · rw [hq2] at h2; cases h2
      · exact ⟨q, hq, hq2⟩
    · rw [h1]; rfl

end MaterSDK
