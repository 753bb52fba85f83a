import Verif.Model.Batch
import Verif.Lemmas.NeighAux
import Verif.Lemmas.Dict
import Verif.Lemmas.Dataset
import Verif.Lemmas.Except

/-! # Helper lemmas for collections and batches -/

namespace MaterSDK

theorem toSig_rejects : toSig.bind 0 [chars% "output_file_format", chars% "output_file_path"] = .error .typeError := by
  decide

theorem toSig_rejects' : toSig.bind 0 [chars% "output_file_path", chars% "output_file_format"] = .error .typeError := by
  decide

theorem npMaxInt_spec {l : List ℤ} (h : l ≠ []) : ∃ m, npMaxInt l = .ok m ∧ m ∈ l ∧ ∀ x ∈ l, x ≤ m := by
  unfold npMaxInt
  cases hm : l.max? with
  | none => exact absurd (List.max?_eq_none_iff.1 hm) h
  | some m =>
    have := List.max?_eq_some_iff.1 hm
    exact ⟨m, rfl, this.1, this.2⟩

/-- The running maxima, key by key. -/
theorem maxFold (keys : List ℕ) (hk : keys.Nodup) (ps : List (ℕ × ℕ)) (hp : ∀ p ∈ ps, p.1 ∈ keys) (f : ℕ → ℕ) :
    ∃ g : ℕ → ℕ, ps.foldlM maxStep (keys.map (fun e => (e, f e))) = .ok (keys.map (fun e => (e, g e))) ∧
      ∀ e, f e ≤ g e ∧ (∀ n, (e, n) ∈ ps → n ≤ g e) ∧ (g e = f e ∨ (e, g e) ∈ ps) := by
  induction ps generalizing f with
  | nil => exact ⟨f, rfl, fun e => ⟨le_refl _, by simp, Or.inl rfl⟩⟩
  | cons p ps ih =>
    have hnd : ((keys.map (fun e => (e, f e))).map Prod.fst).Nodup := by
      rw [List.map_map]
      simpa [Function.comp_def] using hk
    have hget : pyDictGet (keys.map (fun e => (e, f e))) p.1 = .ok (f p.1) :=
      (pyDictGet_ok hnd _ _).2 (List.mem_map.2 ⟨p.1, hp p (by simp), rfl⟩)
    have hstep : maxStep (keys.map (fun e => (e, f e))) p =
        .ok (keys.map (fun e => (e, if e = p.1 then max (f e) p.2 else f e))) := by
      unfold maxStep
      rw [hget, ok_bind]
      show Except.ok _ = _
      congr 1
      split
      · rename_i hgt
        unfold dictSet
        rw [if_pos (by simpa using hp p (by simp)), List.map_map]
        apply List.map_congr_left
        intro e _
        simp only [Function.comp_apply]
        split
        · rename_i he
          rw [he, max_eq_right (by omega)]
        · rfl
      · rename_i hle
        apply List.map_congr_left
        intro e _
        split
        · rename_i he
          rw [he, max_eq_left (by omega)]
        · rfl
    rw [List.foldlM_cons, hstep, ok_bind]
    obtain ⟨g, h1, h2⟩ := ih (fun q hq => hp q (by simp [hq])) (fun e => if e = p.1 then max (f e) p.2 else f e)
    refine ⟨g, h1, fun e => ?_⟩
    obtain ⟨h3, h4, h5⟩ := h2 e
    refine ⟨?_, ?_, ?_⟩
    · split at h3 <;> omega
    · intro n hn
      rcases List.mem_cons.1 hn with rfl | hn
      · rw [if_pos rfl] at h3
        omega
      · exact h4 n hn
    · rcases h5 with h5 | h5
      · split at h5
        · rename_i he
          by_cases hle : p.2 ≤ f e
          · left
            omega
          · right
            rw [h5, max_eq_right (by omega), he]
            simp
        · exact Or.inl h5
      · exact Or.inr (by simp [h5])

end MaterSDK
