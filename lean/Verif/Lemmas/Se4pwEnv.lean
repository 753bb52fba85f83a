import Verif.Lemmas.EnvMatrixAux
import Verif.Lemmas.EnvMatrixCalc
import Verif.Lemmas.TildeRStruct

/-! # The slot loop with the values mapped, for C219 -/

namespace MaterSDK

theorem foldlM_map_state {σ τ ι : Type} (g : σ → τ) (step : σ → ι → Except CErr σ)
    (step' : τ → ι → Except CErr τ) (l : List ι) (h : ∀ a ∈ l, ∀ s, step' (g s) a = (step s a).map g) (s : σ) :
    l.foldlM step' (g s) = (l.foldlM step s).map g := by
  induction l generalizing s with
  | nil => rfl
  | cons a l ih =>
    rw [List.foldlM_cons, List.foldlM_cons, h a (by simp) s]
    cases step s a with
    | error e => rfl
    | ok t => exact ih (fun b hb => h b (by simp [hb])) t

theorem slotStep_map {α α' : Type} (p : SlotIn) (φ : α → α') (val : ℤ → ℤ → Except CErr α)
    (val' : ℤ → ℤ → Except CErr α') (ii jj : ℕ) (st : List α × List ℤ)
    (h : ∀ nb t, cGet p.firstneigh (ii * p.width + jj) = .ok nb → cGet p.types nb = .ok t →
      val' (ii * p.width + jj) nb = (val (ii * p.width + jj) nb).map φ) :
    slotStep p val' ii (st.1.map φ, st.2) jj = (slotStep p val ii st jj).map (fun s => (s.1.map φ, s.2)) := by
  unfold slotStep
  cases h1 : cGet p.firstneigh (ii * p.width + jj) with
  | error e => rfl
  | ok nb =>
    rw [ok_bind, ok_bind]
    cases h2 : cGet p.types nb with
    | error e => rfl
    | ok t =>
      rw [ok_bind, ok_bind, h nb t h1 h2]
      cases val (ii * p.width + jj) nb with
      | error e => rfl
      | ok a =>
        show (Except.ok (φ a) >>= _) = _
        rw [ok_bind, ok_bind]
        cases cGet (nstartIdxs p.umax) t with
        | error e => rfl
        | ok start =>
          rw [ok_bind, ok_bind]
          cases cGet st.2 t with
          | error e => rfl
          | ok k =>
            rw [ok_bind, ok_bind]
            have e : cSet (st.1.map φ) (ii * p.width + (start + k)) (φ a)
                = (cSet st.1 (ii * p.width + (start + k)) a).map (List.map φ) := by
              unfold cSet
              rw [List.length_map]
              split_ifs
              · simp [Except.map, List.map_set]
              · rfl
            rw [e]
            cases cSet st.1 (ii * p.width + (start + k)) a with
            | error e => rfl
            | ok out =>
              show (Except.ok (out.map φ) >>= _) = _
              rw [ok_bind, ok_bind]
              cases cSet st.2 t (k + 1) <;> rfl

theorem slotFill_map {α α' β β' : Type} (p : SlotIn) (φ : α → α') (zero : α) (centre : ℕ → Except CErr β)
    (centre' : ℕ → Except CErr β') (val : β → ℤ → ℤ → Except CErr α) (val' : β' → ℤ → ℤ → Except CErr α')
    (h : ∀ ii : ℕ, (ii : ℤ) < p.inum → ∃ c c', centre ii = .ok c ∧ centre' ii = .ok c' ∧
      ∀ m, cGet p.numneigh (ii : ℤ) = .ok m → ∀ jj : ℕ, (jj : ℤ) < m → ∀ nb t,
        cGet p.firstneigh (ii * p.width + jj) = .ok nb → cGet p.types nb = .ok t →
          val' c' (ii * p.width + jj) nb = (val c (ii * p.width + jj) nb).map φ) :
    slotFill p (φ zero) centre' val' = (slotFill p zero centre val).map (List.map φ) := by
  unfold slotFill
  split_ifs with hneg
  · rfl
  · rw [← List.map_replicate (f := φ)]
    refine foldlM_map_state (List.map φ) _ _ _ ?_ _
    intro ii hii out
    rw [List.mem_range] at hii
    obtain ⟨c, c', h1, h2, h3⟩ := h ii (by omega)
    beta_reduce
    rw [h1, h2, ok_bind, ok_bind]
    cases hm : cGet p.numneigh (ii : ℤ) with
    | error e => rfl
    | ok m =>
      rw [ok_bind, ok_bind]
      have e := foldlM_map_state (fun s : List α × List ℤ => (s.1.map φ, s.2)) (slotStep p (val c) ii)
        (slotStep p (val' c') ii) (List.range m.toNat) (by
          intro jj hjj st
          rw [List.mem_range] at hjj
          exact slotStep_map p φ _ _ ii jj st (h3 m hm jj (by omega)))
        (out, List.replicate p.umax.length 0)
      rw [e]
      cases (List.range m.toNat).foldlM (slotStep p (val c) ii) (out, List.replicate p.umax.length 0) <;> rfl

end MaterSDK
