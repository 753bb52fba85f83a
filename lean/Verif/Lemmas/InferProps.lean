import Verif.Lemmas.Infer
import Verif.Lemmas.DeepMDCalc
import Verif.Lemmas.StructureAux

/-! # Helper lemmas for the input of the inference: derivatives, refusals, sorted structures -/

set_option linter.unusedSectionVars false

namespace MaterSDK

open Classical

theorem envRow_envAt {rcut rs : ℝ} (h : rs < rcut) (p x : Vec ℝ) (nz : ℕ) (hd : dist3 p x < rcut) :
    envRow rcut rs (nz, dist3 p x, p - x) = envAt rcut rs p x := by
  have hS := getS_smoothWeight h hd
  ext a
  fin_cases a <;> simp [envRow, envAt, recip_eq, hS] <;> ring

/-- The scaled block is the derivative of the normalised row. -/
theorem hasFDerivAt_normalized {rcut rs : ℝ} (h : rs < rcut) (p x : Vec ℝ) (nz : ℕ)
    (h0 : 0 < dist3 p x) (hd : dist3 p x < rcut) (davg dstd : Fin 4 → ℝ) :
    HasFDerivAt (fun y q => (envAt rcut rs p y q - davg q) / dstd q)
      (normalizeDeriv dstd (derivBlock rcut rs (nz, dist3 p x, p - x))).mulVecLin.toContinuousLinearMap x := by
  have hE := hasFDerivAt_env rcut rs h p x nz h0 hd
  rw [hasFDerivAt_pi'] at hE ⊢
  intro q
  have := ((hE q).sub_const (davg q)).mul_const ((dstd q)⁻¹)
  have e : (fun y => (envAt rcut rs p y q - davg q) / dstd q)
      = fun y => (envAt rcut rs p y q - davg q) * (dstd q)⁻¹ := by
    funext y; rw [div_eq_mul_inv]
  rw [e]
  refine this.congr_fderiv ?_
  ext v
  simp [Matrix.mulVec, dotProduct, Fin.sum_univ_three, normalizeDeriv]
  ring

theorem assemble_assert {α : Type} (block : ℕ → ℕ → ℤ → Except PyErr (List (List α)))
    (els : List ℕ) (ws : List ℤ) (hws : ws.length = els.length) (n : ℕ → ℕ)
    (hblock : ∀ cz ∈ els, ∀ (k nz : ℕ) (w : ℤ), els[k]? = some nz → ws[k]? = some w →
      block cz nz w = .error .assertionError ∨ ∃ b, block cz nz w = .ok b ∧ b.length = n cz)
    (cz k nz : ℕ) (w : ℤ) (hcz : cz ∈ els) (hk : els[k]? = some nz) (hw : ws[k]? = some w)
    (hbad : block cz nz w = .error .assertionError) :
    assemble block els els ws = .error .assertionError := by
  have hne : els ≠ [] := List.ne_nil_of_mem hcz
  have hget : ∀ (x : ℕ × ℕ), x ∈ els.zipIdx → ∃ w, ws[x.2]? = some w ∧ pyGet ws x.2 = .ok w := by
    rintro ⟨z, i⟩ hx
    have hx' := (zipIdx_get _ _).1 hx
    have hi : i < ws.length := by rw [hws]; exact (List.getElem?_eq_some_iff.1 hx').1
    exact ⟨ws[i], List.getElem?_eq_getElem hi, pyGet_eq_ok.2 (List.getElem?_eq_getElem hi)⟩
  let f : ℕ → Except PyErr (List (List α)) := fun cz => do
      let blocks ← els.zipIdx.mapM (fun (x : ℕ × ℕ) => do
        let width ← pyGet ws x.2
        block cz x.1 width)
      concatAxis1 blocks
  have h1 : els.mapM f = .error .assertionError := by
    cases hm : els.mapM f with
    | ok parts =>
      exfalso
      have hF := mapM_eq_ok.1 hm
      obtain ⟨i, hi, rfl⟩ := List.mem_iff_getElem.1 hcz
      have hfi := hF.get hi (by rw [← hF.length_eq]; exact hi)
      simp only [List.get_eq_getElem, f] at hfi
      obtain ⟨blocks, hb, _⟩ := bind_eq_ok.1 hfi
      have hF2 := mapM_eq_ok.1 hb
      have hkl : k < els.length := (List.getElem?_eq_some_iff.1 hk).1
      have hkz : k < els.zipIdx.length := by simpa using hkl
      have hfk := hF2.get hkz (by rw [← hF2.length_eq]; exact hkz)
      simp only [List.get_eq_getElem, List.getElem_zipIdx, Nat.zero_add] at hfk
      rw [(List.getElem?_eq_some_iff.1 hk).2, pyGet_eq_ok.2 hw, ok_bind, hbad] at hfk
      cases hfk
    | error e =>
      obtain ⟨c, hc, he⟩ := mapM_eq_error hm
      congr 1
      simp only [f] at he
      cases hb : els.zipIdx.mapM (fun (x : ℕ × ℕ) => do
        let width ← pyGet ws x.2
        block c x.1 width) with
      | error e' =>
        rw [hb] at he
        obtain ⟨x, hx, hxe⟩ := mapM_eq_error hb
        obtain ⟨w', hw', hg⟩ := hget x hx
        rw [hg, ok_bind] at hxe
        rcases hblock c hc x.2 x.1 w' ((zipIdx_get _ _).1 hx) hw' with h | ⟨b, h, _⟩
        · rw [h] at hxe
          cases hxe
          cases he
          rfl
        · rw [h] at hxe; cases hxe
      | ok blocks =>
        exfalso
        rw [hb, ok_bind] at he
        have hF2 := mapM_eq_ok.1 hb
        obtain ⟨out, ho, _⟩ := concatAxis1_ok blocks (n c) (by
          intro h0
          rw [h0] at hF2
          have := hF2.length_eq
          simp only [List.length_zipIdx, List.length_nil] at this
          exact hne (List.length_eq_zero_iff.1 this)) (by
          intro b hbm
          obtain ⟨i, hi, rfl⟩ := List.mem_iff_getElem.1 hbm
          have hi' : i < els.zipIdx.length := by rw [hF2.length_eq]; exact hi
          have hfi := hF2.get hi' hi
          simp only [List.get_eq_getElem] at hfi
          obtain ⟨w', hw', hg⟩ := hget _ (List.getElem_mem hi')
          rw [hg, ok_bind] at hfi
          rcases hblock c hc _ _ w' ((zipIdx_get _ _).1 (List.getElem_mem hi')) hw' with h | ⟨b, h, hbl⟩
          · rw [h] at hfi; cases hfi
          · rw [h] at hfi
            cases hfi
            exact hbl)
        rw [ho] at he
        cases he
  unfold assemble
  exact (congrArg (fun p => p >>= concatAxis0) h1).trans rfl

/-- Sorting the atoms by element gives the atoms themselves when they are already sorted. -/
theorem centresOf_sorted (sites : List (Site ℝ)) (hs : sites.Pairwise (fun a b => a.z ≤ b.z))
    (els : List ℕ) (hels : els.Pairwise (· < ·)) (hall : ∀ t ∈ sites, t.z ∈ els) :
    els.flatMap (fun e => sites.filter (fun t => t.z = e)) = sites := by
  induction els generalizing sites with
  | nil =>
    cases sites with
    | nil => rfl
    | cons t _ => exact absurd (hall t (by simp)) (by simp)
  | cons e els ih =>
    rw [List.pairwise_cons] at hels
    rw [List.flatMap_cons]
    -- the atoms of the first element come first
    have hsplit : sites = sites.filter (fun t => t.z = e) ++ sites.filter (fun t => ¬ t.z = e) := by
      clear ih
      induction sites with
      | nil => rfl
      | cons t ts ih2 =>
        rw [List.pairwise_cons] at hs
        have ih2' := ih2 hs.2 (fun u hu => hall u (by simp [hu]))
        by_cases ht : t.z = e
        · rw [List.filter_cons_of_pos (by simpa using ht), List.filter_cons_of_neg (by simpa using ht),
            List.cons_append, ← ih2']
        · have hlt : e < t.z := by
            rcases List.mem_cons.1 (hall t (by simp)) with h | h
            · exact absurd h ht
            · exact hels.1 _ h
          have hnone : ∀ u ∈ t :: ts, ¬ u.z = e := by
            intro u hu
            rcases List.mem_cons.1 hu with rfl | hu
            · exact ht
            · have := hs.1 u hu
              omega
          have h1 : (t :: ts).filter (fun t => decide (t.z = e)) = [] :=
            List.filter_eq_nil_iff.2 (fun u hu => by simpa using hnone u hu)
          have h2 : (t :: ts).filter (fun t => decide (¬ t.z = e)) = t :: ts :=
            List.filter_eq_self.2 (fun u hu => by simpa using hnone u hu)
          rw [h1, h2, List.nil_append]
    have hrest := ih (sites.filter (fun t => ¬ t.z = e)) (hs.filter _) hels.2 (by
      intro t ht
      obtain ⟨h1, h2⟩ := List.mem_filter.1 ht
      rcases List.mem_cons.1 (hall t h1) with h | h
      · simp [h] at h2
      · exact h)
    have hsame : els.flatMap (fun e' => sites.filter (fun t => t.z = e'))
        = els.flatMap (fun e' => (sites.filter (fun t => ¬ t.z = e)).filter (fun t => t.z = e')) := by
      apply List.flatMap_congr
      intro e' he'
      rw [List.filter_filter]
      apply List.filter_congr
      intro t _
      have := hels.1 e' he'
      by_cases h : t.z = e' <;> simp [h]
      omega
    rw [hsame, hrest, ← hsplit]

theorem counterKeys_sorted (l : List ℕ) (hl : l.Pairwise (· ≤ ·)) :
    (counterKeys l).Pairwise (· < ·) := by
  have key : ∀ (l acc : List ℕ), l.Pairwise (· ≤ ·) → acc.Pairwise (· < ·) →
      (∀ a ∈ acc, ∀ b ∈ l, a ≤ b) →
      (l.foldl (fun acc a => if a ∈ acc then acc else acc ++ [a]) acc).Pairwise (· < ·) := by
    intro l
    induction l with
    | nil => intro acc _ h _; exact h
    | cons b l ih =>
      intro acc h1 h2 h3
      rw [List.pairwise_cons] at h1
      rw [List.foldl_cons]
      apply ih _ h1.2
      · split
        · exact h2
        · rename_i hb
          rw [List.pairwise_append]
          refine ⟨h2, by simp, ?_⟩
          intro a ha c hc
          rw [List.mem_singleton] at hc
          subst hc
          have := h3 a ha c (by simp)
          rcases this.lt_or_eq with h | h
          · exact h
          · exact absurd (h ▸ ha) hb
      · intro a ha c hc
        split at ha
        · exact h3 a ha c (by simp [hc])
        · rcases List.mem_append.1 ha with ha | ha
          · exact h3 a ha c (by simp [hc])
          · rw [List.mem_singleton] at ha
            subst ha
            exact h1.1 c hc
  exact key l [] hl (by simp) (by simp)

end MaterSDK
