import Verif.Lemmas.DeepMDNorm
import Verif.Model.NormBuild

/-! # The rows behind the statistics of a normaliser -/

namespace MaterSDK

open Classical

/-- Equal up to order and rows of zeros at the end of the second. -/
def PadPerm (x y : List (Fin 4 → ℝ)) : Prop := ∃ k, x.Perm (y ++ List.replicate k 0)

theorem PadPerm.nil : PadPerm [] [] := ⟨0, by simp⟩

theorem PadPerm.append {x y x' y' : List (Fin 4 → ℝ)} (h : PadPerm x y) (h' : PadPerm x' y') :
    PadPerm (x ++ x') (y ++ y') := by
  obtain ⟨k, hk⟩ := h
  obtain ⟨k', hk'⟩ := h'
  refine ⟨k + k', (hk.append hk').trans ?_⟩
  rw [← List.replicate_append_replicate, ← Multiset.coe_eq_coe]
  simp only [← Multiset.coe_add]
  abel

theorem PadPerm.flatten₂ {α β : Type} {l : List α} {l' : List β} {f : α → List (Fin 4 → ℝ)}
    {g : β → List (Fin 4 → ℝ)} (h : List.Forall₂ (fun a b => PadPerm (f a) (g b)) l l') :
    PadPerm (l.flatMap f) (l'.flatMap g) := by
  induction h with
  | nil => exact PadPerm.nil
  | cons h1 _ ih =>
    rw [List.flatMap_cons, List.flatMap_cons]
    exact h1.append ih

theorem PadPerm.flatten {α : Type} {l : List α} {f g : α → List (Fin 4 → ℝ)}
    (h : ∀ a ∈ l, PadPerm (f a) (g a)) : PadPerm (l.flatMap f) (l.flatMap g) :=
  PadPerm.flatten₂ (List.forall₂_same.2 h)

theorem PadPerm.perm_right {x y z : List (Fin 4 → ℝ)} (h : PadPerm x y) (h' : y.Perm z) : PadPerm x z := by
  obtain ⟨k, hk⟩ := h
  exact ⟨k, hk.trans (h'.append_right _)⟩

theorem PadPerm.perm_left {x y z : List (Fin 4 → ℝ)} (h : PadPerm x y) (h' : z.Perm x) : PadPerm z y := by
  obtain ⟨k, hk⟩ := h
  exact ⟨k, h'.trans hk⟩

/-! ## Concatenation along axis 1 -/

theorem zipWith_flatten_perm {α : Type} (x y : List (List α)) (h : x.length = y.length) :
    (List.zipWith (· ++ ·) x y).flatten.Perm (x.flatten ++ y.flatten) := by
  induction x generalizing y with
  | nil =>
    cases y with
    | nil => simp
    | cons => simp at h
  | cons a x ih =>
    cases y with
    | nil => simp at h
    | cons b y =>
      simp only [List.length_cons, Nat.add_right_cancel_iff] at h
      simp only [List.zipWith_cons_cons, List.flatten_cons]
      refine ((ih y h).append_left (a ++ b)).trans ?_
      rw [← Multiset.coe_eq_coe]
      simp only [← Multiset.coe_add]
      abel

theorem foldl_zipWith_perm {α : Type} (bs : List (List (List α))) (b : List (List α))
    (h : ∀ c ∈ bs, c.length = b.length) :
    (bs.foldl (List.zipWith (· ++ ·)) b).flatten.Perm (b :: bs).flatten.flatten := by
  induction bs generalizing b with
  | nil => simp
  | cons c cs ih =>
    rw [List.foldl_cons]
    have hl : (List.zipWith (· ++ ·) b c).length = b.length := by
      rw [List.length_zipWith, h c (by simp), min_self]
    refine (ih _ (fun d hd => by rw [hl]; exact h d (by simp [hd]))).trans ?_
    simp only [List.flatten_cons, List.flatten_append]
    have := zipWith_flatten_perm b c (h c (by simp)).symm
    refine (this.append_right _).trans ?_
    rw [List.append_assoc]

/-- When `np.concatenate(..., axis=1)` succeeds. -/
theorem concatAxis1_iff {α : Type} (blocks : List (List (List α))) :
    (∃ out, concatAxis1 blocks = .ok out) ↔
      blocks ≠ [] ∧ ∀ b ∈ blocks, ∀ c ∈ blocks, b.length = c.length := by
  cases blocks with
  | nil => simp [concatAxis1]
  | cons b bs =>
    simp only [concatAxis1]
    by_cases hc : bs.any (fun c => decide (c.length ≠ b.length)) = true
    · rw [if_pos hc]
      obtain ⟨c, h1, h2⟩ := List.any_eq_true.1 hc
      simp only [decide_eq_true_eq] at h2
      simp only [reduceCtorEq, exists_false, ne_eq, not_false_eq_true, true_and, false_iff, not_forall]
      exact ⟨c, by simp [h1], b, by simp, h2⟩
    · rw [if_neg hc]
      have hall : ∀ c ∈ bs, c.length = b.length := by
        intro c h1
        by_contra h2
        exact hc (List.any_eq_true.2 ⟨c, h1, by simpa using h2⟩)
      refine ⟨fun _ => ⟨by simp, ?_⟩, fun _ => ⟨_, rfl⟩⟩
      have : ∀ c ∈ b :: bs, c.length = b.length := by
        intro c hcm
        rcases List.mem_cons.1 hcm with rfl | h1
        · rfl
        · exact hall c h1
      intro c hc d hd
      rw [this c hc, this d hd]

theorem concatAxis1_error {α : Type} (blocks : List (List (List α)))
    (h : ¬ ∃ out, concatAxis1 blocks = .ok out) : concatAxis1 blocks = .error .valueError := by
  cases blocks with
  | nil => rfl
  | cons b bs =>
    simp only [concatAxis1] at h ⊢
    split
    · rfl
    · rename_i hc
      rw [if_neg hc] at h
      exact absurd ⟨_, rfl⟩ h

theorem concatAxis1_perm {α : Type} (blocks : List (List (List α))) (out : List (List α))
    (h : concatAxis1 blocks = .ok out) : out.flatten.Perm blocks.flatten.flatten := by
  have h' := ((concatAxis1_iff blocks).1 ⟨out, h⟩).2
  cases blocks with
  | nil => simp [concatAxis1] at h
  | cons b bs =>
    simp only [concatAxis1] at h
    split at h
    · cases h
    · rw [← Except.ok.inj h]
      exact foldl_zipWith_perm bs b (fun c hc => h' c (by simp [hc]) b (by simp))

theorem foldl_zipWith_map {α β γ : Type} (T : List α) (ps : List β) (g : β → α → List γ) (f : α → List γ) :
    (ps.map (fun p => T.map (g p))).foldl (List.zipWith (· ++ ·)) (T.map f)
      = T.map (fun r => f r ++ ps.flatMap (fun p => g p r)) := by
  induction ps generalizing f with
  | nil => simp
  | cons p ps ih =>
    rw [List.map_cons, List.foldl_cons]
    have : List.zipWith (· ++ ·) (T.map f) (T.map (g p)) = T.map (fun r => f r ++ g p r) := by
      rw [List.zipWith_map]
      induction T with
      | nil => rfl
      | cons t T iht => simp
    rw [this, ih]
    simp

/-- Side by side: rows built from the same list. -/
theorem concatAxis1_map {α β γ : Type} (T : List α) (ps : List β) (hne : ps ≠ []) (g : β → α → List γ) :
    concatAxis1 (ps.map (fun p => T.map (g p))) = .ok (T.map (fun r => ps.flatMap (fun p => g p r))) := by
  cases ps with
  | nil => exact absurd rfl hne
  | cons p ps =>
    simp only [List.map_cons, concatAxis1]
    rw [if_neg, foldl_zipWith_map]
    · simp
    · intro h
      obtain ⟨c, h1, h2⟩ := List.any_eq_true.1 h
      obtain ⟨q, _, rfl⟩ := List.mem_map.1 h1
      simp at h2

/-! ## The rows of one frame -/

/-- The rows of one centre and one neighbour element, filled up to the width. -/
noncomputable def padRow (rcut rs : ℝ) (row : List NbrEntry) (nz w : ℕ) : List (Fin 4 → ℝ) :=
  (pairEntries row nz).map (envRow rcut rs) ++ List.replicate (w - (pairEntries row nz).length) 0

theorem envRow_zeroEntry (rcut rs : ℝ) : envRow rcut rs zeroEntry = 0 := by
  ext a; fin_cases a <;> simp [envRow, getS, recip, zeroEntry]

theorem pad_block (rcut rs : ℝ) (table : List (List NbrEntry)) (htab : table ≠ [])
    (hrows : ∀ r ∈ table, r ≠ []) (cz nz w : ℕ)
    (hw : ∀ r ∈ table.filter (centreIs cz), (pairEntries r nz).length ≤ w) :
    ∃ arr, pairTildeR rcut rs table cz nz = .ok arr ∧
      padWidth 0 arr (w : ℤ) = .ok ((table.filter (centreIs cz)).map (fun r => padRow rcut rs r nz w)) := by
  have he := extract_ok table htab hrows cz nz
  have hle : runningMax ((table.filter (centreIs cz)).map (fun r => (pairEntries r nz).length)) ≤ w := by
    apply runningMax_le
    intro x hx
    obtain ⟨row, hrow, rfl⟩ := List.mem_map.1 hx
    exact hw row hrow
  have hrowlen : ∀ r ∈ table.filter (centreIs cz), (pairEntries r nz).length ≤
      runningMax ((table.filter (centreIs cz)).map (fun r => (pairEntries r nz).length)) :=
    fun r hr => le_runningMax (List.mem_map.2 ⟨r, hr, rfl⟩)
  generalize hW : runningMax ((table.filter (centreIs cz)).map (fun r => (pairEntries r nz).length)) = W at *
  refine ⟨(W, ((table.filter (centreIs cz)).map (fun r =>
      pairEntries r nz ++ List.replicate (W - (pairEntries r nz).length) zeroEntry)).map
        (List.map (envRow rcut rs))), ?_, ?_⟩
  · unfold pairTildeR
    rw [he, ok_bind]; rfl
  · rw [padWidth_ok 0 W _ w hle, List.map_map, List.map_map]
    congr 1
    apply List.map_congr_left
    intro r hr
    have := hrowlen r hr
    simp only [Function.comp, padRow, List.map_append, List.map_replicate, envRow_zeroEntry,
      List.append_assoc, List.replicate_append_replicate]
    congr 2
    omega

theorem zipIdx_mapM_zip {α : Type} (nbrs ws : List ℕ) (hlen : ws.length = nbrs.length)
    (f : ℕ × ℕ → Except PyErr α) (g : ℕ × ℕ → α)
    (h : ∀ k nz w, nbrs[k]? = some nz → ws[k]? = some w → f (nz, k) = .ok (g (nz, w))) :
    nbrs.zipIdx.mapM f = .ok ((nbrs.zip ws).map g) := by
  rw [mapM_eq_ok, List.forall₂_map_right_iff, List.forall₂_iff_get]
  refine ⟨by simp [hlen], fun j hj hj' => ?_⟩
  simp only [List.length_zipIdx] at hj
  simp only [List.get_eq_getElem, List.getElem_zipIdx, Nat.zero_add, List.getElem_zip]
  exact h j _ _ (List.getElem?_eq_getElem hj) (List.getElem?_eq_getElem (by omega))

/-- The rows of one frame, for sufficient widths. -/
theorem frameTildeR_ok (rcut rs : ℝ) (table : List (List NbrEntry)) (htab : table ≠ [])
    (hrows : ∀ r ∈ table, r ≠ []) (cz : ℕ) (nbrs ws : List ℕ) (hlen : ws.length = nbrs.length)
    (hnn : nbrs ≠ [])
    (hw : ∀ p ∈ nbrs.zip ws, ∀ r ∈ table.filter (centreIs cz), (pairEntries r p.1).length ≤ p.2) :
    frameTildeR rcut rs table cz nbrs (ws.map (Nat.cast : ℕ → ℤ)) =
      .ok ((table.filter (centreIs cz)).map (fun r => (nbrs.zip ws).flatMap
        (fun p => padRow rcut rs r p.1 p.2))) := by
  unfold frameTildeR
  rw [zipIdx_mapM_zip nbrs ws hlen _ (fun p => (table.filter (centreIs cz)).map
    (fun r => padRow rcut rs r p.1 p.2)), ok_bind]
  · apply concatAxis1_map
    cases nbrs with
    | nil => exact absurd rfl hnn
    | cons a l =>
      cases ws with
      | nil => simp at hlen
      | cons b l' => simp
  · intro k nz w h1 h2
    have hmem : (nz, w) ∈ nbrs.zip ws := by
      rw [List.mem_iff_getElem?]
      exact ⟨k, by rw [List.getElem?_zip_eq_some]; exact ⟨h1, h2⟩⟩
    obtain ⟨arr, e1, e2⟩ := pad_block rcut rs table htab hrows cz nz w (hw (nz, w) hmem)
    simp only
    rw [e1, ok_bind]
    have : pyGet (ws.map (Nat.cast : ℕ → ℤ)) k = .ok (w : ℤ) := by
      rw [pyGet_eq_ok, List.getElem?_map, h2]; rfl
    rw [this, ok_bind, e2]

theorem padRow_pad (rcut rs : ℝ) (row : List NbrEntry) (nz w : ℕ) :
    PadPerm (padRow rcut rs row nz w) ((pairEntries row nz).map (envRow rcut rs)) := ⟨_, List.Perm.refl _⟩

theorem padRow_length (rcut rs : ℝ) (row : List NbrEntry) (nz w : ℕ) (h : (pairEntries row nz).length ≤ w) :
    (padRow rcut rs row nz w).length = w := by
  simp only [padRow, List.length_append, List.length_map, List.length_replicate]
  omega

/-! ## The statistics -/

theorem calcPairStats_perm {x y : List (Fin 4 → ℝ)} (h : x.Perm y) : calcPairStats x = calcPairStats y := by
  unfold calcPairStats
  have h1 := h.map (fun v => v 0)
  have h2 := h.flatMap_right (fun v => [v 1, v 2, v 3])
  simp only [h1.sum_eq, h1.length_eq, h2.sum_eq, (h1.map (fun x => x * x)).sum_eq,
    (h2.map (fun x => x * x)).sum_eq]

end MaterSDK
