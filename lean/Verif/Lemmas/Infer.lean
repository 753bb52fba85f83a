import Verif.Model.Infer
import Verif.Lemmas.DeepMDNorm
import Verif.Spec.Infer

/-! # Helper lemmas for the input of the inference -/

set_option linter.unusedSectionVars false

namespace MaterSDK

open Classical

/-- The entries of one row for one neighbour element, padded to the width. -/
def padE (w nz : ℕ) (r : List NbrEntry) : List NbrEntry :=
  pairEntries r nz ++ List.replicate (w - (pairEntries r nz).length) zeroEntry

theorem pad_pad {α : Type} (l : List α) (z : α) (W w : ℕ) (h1 : l.length ≤ W) (h2 : W ≤ w) :
    (l ++ List.replicate (W - l.length) z) ++ List.replicate (w - W) z
      = l ++ List.replicate (w - l.length) z := by
  rw [List.append_assoc, List.replicate_append_replicate]
  congr 2
  omega

theorem envRow_zero (rcut rs : ℝ) : envRow rcut rs zeroEntry = 0 := by
  ext a
  fin_cases a <;> simp [envRow, zeroEntry, recip, getS]

theorem derivBlock_zero (rcut rs : ℝ) : derivBlock rcut rs zeroEntry = 0 := by
  ext a b
  fin_cases a <;> fin_cases b <;> simp [derivBlock, zeroEntry, recip]

theorem pairEntries_length (r : List NbrEntry) (nz : ℕ) :
    (pairEntries r nz).length = (rowNbrs r nz).length := by
  cases r with
  | nil => rfl
  | cons c l => simp [pairEntries, rowNbrs]

section Pair

variable (table : List (List NbrEntry)) (htab : table ≠ []) (hrows : ∀ r ∈ table, r ≠ [])
  (cz nz w : ℕ) (hw : ∀ r ∈ table.filter (centreIs cz), (pairEntries r nz).length ≤ w)
include htab hrows hw

theorem pair_pad {β : Type} (g : NbrEntry → β) (z : β) (hz : g zeroEntry = z) :
    ∃ W rows, extractFeaturePair table cz nz = .ok (W, rows) ∧ W ≤ w ∧
      (rows.map (List.map g)).map (fun r => r ++ List.replicate (w - W) z)
        = (table.filter (centreIs cz)).map (fun r => (padE w nz r).map g) := by
  refine ⟨_, _, extract_ok table htab hrows cz nz, ?_, ?_⟩
  · apply runningMax_le
    intro x hx
    obtain ⟨row, hrow, rfl⟩ := List.mem_map.1 hx
    exact hw row hrow
  · rw [List.map_map, List.map_map]
    apply List.map_congr_left
    intro r hr
    have h1 : (pairEntries r nz).length ≤ runningMax ((table.filter (centreIs cz)).map
        (fun r => (pairEntries r nz).length)) := le_runningMax (List.mem_map.2 ⟨r, hr, rfl⟩)
    have h2 : runningMax ((table.filter (centreIs cz)).map
        (fun r => (pairEntries r nz).length)) ≤ w := by
      apply runningMax_le
      intro x hx
      obtain ⟨row, hrow, rfl⟩ := List.mem_map.1 hx
      exact hw row hrow
    simp only [Function.comp]
    have e := pad_pad ((pairEntries r nz).map g) z _ w (by rw [List.length_map]; exact h1) h2
    rw [List.length_map] at e
    unfold padE
    rw [List.map_append, List.map_append, List.map_replicate, List.map_replicate, hz, e]

theorem expandRc_pad : expandRc table cz nz (w : ℤ) =
    .ok ((table.filter (centreIs cz)).map (fun r => (padE w nz r).map (fun e => e.2.2))) := by
  obtain ⟨W, rows, h1, h2, h3⟩ := pair_pad table htab hrows cz nz w hw (fun e => e.2.2) (0 : Vec ℝ) rfl
  unfold expandRc
  rw [h1, ok_bind]
  simp only
  rw [if_neg (by omega), ← h3, List.map_map]
  rfl

theorem tildeR_pad (rcut rs : ℝ) : ∃ arr, pairTildeR rcut rs table cz nz = .ok arr ∧
    padWidth 0 arr (w : ℤ) =
      .ok ((table.filter (centreIs cz)).map (fun r => (padE w nz r).map (envRow rcut rs))) := by
  obtain ⟨W, rows, h1, h2, h3⟩ := pair_pad table htab hrows cz nz w hw _ _ (envRow_zero rcut rs)
  refine ⟨(W, rows.map (List.map (envRow rcut rs))), ?_, ?_⟩
  · unfold pairTildeR
    rw [h1, ok_bind]; rfl
  · rw [padWidth_ok _ _ _ _ h2, h3]

theorem deriv_pad (rcut rs : ℝ) (hrs : rcut - rs ≠ 0) : calcDerivative rcut rs table cz nz (w : ℤ) =
      .ok ((table.filter (centreIs cz)).map (fun r => (padE w nz r).map (derivBlock rcut rs))) := by
  obtain ⟨W, rows, h1, h2, h3⟩ := pair_pad table htab hrows cz nz w hw _ _ (derivBlock_zero rcut rs)
  unfold calcDerivative
  rw [h1, ok_bind]
  simp only
  rw [if_neg (by omega), if_neg hrs, padWidth_ok _ _ _ _ h2, h3]

theorem index_pad (s : Struct ℝ) (idx : Vec ℝ → ℕ) (pad : ℕ) (hpad : s.getSiteIndex 0 = .ok pad)
    (hidx : ∀ r ∈ table.filter (centreIs cz), ∀ p ∈ rowNbrs r nz, s.getSiteIndex p = .ok (idx p))
    (h0 : 0 < w) (M : ℕ)
    (hM : M = runningMax ((table.filter (centreIs cz)).map (fun r => (rowNbrs r nz).length))) :
    indexBlock s table cz nz (w : ℤ) =
      .ok ((table.filter (centreIs cz)).map (fun r => (rowNbrs r nz).map idx ++
        (List.replicate (M - (rowNbrs r nz).length) pad ++ List.replicate (w - M) 0))) := by
  set F := table.filter (centreIs cz) with hF
  have hMw : M ≤ w := by
    rw [hM]
    apply runningMax_le
    intro x hx
    obtain ⟨row, hrow, rfl⟩ := List.mem_map.1 hx
    rw [← pairEntries_length]
    exact hw row hrow
  have hlists : (F.map (fun r =>
      rowNbrs r nz ++ List.replicate (M - (rowNbrs r nz).length) (0 : Vec ℝ))).mapM
        (fun r => r.mapM s.getSiteIndex) = .ok (F.map (fun r => (rowNbrs r nz).map idx ++
          List.replicate (M - (rowNbrs r nz).length) pad)) := by
    rw [mapM_eq_ok, List.forall₂_map_left_iff, List.forall₂_map_right_iff]
    refine List.forall₂_same.2 (fun r hr => ?_)
    rw [mapM_eq_ok]
    refine List.rel_append ?_ ?_
    · rw [List.forall₂_map_right_iff]
      exact List.forall₂_same.2 (hidx r hr)
    · rw [List.forall₂_iff_get]
      refine ⟨by simp, fun i hi hi' => ?_⟩
      simp only [List.get_eq_getElem, List.getElem_replicate, hpad]
  have hn : nbrsIndices s table cz nz w = .ok (F.map (fun r => (rowNbrs r nz).map idx ++
        (List.replicate (M - (rowNbrs r nz).length) pad ++ List.replicate (w - M) 0))) := by
    unfold nbrsIndices
    rw [if_neg (by simpa using htab), if_neg (by
      rw [List.any_eq_true]
      rintro ⟨row, h1, h2⟩
      exact hrows row h1 (List.isEmpty_iff.1 h2))]
    simp only
    have e : (table.filter (fun r => decide (r.head?.map Prod.fst = some cz))) = F := rfl
    rw [e, ← hM, hlists, ok_bind, if_neg (by omega), if_neg (by rintro ⟨_, h⟩; omega)]
    show Except.ok _ = _
    congr 1
    rw [List.map_map]
    apply List.map_congr_left
    intro r _
    simp only [Function.comp, List.append_assoc]
  unfold indexBlock
  rw [if_neg (by omega), Int.toNat_natCast, hn, ok_bind, if_neg (by omega), if_neg (by omega)]
  rfl

end Pair

/-! ## Blocks side by side and one below the other -/

theorem concat1_map {α κ ρ : Type} (ks : List κ) (hk : ks ≠ []) (F : List ρ) (g : κ → ρ → List α) :
    concatAxis1 (ks.map (fun k => F.map (g k))) =
      .ok (F.map (fun r => (ks.map (fun k => g k r)).flatten)) := by
  obtain ⟨out, h1, h2, h3⟩ := concatAxis1_ok (ks.map (fun k => F.map (g k))) F.length
    (by simpa using hk) (by
      intro b hb
      obtain ⟨k, _, rfl⟩ := List.mem_map.1 hb
      simp)
  rw [h1]
  congr 1
  apply List.ext_getElem?
  intro a
  by_cases ha : a < F.length
  · rw [h3 a (ks.map (fun k => g k F[a])) (by
      rw [List.forall₂_map_left_iff, List.forall₂_map_right_iff]
      exact List.forall₂_same.2 (fun k _ => by simp [ha]))]
    simp [ha]
  · rw [List.getElem?_eq_none (by omega), List.getElem?_eq_none (by simpa using ha)]

theorem concat0_ok {α : Type} (parts : List (List (List α))) (hne : parts ≠ []) (n : ℕ)
    (h : ∀ r ∈ parts.flatten, r.length = n) : concatAxis0 parts = .ok parts.flatten := by
  unfold concatAxis0
  rw [if_neg (by simpa using hne)]
  cases hp : parts.flatten with
  | nil => rfl
  | cons r rs =>
    rw [hp] at h
    simp only
    rw [if_neg]
    intro hc
    obtain ⟨q, h1, h2⟩ := List.any_eq_true.1 hc
    simp only [decide_eq_true_eq] at h2
    exact h2 (by rw [h q (by simp [h1]), h r (by simp)])

/-- The assembled array when every block is `F.map (cell nz)`. -/
theorem assemble_ok {α : Type} (block : ℕ → ℕ → ℤ → Except PyErr (List (List α)))
    (F : ℕ → List (List NbrEntry)) (cell : ℕ → List NbrEntry → List α) (cs els ws : List ℕ)
    (wOf : ℕ → ℕ) (hce : cs ≠ []) (hne : els ≠ []) (hwOf : ∀ k nz : ℕ, els[k]? = some nz → ws[k]? = some (wOf nz))
    (hblock : ∀ cz ∈ cs, ∀ nz ∈ els, block cz nz (wOf nz : ℤ) = .ok ((F cz).map (cell nz)))
    (hlen : ∀ cz ∈ cs, ∀ nz ∈ els, ∀ r ∈ F cz, (cell nz r).length = wOf nz) :
    assemble block cs els (ws.map (Nat.cast : ℕ → ℤ)) =
      .ok (((cs.map F).flatten).map (fun r => (els.map (fun nz => cell nz r)).flatten)) := by
  unfold assemble
  have h1 : cs.mapM (fun cz => do
      let blocks ← els.zipIdx.mapM (fun (x : ℕ × ℕ) => do
        let width ← pyGet (ws.map (Nat.cast : ℕ → ℤ)) x.2
        block cz x.1 width)
      concatAxis1 blocks) = .ok (cs.map (fun cz =>
        (F cz).map (fun r => (els.map (fun nz => cell nz r)).flatten))) := by
    apply mapM_ok_of
    intro cz hcz
    rw [mapM_ok_of _ (fun x : ℕ × ℕ => (F cz).map (cell x.1))]
    · rw [ok_bind]
      have : els.zipIdx.map (fun x : ℕ × ℕ => (F cz).map (cell x.1))
          = els.map (fun nz => (F cz).map (cell nz)) := by
        conv_rhs => rw [← List.zipIdx_map_fst 0 els]
        rw [List.map_map]; rfl
      rw [this, concat1_map els hne]
    · rintro ⟨nz, k⟩ hk
      have hk' := (zipIdx_get _ _).1 hk
      simp only at hk'
      have e : pyGet (ws.map (Nat.cast : ℕ → ℤ)) k = .ok (wOf nz : ℤ) := by
        rw [pyGet_eq_ok, List.getElem?_map, hwOf k nz hk']; rfl
      simp only
      rw [e, ok_bind, hblock cz hcz nz (List.mem_of_getElem? hk')]
  have h2 : (cs.map (fun cz => (F cz).map (fun r => (els.map (fun nz => cell nz r)).flatten))).flatten
      = ((cs.map F).flatten).map (fun r => (els.map (fun nz => cell nz r)).flatten) := by
    rw [List.map_flatten, List.map_map]; rfl
  refine (congrArg (fun p => p >>= concatAxis0) h1).trans ?_
  show (Except.ok _ >>= concatAxis0) = _
  rw [ok_bind, concat0_ok _ (by simpa using hce) (els.map wOf).sum, h2]
  rw [h2]
  intro row hrow
  obtain ⟨r, hr, rfl⟩ := List.mem_map.1 hrow
  obtain ⟨l, hl, hrl⟩ := List.mem_flatten.1 hr
  obtain ⟨cz, hcz, rfl⟩ := List.mem_map.1 hl
  rw [List.length_flatten, List.map_map]
  congr 1
  exact List.map_congr_left (fun nz hnz => hlen cz hcz nz hnz r hrl)

/-- `normalize` when the centre elements are among the neighbour elements, as one map over the rows. -/
theorem normalize_closed (N : Normalizer) (table : List (List NbrEntry)) (htab : table ≠ [])
    (hrows : ∀ r ∈ table, r ≠ []) (cs els : List ℕ) (hce : N.centres = cs) (hne' : N.nbrs = els)
    (hsub : cs ⊆ els) (hndc : cs.Nodup) (hnd : els.Nodup) (hne : cs ≠ []) (wOf : ℕ → ℕ) (da ds : ℕ → Fin 4 → ℝ)
    (hwOf : ∀ k nz : ℕ, els[k]? = some nz → N.widths[k]? = some (wOf nz : ℤ))
    (hda : ∀ i cz : ℕ, cs[i]? = some cz → N.davgs[i]? = some (da cz))
    (hds : ∀ i cz : ℕ, cs[i]? = some cz → N.dstds[i]? = some (ds cz))
    (hrs : N.rcut - N.rs ≠ 0)
    (hw : ∀ cz ∈ cs, ∀ nz ∈ els, ∀ r ∈ table.filter (centreIs cz),
      (pairEntries r nz).length ≤ wOf nz) :
    N.normalize table = .ok
      ((cs.map (fun cz => (table.filter (centreIs cz)).map (fun r => (cs.map (fun nz =>
        ((padE (wOf nz) nz r).map (envRow N.rcut N.rs)).map (normalizeRow (da cz) (ds cz)))).flatten))).flatten,
       (cs.map (fun cz => (table.filter (centreIs cz)).map (fun r => (cs.map (fun nz =>
        ((padE (wOf nz) nz r).map (derivBlock N.rcut N.rs)).map (normalizeDeriv (ds cz)))).flatten))).flatten) := by
  let Bv : ℕ → ℕ → NormBlock := fun cz nz =>
    ((table.filter (centreIs cz)).map (fun r =>
        ((padE (wOf nz) nz r).map (envRow N.rcut N.rs)).map (normalizeRow (da cz) (ds cz))),
     (table.filter (centreIs cz)).map (fun r =>
        ((padE (wOf nz) nz r).map (derivBlock N.rcut N.rs)).map (normalizeDeriv (ds cz))))
  let B : ℕ → ℕ → NormBlock := fun i k => Bv (cs[i]?.getD 0) (els[k]?.getD 0)
  have hB : ∀ (i k cz nz : ℕ), N.centres[i]? = some cz → N.nbrs[k]? = some nz →
      N.block table cz i nz k = .ok (B i k) := by
    intro i k cz nz h1 h2
    rw [hce] at h1
    rw [hne'] at h2
    have hcm := List.mem_of_getElem? h1
    have hnm := List.mem_of_getElem? h2
    obtain ⟨arr, g1, g2⟩ := tildeR_pad table htab hrows cz nz (wOf nz) (hw cz hcm nz hnm) N.rcut N.rs
    have g3 := deriv_pad table htab hrows cz nz (wOf nz) (hw cz hcm nz hnm) N.rcut N.rs hrs
    unfold Normalizer.block
    rw [g1, ok_bind, pyGet_eq_ok.2 (hwOf k nz h2), ok_bind, g2, ok_bind, g3, ok_bind,
      pyGet_eq_ok.2 (hda i cz h1), ok_bind, pyGet_eq_ok.2 (hds i cz h1), ok_bind]
    simp only [B, h1, h2, Option.getD_some, Bv]
    rw [List.map_map, List.map_map]
    rfl
  have hdict := normalizeDict_ok N table B hB
  unfold Normalizer.normalize
  rw [hdict, ok_bind, hce, hne']
  have hparts : cs.mapM (fun cz => do
      let blocks ← cs.mapM (fun nz => pyDictGet ((cs.zipIdx.map (fun c : ℕ × ℕ =>
        els.zipIdx.map (fun n : ℕ × ℕ => ((c.1, n.1), B c.2 n.2)))).flatten) (cz, nz))
      let r ← concatAxis1 (blocks.map Prod.fst)
      let d ← concatAxis1 (blocks.map Prod.snd)
      return (r, d)) = .ok (cs.map (fun cz =>
        ((table.filter (centreIs cz)).map (fun r => (cs.map (fun nz =>
          ((padE (wOf nz) nz r).map (envRow N.rcut N.rs)).map (normalizeRow (da cz) (ds cz)))).flatten),
         (table.filter (centreIs cz)).map (fun r => (cs.map (fun nz =>
          ((padE (wOf nz) nz r).map (derivBlock N.rcut N.rs)).map (normalizeDeriv (ds cz)))).flatten)))) := by
    apply mapM_ok_of
    intro cz hcz
    obtain ⟨i, hi⟩ := List.mem_iff_getElem?.1 hcz
    rw [mapM_ok_of _ (fun nz => Bv cz nz), ok_bind, List.map_map, List.map_map]
    · have e1 : cs.map (Prod.fst ∘ fun nz => Bv cz nz) = cs.map (fun nz =>
          (table.filter (centreIs cz)).map (fun r =>
            ((padE (wOf nz) nz r).map (envRow N.rcut N.rs)).map (normalizeRow (da cz) (ds cz)))) := rfl
      have e2 : cs.map (Prod.snd ∘ fun nz => Bv cz nz) = cs.map (fun nz =>
          (table.filter (centreIs cz)).map (fun r =>
            ((padE (wOf nz) nz r).map (derivBlock N.rcut N.rs)).map (normalizeDeriv (ds cz)))) := rfl
      rw [e1, e2, concat1_map cs hne, ok_bind, concat1_map cs hne, ok_bind]
      rfl
    · intro nz hnz
      obtain ⟨k, hk⟩ := List.mem_iff_getElem?.1 (hsub hnz)
      rw [dict_get cs els hndc hnd B i k cz nz hi hk]
      simp only [B, hi, hk, Option.getD_some]
  rw [hparts, ok_bind, if_neg (by simpa using hne)]
  simp only [List.map_map]
  rfl

/-! ## The rows of a structure -/

/-- The rows of the table and their centres. -/
def RowOf (S : Struct ℝ) (r : ℝ) (c : Site ℝ) (row : List NbrEntry) : Prop :=
  ∃ (rest : List NbrEntry) (k : ℕ),
    row = (c.z, 0, c.pos) :: (rest ++ List.replicate k (0, 0, 0)) ∧
    ((c.z, 0, c.pos) :: rest).Perm ((within S c.pos r).map (fun t => (t.z, dist3 t.pos c.pos, t.pos))) ∧
    rest.Pairwise (fun a b => a.2.1 ≤ b.2.1) ∧ ∀ e ∈ rest, 0 < e.2.1

theorem forall₂_flatMap_flatten {α β γ : Type} {R : β → γ → Prop} (l : List α) (f : α → List β) (g : α → List γ)
    (h : ∀ a ∈ l, List.Forall₂ R (f a) (g a)) : List.Forall₂ R (l.flatMap f) ((l.map g).flatten) := by
  induction l with
  | nil => exact .nil
  | cons a l ih =>
    rw [List.flatMap_cons, List.map_cons, List.flatten_cons]
    exact List.rel_append (h a (by simp)) (ih (fun b hb => h b (by simp [hb])))

theorem rows_of_structure (A : ArgSort) (s S : Struct ℝ) (hL : s.lattice.det ≠ 0) (hsep : Separated s)
    (r : ℝ) (hr : 0 ≤ r) (sc : Fin 3 → ℤ) (m : Fin 3 → ℕ)
    (h : ∀ i, sc i = 2 * (m i : ℤ) + 1) (hS : s.makeSupercell sc true = .ok S) :
    ∃ table, neighborTable A s r sc = .ok table ∧ table.length = s.sites.length ∧
      (∀ row ∈ table, row ≠ []) ∧
      (∀ cz, List.Forall₂ (RowOf S r) (s.sites.filter (fun c => c.z = cz)) (table.filter (centreIs cz))) := by
  obtain ⟨table, t1, t2⟩ := row_split A s S r hr sc m h hS (supercell_nodup s S hL hsep sc m h hS)
  refine ⟨table, t1, ?_, ?_, ?_⟩
  · rw [← t2.length_eq]; exact (sortByKey_perm _ _).length_eq
  · intro row hrow
    obtain ⟨i, hi, rfl⟩ := List.mem_iff_getElem.1 hrow
    obtain ⟨rest, k, g, _⟩ := t2.get (by rw [t2.length_eq]; exact hi) hi
    simp only [List.get_eq_getElem] at g
    rw [g]
    simp
  · intro cz
    have := forall₂_filter (R := RowOf S r) (p := fun c : Site ℝ => decide (c.z = cz))
      (q := centreIs cz) t2 (by
        rintro c row ⟨rest, k, rfl, _⟩
        simp [centreIs])
    rwa [Struct.reformat_, sortByKey_stable Site.z cz s.sites] at this

theorem row_entries (S : Struct ℝ) (r : ℝ) (c : Site ℝ) (row : List NbrEntry) (h : RowOf S r c row)
    (nz : ℕ) (hnz : 0 < nz) : ∃ ts : List (Site ℝ), ts.Perm (nbrsOf S c.pos r nz) ∧
      ts.Pairwise (fun a b => dist3 a.pos c.pos ≤ dist3 b.pos c.pos) ∧
      pairEntries row nz = ts.map (fun t => (nz, dist3 t.pos c.pos, t.pos - c.pos)) ∧
      rowNbrs row nz = ts.map Site.pos := by
  obtain ⟨rest, k, rfl, h1, h2, h3⟩ := h
  obtain ⟨g1, g2⟩ := pairEntries_spec S c r nz hnz rest k h1 h2 h3
  obtain ⟨ts, e1, e2⟩ := perm_map_inv _ g1
  refine ⟨ts, e1, ?_, e2, ?_⟩
  · rw [e2, List.pairwise_map] at g2
    exact g2
  · have e3 : rowNbrs ((c.z, 0, c.pos) :: (rest ++ List.replicate k (0, 0, 0))) nz
        = (pairEntries ((c.z, 0, c.pos) :: (rest ++ List.replicate k (0, 0, 0))) nz).map
          (fun e => e.2.2 + c.pos) := by
      simp only [rowNbrs, pairEntries, List.tail_cons, List.map_map]
      apply List.map_congr_left
      intro e _
      simp
    rw [e3, e2, List.map_map]
    apply List.map_congr_left
    intro t _
    simp

/-! ## Entries by position -/

theorem cell_get {α ρ : Type} (Rws : List ρ) (els : List ℕ) (cell : ℕ → ρ → List α) (wOf : ℕ → ℕ)
    (a k nz b : ℕ) (r : ρ) (hr : Rws[a]? = some r) (hk : els[k]? = some nz)
    (hlen : ∀ nz ∈ els, (cell nz r).length = wOf nz) (hb : b < wOf nz) :
    cellAt (Rws.map (fun r => (els.map (fun nz => cell nz r)).flatten)) a
      (((els.take k).map wOf).sum + b) = (cell nz r)[b]? := by
  unfold cellAt
  rw [List.getElem?_map, hr, Option.map_some, Option.bind_some]
  have e : ((els.take k).map wOf) = ((els.map (fun nz => cell nz r)).take k).map List.length := by
    rw [← List.map_take, List.map_map]
    apply List.map_congr_left
    intro n hn
    exact (hlen n (List.mem_of_mem_take hn)).symm
  rw [e, flatten_get _ k (cell nz r) (by rw [List.getElem?_map, hk]; rfl) b
    (by rw [hlen nz (List.mem_of_getElem? hk)]; exact hb)]

theorem padded_get {α β : Type} (ts : List α) (f : α → β) (z : β) (w b : ℕ) (t : α)
    (ht : ts[b]? = some t) : (ts.map f ++ List.replicate (w - ts.length) z)[b]? = some (f t) := by
  have hb := (List.getElem?_eq_some_iff.1 ht).1
  rw [List.getElem?_append_left (by simpa using hb), List.getElem?_map, ht]; rfl

theorem padded_get_none {α β : Type} (ts : List α) (f : α → β) (z : β) (w b : ℕ)
    (h1 : ts.length ≤ b) (h2 : b < w) :
    (ts.map f ++ List.replicate (w - ts.length) z)[b]? = some z := by
  rw [List.getElem?_append_right (by simpa using h1), List.getElem?_replicate, List.length_map,
    if_pos (by omega)]

/-! ## The whole input -/

theorem padE_map {β : Type} (w nz : ℕ) (c : Site ℝ) (row : List NbrEntry)
    (ts : List (Site ℝ)) (g : NbrEntry → β)
    (h : pairEntries row nz = ts.map (fun t => (nz, dist3 t.pos c.pos, t.pos - c.pos))) :
    (padE w nz row).map g = ts.map (fun t => g (nz, dist3 t.pos c.pos, t.pos - c.pos)) ++
      List.replicate (w - ts.length) (g zeroEntry) := by
  unfold padE
  rw [h, List.length_map, List.map_append, List.map_map, List.map_replicate]
  rfl

theorem siteIndex_ok (s : Struct ℝ) (hL : s.lattice.det ≠ 0) (p : Vec ℝ) :
    ∃ i, s.getSiteIndex p = .ok i := by
  obtain ⟨i, h, _⟩ := C16_zero_means_none s hL p
  exact ⟨i, h⟩

/-- The element of the centre of a row. -/
def headZ (r : List NbrEntry) : ℕ := (r.head?.map Prod.fst).getD 0

theorem headZ_of {cz : ℕ} {r : List NbrEntry} (h : centreIs cz r = true) : headZ r = cz := by
  unfold centreIs at h
  have : r.head?.map Prod.fst = some cz := by simpa using h
  unfold headZ
  rw [this]; rfl

theorem flatten_headZ {β : Type} (table : List (List NbrEntry)) (els : List ℕ)
    (f : ℕ → List NbrEntry → β) :
    (els.map (fun cz => (table.filter (centreIs cz)).map (f cz))).flatten
      = ((els.map (fun cz => table.filter (centreIs cz))).flatten).map (fun r => f (headZ r) r) := by
  rw [List.map_flatten, List.map_map]
  congr 1
  apply List.map_congr_left
  intro cz _
  apply List.map_congr_left
  intro r hr
  rw [headZ_of (List.mem_filter.1 hr).2]

/-- Everything that is known about the input of the inference. -/
theorem infer_gen (A : ArgSort) (s S : Struct ℝ) (hL : s.lattice.det ≠ 0) (hsep : Separated s)
    (hne : s.sites ≠ []) (rcut rs : ℝ) (hr : 0 ≤ rcut) (hrs : rcut ≠ rs) (sc : Fin 3 → ℤ)
    (m : Fin 3 → ℕ) (h : ∀ i, sc i = 2 * (m i : ℤ) + 1) (hS : s.makeSupercell sc true = .ok S)
    (cs els ws vs : List ℕ) (davgs dstds : List (Fin 4 → ℝ)) (hcs : cs ≠ []) (hsub : cs ⊆ els)
    (hndc : cs.Nodup) (hnd : els.Nodup)
    (hpos : ∀ e ∈ els, 0 < e) (hws : ws.length = els.length) (hw0 : ∀ w ∈ ws, 0 < w)
    (hvl : vs.length = cs.length)
    (hvs : ∀ j k nz : ℕ, cs[j]? = some nz → els[k]? = some nz → vs[j]? = ws[k]?)
    (hda : davgs.length = cs.length) (hds : dstds.length = cs.length)
    (hwide : ∀ (k nz w : ℕ), els[k]? = some nz → ws[k]? = some w → ∀ c ∈ s.sites, c.z ∈ cs →
      (nbrsOf S c.pos rcut nz).length ≤ w) :
    ∃ (out : InferInput) (pad : ℕ),
      inferPreprocess A s rcut rs sc davgs dstds cs els (ws.map (Nat.cast : ℕ → ℤ)) = .ok out ∧
      s.getSiteIndex 0 = .ok pad ∧ out.natoms = s.getNatoms [] ∧
      (out.rc.length = (centresOf s cs).length ∧ out.tildeR.length = (centresOf s cs).length ∧
        out.tildeRDeriv.length = (centresOf s cs).length ∧
        out.listNeigh.length = (centresOf s cs).length) ∧
      ((∀ row ∈ out.rc, row.length = ws.sum) ∧ (∀ row ∈ out.tildeR, row.length = vs.sum) ∧
        (∀ row ∈ out.tildeRDeriv, row.length = vs.sum) ∧
        (∀ row ∈ out.listNeigh, row.length = ws.sum)) ∧
      ∀ (a i k nz w : ℕ) (c : Site ℝ) (davg dstd : Fin 4 → ℝ), (centresOf s cs)[a]? = some c →
        cs[i]? = some c.z → els[k]? = some nz → ws[k]? = some w →
        davgs[i]? = some davg → dstds[i]? = some dstd →
        ∃ (ts : List (Site ℝ)) (M : ℕ), ts.Perm (nbrsOf S c.pos rcut nz) ∧
          ts.Pairwise (fun a b => dist3 a.pos c.pos ≤ dist3 b.pos c.pos) ∧
          (∀ u ∈ s.sites, u.z = c.z → (nbrsOf S u.pos rcut nz).length ≤ M) ∧
          (∃ u ∈ s.sites, u.z = c.z ∧ (nbrsOf S u.pos rcut nz).length = M) ∧
          (∀ (b : ℕ) (t : Site ℝ), ts[b]? = some t →
            cellAt out.rc a ((ws.take k).sum + b) = some (t.pos - c.pos) ∧
            (∀ j : ℕ, cs[j]? = some nz →
              cellAt out.tildeR a ((vs.take j).sum + b) = some (normalizeRow davg dstd
                (envRow rcut rs (nz, dist3 t.pos c.pos, t.pos - c.pos))) ∧
              cellAt out.tildeRDeriv a ((vs.take j).sum + b) = some (normalizeDeriv dstd
                (derivBlock rcut rs (nz, dist3 t.pos c.pos, t.pos - c.pos)))) ∧
            ∃ (q : ℕ) (u : Site ℝ), cellAt out.listNeigh a ((ws.take k).sum + b) = some (q + 1) ∧
              s.sites[q]? = some u ∧ u.z = nz ∧ IsImage s t.pos u) ∧
          (∀ b, ts.length ≤ b → b < w →
            cellAt out.rc a ((ws.take k).sum + b) = some 0 ∧
            (∀ j : ℕ, cs[j]? = some nz →
              cellAt out.tildeR a ((vs.take j).sum + b) = some (normalizeRow davg dstd 0) ∧
              cellAt out.tildeRDeriv a ((vs.take j).sum + b) = some 0) ∧
            cellAt out.listNeigh a ((ws.take k).sum + b) = some (if b < M then pad else 0)) := by
  obtain ⟨table, t1, t2, t3, t4⟩ := rows_of_structure A s S hL hsep rcut hr sc m h hS
  have htab : table ≠ [] := by
    intro h0
    rw [h0] at t2
    exact hne (List.length_eq_zero_iff.1 t2.symm)
  obtain ⟨pad, hpad⟩ := siteIndex_ok s hL 0
  choose idx hidx using siteIndex_ok s hL
  -- values by element instead of by place
  let wOf : ℕ → ℕ := fun nz => ws[els.idxOf nz]?.getD 0
  let da : ℕ → Fin 4 → ℝ := fun cz => davgs[cs.idxOf cz]?.getD 0
  let ds : ℕ → Fin 4 → ℝ := fun cz => dstds[cs.idxOf cz]?.getD 0
  have hix : ∀ (k nz : ℕ), els[k]? = some nz → els.idxOf nz = k := by
    intro k nz hk
    obtain ⟨hk', rfl⟩ := List.getElem?_eq_some_iff.1 hk
    exact hnd.idxOf_getElem k hk'
  have hels : els ≠ [] := by
    intro h0
    rw [h0] at hsub
    exact hcs (List.subset_nil.1 hsub)
  have hixc : ∀ (k nz : ℕ), cs[k]? = some nz → cs.idxOf nz = k := by
    intro k nz hk
    obtain ⟨hk', rfl⟩ := List.getElem?_eq_some_iff.1 hk
    exact hndc.idxOf_getElem k hk'
  have hwOf : ∀ (k nz : ℕ), els[k]? = some nz → ws[k]? = some (wOf nz) := by
    intro k nz hk
    have hl : k < ws.length := by rw [hws]; exact (List.getElem?_eq_some_iff.1 hk).1
    simp only [wOf, hix k nz hk, List.getElem?_eq_getElem hl, Option.getD_some]
  have hdaOf : ∀ (k nz : ℕ), cs[k]? = some nz → davgs[k]? = some (da nz) := by
    intro k nz hk
    have hl : k < davgs.length := by rw [hda]; exact (List.getElem?_eq_some_iff.1 hk).1
    simp only [da, hixc k nz hk, List.getElem?_eq_getElem hl, Option.getD_some]
  have hdsOf : ∀ (k nz : ℕ), cs[k]? = some nz → dstds[k]? = some (ds nz) := by
    intro k nz hk
    have hl : k < dstds.length := by rw [hds]; exact (List.getElem?_eq_some_iff.1 hk).1
    simp only [ds, hixc k nz hk, List.getElem?_eq_getElem hl, Option.getD_some]
  have hmap : els.map wOf = ws := by
    apply List.ext_getElem?
    intro k
    rw [List.getElem?_map]
    by_cases hk : k < els.length
    · rw [hwOf k els[k] (List.getElem?_eq_getElem hk), List.getElem?_eq_getElem hk]; rfl
    · rw [List.getElem?_eq_none (by omega), List.getElem?_eq_none (by omega)]; rfl
  have hmapc : cs.map wOf = vs := by
    apply List.ext_getElem?
    intro j
    rw [List.getElem?_map]
    by_cases hj : j < cs.length
    · obtain ⟨k, hk⟩ := List.mem_iff_getElem?.1 (hsub (List.getElem_mem hj))
      rw [hvs j k cs[j] (List.getElem?_eq_getElem hj) hk, hwOf k cs[j] hk, List.getElem?_eq_getElem hj]
      rfl
    · rw [List.getElem?_eq_none (by omega), List.getElem?_eq_none (by omega)]; rfl
  have hwpos : ∀ nz ∈ els, 0 < wOf nz := by
    intro nz hnz
    obtain ⟨k, hk⟩ := List.mem_iff_getElem?.1 hnz
    exact hw0 _ (List.mem_of_getElem? (hwOf k nz hk))
  -- rows and their centres
  have hrowlen : ∀ cz ∈ cs, ∀ nz ∈ els, ∀ r ∈ table.filter (centreIs cz),
      (pairEntries r nz).length ≤ wOf nz := by
    intro cz hcz nz hnz r hr'
    obtain ⟨i, hi, rfl⟩ := List.mem_iff_getElem.1 hr'
    have hl := (t4 cz).length_eq
    have hrow := (t4 cz).get (by rw [hl]; exact hi) hi
    simp only [List.get_eq_getElem] at hrow
    obtain ⟨ts, g1, _, g3, _⟩ := row_entries S rcut _ _ hrow nz (hpos nz hnz)
    rw [g3, List.length_map, g1.length_eq]
    obtain ⟨k, hk⟩ := List.mem_iff_getElem?.1 hnz
    have hcm := List.getElem_mem (l := s.sites.filter (fun c => decide (c.z = cz))) (n := i)
      (by rw [hl]; exact hi)
    have hcz' := (List.mem_filter.1 hcm).2
    simp only [decide_eq_true_eq] at hcz'
    exact hwide k nz _ hk (hwOf k nz hk) _ (List.mem_filter.1 hcm).1 (by rw [hcz']; exact hcz)
  let F : ℕ → List (List NbrEntry) := fun cz => table.filter (centreIs cz)
  let Rws := (cs.map F).flatten
  have hR : List.Forall₂ (RowOf S rcut) (centresOf s cs) Rws :=
    forall₂_flatMap_flatten cs _ F (fun cz _ => t4 cz)
  let Mx : ℕ → ℕ → ℕ := fun cz nz => runningMax ((F cz).map (fun r => (rowNbrs r nz).length))
  have hMle : ∀ r ∈ Rws, ∀ nz, (rowNbrs r nz).length ≤ Mx (headZ r) nz := by
    intro r hr' nz
    obtain ⟨l, hl, hrl⟩ := List.mem_flatten.1 hr'
    obtain ⟨cz, hcz, rfl⟩ := List.mem_map.1 hl
    rw [headZ_of (List.mem_filter.1 hrl).2]
    exact le_runningMax (List.mem_map.2 ⟨r, hrl, rfl⟩)
  have hMw : ∀ cz ∈ cs, ∀ nz ∈ els, Mx cz nz ≤ wOf nz := by
    intro cz hcz nz hnz
    apply runningMax_le
    intro x hx
    obtain ⟨row, hrow, rfl⟩ := List.mem_map.1 hx
    rw [← pairEntries_length]
    exact hrowlen cz hcz nz hnz row hrow
  have hRz : ∀ r ∈ Rws, headZ r ∈ cs := by
    intro r hr'
    obtain ⟨l, hl, hrl⟩ := List.mem_flatten.1 hr'
    obtain ⟨cz, hcz, rfl⟩ := List.mem_map.1 hl
    rw [headZ_of (List.mem_filter.1 hrl).2]
    exact hcz
  have hRlen : ∀ r ∈ Rws, ∀ nz ∈ els, (pairEntries r nz).length ≤ wOf nz := by
    intro r hr' nz hnz
    obtain ⟨l, hl, hrl⟩ := List.mem_flatten.1 hr'
    obtain ⟨cz, hcz, rfl⟩ := List.mem_map.1 hl
    exact hrowlen cz hcz nz hnz r hrl
  -- the four arrays
  let cRc : ℕ → List NbrEntry → List (Vec ℝ) := fun nz r => (padE (wOf nz) nz r).map (fun e => e.2.2)
  let cR : ℕ → List NbrEntry → List (Fin 4 → ℝ) := fun nz r =>
    ((padE (wOf nz) nz r).map (envRow rcut rs)).map (normalizeRow (da (headZ r)) (ds (headZ r)))
  let cD : ℕ → List NbrEntry → List (Matrix (Fin 4) (Fin 3) ℝ) := fun nz r =>
    ((padE (wOf nz) nz r).map (derivBlock rcut rs)).map (normalizeDeriv (ds (headZ r)))
  let cI : ℕ → List NbrEntry → List ℕ := fun nz r => (rowNbrs r nz).map idx ++
    (List.replicate (Mx (headZ r) nz - (rowNbrs r nz).length) pad
      ++ List.replicate (wOf nz - Mx (headZ r) nz) 0)
  have lRc : ∀ r ∈ Rws, ∀ nz ∈ els, (cRc nz r).length = wOf nz := by
    intro r hr' nz hnz
    have := hRlen r hr' nz hnz
    simp only [cRc, padE, List.length_map, List.length_append, List.length_replicate]
    omega
  have lR : ∀ r ∈ Rws, ∀ nz ∈ els, (cR nz r).length = wOf nz := by
    intro r hr' nz hnz
    have := hRlen r hr' nz hnz
    simp only [cR, padE, List.length_map, List.length_append, List.length_replicate]
    omega
  have lD : ∀ r ∈ Rws, ∀ nz ∈ els, (cD nz r).length = wOf nz := by
    intro r hr' nz hnz
    have := hRlen r hr' nz hnz
    simp only [cD, padE, List.length_map, List.length_append, List.length_replicate]
    omega
  have lI : ∀ r ∈ Rws, ∀ nz ∈ els, (cI nz r).length = wOf nz := by
    intro r hr' nz hnz
    have h1 := hMle r hr' nz
    have h2 := hMw _ (hRz r hr') nz hnz
    simp only [cI, List.length_map, List.length_append, List.length_replicate]
    omega
  have hmem : ∀ cz ∈ cs, ∀ r ∈ F cz, r ∈ Rws := fun cz hcz r hr' =>
    List.mem_flatten.2 ⟨F cz, List.mem_map.2 ⟨cz, hcz, rfl⟩, hr'⟩
  have aRc : expandRcAll table cs els (ws.map (Nat.cast : ℕ → ℤ))
      = .ok (Rws.map (fun r => (els.map (fun nz => cRc nz r)).flatten)) :=
    assemble_ok _ F cRc cs els ws wOf hcs hels hwOf
      (fun cz hcz nz hnz => expandRc_pad table htab t3 cz nz _ (hrowlen cz hcz nz hnz))
      (fun cz hcz nz hnz r hr' => lRc r (hmem cz hcz r hr') nz hnz)
  have aI : nbrsIndicesAll s table cs els (ws.map (Nat.cast : ℕ → ℤ))
      = .ok (Rws.map (fun r => (els.map (fun nz => cI nz r)).flatten)) := by
    refine assemble_ok _ F cI cs els ws wOf hcs hels hwOf ?_
      (fun cz hcz nz hnz r hr' => lI r (hmem cz hcz r hr') nz hnz)
    intro cz hcz nz hnz
    rw [index_pad table htab t3 cz nz _ (hrowlen cz hcz nz hnz) s idx pad hpad
      (fun r _ p _ => hidx p) (hwpos nz hnz) (Mx cz nz) rfl]
    congr 1
    apply List.map_congr_left
    intro r hr'
    simp only [cI, headZ_of (List.mem_filter.1 hr').2]
  have hN : mkNormalizer rcut rs cs els (ws.map (Nat.cast : ℕ → ℤ)) davgs dstds
      = .ok ⟨rcut, rs, cs, els, ws.map (Nat.cast : ℕ → ℤ), davgs, dstds⟩ := by
    unfold mkNormalizer
    rw [if_neg]
    rintro (h1 | h1)
    · exact h1 hda
    · exact h1 hds
  have aN := normalize_closed ⟨rcut, rs, cs, els, ws.map (Nat.cast : ℕ → ℤ), davgs, dstds⟩ table htab t3
    cs els rfl rfl hsub hndc hnd hcs wOf da ds
    (fun k nz hk => by simp only [List.getElem?_map, hwOf k nz hk, Option.map_some])
    hdaOf hdsOf (sub_ne_zero.2 hrs) hrowlen
  rw [flatten_headZ table cs (fun cz r => (cs.map (fun nz =>
        ((padE (wOf nz) nz r).map (envRow rcut rs)).map (normalizeRow (da cz) (ds cz)))).flatten),
    flatten_headZ table cs (fun cz r => (cs.map (fun nz =>
        ((padE (wOf nz) nz r).map (derivBlock rcut rs)).map (normalizeDeriv (ds cz)))).flatten)] at aN
  refine ⟨⟨Rws.map (fun r => (els.map (fun nz => cRc nz r)).flatten),
    Rws.map (fun r => (cs.map (fun nz => cR nz r)).flatten),
    Rws.map (fun r => (cs.map (fun nz => cD nz r)).flatten),
    Rws.map (fun r => (els.map (fun nz => cI nz r)).flatten), s.getNatoms []⟩, pad, ?_, hpad, rfl, ?_, ?_, ?_⟩
  · unfold inferPreprocess
    rw [t1, ok_bind, hN, ok_bind, aRc, ok_bind, aN, ok_bind, aI, ok_bind]
    rfl
  · simp only [List.length_map, hR.length_eq, and_self]
  · have key : ∀ {α : Type} (cell : ℕ → List NbrEntry → List α),
        (∀ r ∈ Rws, ∀ nz ∈ els, (cell nz r).length = wOf nz) →
        ∀ row ∈ Rws.map (fun r => (els.map (fun nz => cell nz r)).flatten), row.length = ws.sum := by
      intro α cell hc row hrow
      obtain ⟨r, hr', rfl⟩ := List.mem_map.1 hrow
      rw [List.length_flatten, List.map_map, ← hmap]
      congr 1
      exact List.map_congr_left (fun nz hnz => hc r hr' nz hnz)
    have keyc : ∀ {α : Type} (cell : ℕ → List NbrEntry → List α),
        (∀ r ∈ Rws, ∀ nz ∈ els, (cell nz r).length = wOf nz) →
        ∀ row ∈ Rws.map (fun r => (cs.map (fun nz => cell nz r)).flatten), row.length = vs.sum := by
      intro α cell hc row hrow
      obtain ⟨r, hr', rfl⟩ := List.mem_map.1 hrow
      rw [List.length_flatten, List.map_map, ← hmapc]
      congr 1
      exact List.map_congr_left (fun nz hnz => hc r hr' nz (hsub hnz))
    exact ⟨key cRc lRc, keyc cR lR, keyc cD lD, key cI lI⟩
  · intro a i k nz w c davg dstd hc hi hk hw h1 h2
    obtain rfl : davg = da c.z := by rw [hdaOf i c.z hi] at h1; exact (Option.some.inj h1).symm
    obtain rfl : dstd = ds c.z := by rw [hdsOf i c.z hi] at h2; exact (Option.some.inj h2).symm
    obtain rfl : w = wOf nz := by rw [hwOf k nz hk] at hw; exact (Option.some.inj hw).symm
    obtain ⟨hal, hae⟩ := List.getElem?_eq_some_iff.1 hc
    have hal' : a < Rws.length := by rw [← hR.length_eq]; exact hal
    have hrow := hR.get hal hal'
    simp only [List.get_eq_getElem, hae] at hrow
    have hRa : Rws[a]? = some Rws[a] := List.getElem?_eq_getElem hal'
    have hRm : Rws[a] ∈ Rws := List.getElem_mem hal'
    generalize Rws[a] = row at *
    have hnz := List.mem_of_getElem? hk
    have hz : headZ row = c.z := by
      obtain ⟨rest, n, rfl, _⟩ := hrow
      rfl
    obtain ⟨ts, g1, g2, g3, g4⟩ := row_entries S rcut c row hrow nz (hpos nz hnz)
    have htake : (ws.take k).sum = ((els.take k).map wOf).sum := by rw [List.map_take, hmap]
    have htakec : ∀ j, (vs.take j).sum = ((cs.take j).map wOf).sum := by
      intro j; rw [List.map_take, hmapc]
    have hMchar : ∀ x, x ∈ (F c.z).map (fun r => (rowNbrs r nz).length) ↔
        ∃ u ∈ s.sites, u.z = c.z ∧ (nbrsOf S u.pos rcut nz).length = x := by
      have e : (F c.z).map (fun r => (rowNbrs r nz).length) =
          (s.sites.filter (fun u => decide (u.z = c.z))).map
            (fun u => (nbrsOf S u.pos rcut nz).length) := by
        symm
        rw [← List.forall₂_eq_eq_eq, List.forall₂_map_left_iff, List.forall₂_map_right_iff]
        refine (t4 c.z).imp ?_
        intro u r' hur
        obtain ⟨ts', f1, _, _, f4⟩ := row_entries S rcut u r' hur nz (hpos nz hnz)
        rw [f4, List.length_map, f1.length_eq]
      intro x
      rw [e, List.mem_map]
      constructor
      · rintro ⟨u, hu, rfl⟩
        obtain ⟨hu1, hu2⟩ := List.mem_filter.1 hu
        exact ⟨u, hu1, by simpa using hu2, rfl⟩
      · rintro ⟨u, hu1, hu2, rfl⟩
        exact ⟨u, List.mem_filter.2 ⟨hu1, by simpa using hu2⟩, rfl⟩
    have hcsites : c ∈ s.sites := by
      have hcm := List.mem_of_getElem? hc
      obtain ⟨e, _, he⟩ := List.mem_flatMap.1 hcm
      exact (List.mem_filter.1 he).1
    have hlenw : ts.length ≤ wOf nz := by
      have := hRlen row hRm nz hnz
      rwa [g3, List.length_map] at this
    have hlenM : ts.length ≤ Mx c.z nz := by
      have := hMle row hRm nz
      rwa [g4, List.length_map, hz] at this
    have hMwz : Mx c.z nz ≤ wOf nz := hMw c.z (List.mem_of_getElem? hi) nz hnz
    refine ⟨ts, Mx c.z nz, g1, g2, ?_, ?_, ?_, ?_⟩
    · intro u hu huz
      exact le_runningMax ((hMchar _).2 ⟨u, hu, huz, rfl⟩)
    · apply (hMchar _).1
      apply runningMax_mem
      apply List.ne_nil_of_mem
      exact (hMchar _).2 ⟨c, hcsites, rfl, rfl⟩
    · intro b t hb
      have hbl : b < ts.length := (List.getElem?_eq_some_iff.1 hb).1
      have hbw : b < wOf nz := by omega
      simp only
      rw [htake, cell_get Rws els cRc wOf a k nz b row hRa hk (lRc row hRm) hbw,
        cell_get Rws els cI wOf a k nz b row hRa hk (lI row hRm) hbw]
      refine ⟨?_, ?_, ?_⟩
      · simp only [cRc]
        rw [padE_map _ nz c row ts _ g3, padded_get _ _ _ _ _ _ hb]
      · intro j hj
        rw [htakec, cell_get Rws cs cR wOf a j nz b row hRa hj (fun n hn => lR row hRm n (hsub hn)) hbw,
          cell_get Rws cs cD wOf a j nz b row hRa hj (fun n hn => lD row hRm n (hsub hn)) hbw]
        constructor
        · simp only [cR, List.map_map]
          rw [padE_map _ nz c row ts _ g3, padded_get _ _ _ _ _ _ hb, hz]
          rfl
        · simp only [cD, List.map_map]
          rw [padE_map _ nz c row ts _ g3, padded_get _ _ _ _ _ _ hb, hz]
          rfl
      · have htS : t ∈ S.sites ∧ t.z = nz := by
          have := g1.mem_iff.1 (List.mem_of_getElem? hb)
          unfold nbrsOf at this
          rw [List.mem_filter] at this
          simp only [decide_eq_true_eq] at this
          exact ⟨this.1, this.2.1⟩
        obtain ⟨u, hu, n, e1, e2⟩ := mem_supercell s S sc m h hS t htS.1
        obtain ⟨q, hq, rfl⟩ := List.mem_iff_getElem.1 hu
        refine ⟨q, s.sites[q], ?_, List.getElem?_eq_getElem hq, by rw [← e1, htS.2], n, e2⟩
        simp only [cI]
        rw [g4, List.map_map, List.getElem?_append_left (by simpa using hbl), List.getElem?_map, hb]
        have := C16_image_maps_back s hL q _ (List.getElem?_eq_getElem hq) n
          (fun j v hj hv => hsep q j _ v (Ne.symm hj) (List.getElem?_eq_getElem hq) hv)
        rw [← e2, hidx t.pos] at this
        simp only [Option.map_some, Function.comp, Except.ok.inj this]
    · intro b hb hbw
      simp only
      rw [htake, cell_get Rws els cRc wOf a k nz b row hRa hk (lRc row hRm) hbw,
        cell_get Rws els cI wOf a k nz b row hRa hk (lI row hRm) hbw]
      refine ⟨?_, ?_, ?_⟩
      · simp only [cRc]
        rw [padE_map _ nz c row ts _ g3, padded_get_none _ _ _ _ _ hb hbw]
        rfl
      · intro j hj
        rw [htakec, cell_get Rws cs cR wOf a j nz b row hRa hj (fun n hn => lR row hRm n (hsub hn)) hbw,
          cell_get Rws cs cD wOf a j nz b row hRa hj (fun n hn => lD row hRm n (hsub hn)) hbw]
        constructor
        · simp only [cR, List.map_map]
          rw [padE_map _ nz c row ts _ g3, padded_get_none _ _ _ _ _ hb hbw, hz]
          simp only [Function.comp, envRow_zero]
        · simp only [cD, List.map_map]
          rw [padE_map _ nz c row ts _ g3, padded_get_none _ _ _ _ _ hb hbw, hz]
          simp only [Function.comp, derivBlock_zero]
          congr 1
          ext x y
          simp [normalizeDeriv]
      · simp only [cI, hz]
        rw [g4, List.length_map, List.getElem?_append_right (by simpa using hb), List.length_map,
          List.length_map]
        split
        · rename_i hbM
          rw [List.getElem?_append_left (by rw [List.length_replicate]; omega),
            List.getElem?_replicate, if_pos (by omega)]
        · rename_i hbM
          rw [List.getElem?_append_right (by rw [List.length_replicate]; omega),
            List.getElem?_replicate, List.length_replicate, if_pos (by omega)]

/-- The same when the two element lists agree. -/
theorem infer_spec (A : ArgSort) (s S : Struct ℝ) (hL : s.lattice.det ≠ 0) (hsep : Separated s)
    (hne : s.sites ≠ []) (rcut rs : ℝ) (hr : 0 ≤ rcut) (hrs : rcut ≠ rs) (sc : Fin 3 → ℤ)
    (m : Fin 3 → ℕ) (h : ∀ i, sc i = 2 * (m i : ℤ) + 1) (hS : s.makeSupercell sc true = .ok S)
    (els ws : List ℕ) (davgs dstds : List (Fin 4 → ℝ)) (hels : els ≠ []) (hnd : els.Nodup)
    (hpos : ∀ e ∈ els, 0 < e) (hws : ws.length = els.length) (hw0 : ∀ w ∈ ws, 0 < w)
    (hda : davgs.length = els.length) (hds : dstds.length = els.length)
    (hwide : ∀ (k nz w : ℕ), els[k]? = some nz → ws[k]? = some w → ∀ c ∈ s.sites, c.z ∈ els →
      (nbrsOf S c.pos rcut nz).length ≤ w) :
    ∃ (out : InferInput) (pad : ℕ),
      inferPreprocess A s rcut rs sc davgs dstds els els (ws.map (Nat.cast : ℕ → ℤ)) = .ok out ∧
      s.getSiteIndex 0 = .ok pad ∧ out.natoms = s.getNatoms [] ∧
      (out.rc.length = (centresOf s els).length ∧ out.tildeR.length = (centresOf s els).length ∧
        out.tildeRDeriv.length = (centresOf s els).length ∧
        out.listNeigh.length = (centresOf s els).length) ∧
      ((∀ row ∈ out.rc, row.length = ws.sum) ∧ (∀ row ∈ out.tildeR, row.length = ws.sum) ∧
        (∀ row ∈ out.tildeRDeriv, row.length = ws.sum) ∧
        (∀ row ∈ out.listNeigh, row.length = ws.sum)) ∧
      ∀ (a i k nz w : ℕ) (c : Site ℝ) (davg dstd : Fin 4 → ℝ), (centresOf s els)[a]? = some c →
        els[i]? = some c.z → els[k]? = some nz → ws[k]? = some w →
        davgs[i]? = some davg → dstds[i]? = some dstd →
        ∃ (ts : List (Site ℝ)) (M : ℕ), ts.Perm (nbrsOf S c.pos rcut nz) ∧
          ts.Pairwise (fun a b => dist3 a.pos c.pos ≤ dist3 b.pos c.pos) ∧
          (∀ u ∈ s.sites, u.z = c.z → (nbrsOf S u.pos rcut nz).length ≤ M) ∧
          (∃ u ∈ s.sites, u.z = c.z ∧ (nbrsOf S u.pos rcut nz).length = M) ∧
          (∀ (b : ℕ) (t : Site ℝ), ts[b]? = some t →
            cellAt out.rc a ((ws.take k).sum + b) = some (t.pos - c.pos) ∧
            cellAt out.tildeR a ((ws.take k).sum + b) = some (normalizeRow davg dstd
              (envRow rcut rs (nz, dist3 t.pos c.pos, t.pos - c.pos))) ∧
            cellAt out.tildeRDeriv a ((ws.take k).sum + b) = some (normalizeDeriv dstd
              (derivBlock rcut rs (nz, dist3 t.pos c.pos, t.pos - c.pos))) ∧
            ∃ (q : ℕ) (u : Site ℝ), cellAt out.listNeigh a ((ws.take k).sum + b) = some (q + 1) ∧
              s.sites[q]? = some u ∧ u.z = nz ∧ IsImage s t.pos u) ∧
          (∀ b, ts.length ≤ b → b < w →
            cellAt out.rc a ((ws.take k).sum + b) = some 0 ∧
            cellAt out.tildeR a ((ws.take k).sum + b) = some (normalizeRow davg dstd 0) ∧
            cellAt out.tildeRDeriv a ((ws.take k).sum + b) = some 0 ∧
            cellAt out.listNeigh a ((ws.take k).sum + b) = some (if b < M then pad else 0)) := by
  obtain ⟨out, pad, o1, o2, o3, o4, o5, o6⟩ := infer_gen A s S hL hsep hne rcut rs hr hrs sc m h hS
    els els ws ws davgs dstds hels (fun _ h => h) hnd hnd hpos hws hw0 hws
    (by
      intro j k nz hj hk
      obtain ⟨hj', rfl⟩ := List.getElem?_eq_some_iff.1 hj
      obtain ⟨hk', he⟩ := List.getElem?_eq_some_iff.1 hk
      rw [(hnd.getElem_inj_iff (hi := hk') (hj := hj')).1 he]) hda hds hwide
  refine ⟨out, pad, o1, o2, o3, o4, o5, ?_⟩
  intro a i k nz w c davg dstd hc hi hk hw h1 h2
  obtain ⟨ts, M, g1, g2, g3, g4, g5, g6⟩ := o6 a i k nz w c davg dstd hc hi hk hw h1 h2
  refine ⟨ts, M, g1, g2, g3, g4, ?_, ?_⟩
  · intro b t hb
    obtain ⟨f1, f2, f3⟩ := g5 b t hb
    exact ⟨f1, (f2 k hk).1, (f2 k hk).2, f3⟩
  · intro b hb hbw
    obtain ⟨f1, f2, f3⟩ := g6 b hb hbw
    exact ⟨f1, (f2 k hk).1, (f2 k hk).2, f3⟩

end MaterSDK
