import Verif.Spec.DeepMD
import Verif.Lemmas.DeepMD
import Verif.Lemmas.DeepMDCalc
import Mathlib.LinearAlgebra.UnitaryGroup

/-! # Feature pairs by site, and rigid motions -/

set_option linter.unusedSectionVars false

namespace MaterSDK

open Classical

theorem perm_map_inv {α β : Type} (f : α → β) {l : List β} {l' : List α} (h : l.Perm (l'.map f)) :
    ∃ l'' : List α, l''.Perm l' ∧ l = l''.map f := by
  generalize hm : l'.map f = m at h
  induction h generalizing l' with
  | nil =>
    rw [List.map_eq_nil_iff] at hm
    exact ⟨[], by rw [hm], rfl⟩
  | @cons x l1 l2 _ ih =>
    cases l' with
    | nil => simp at hm
    | cons a as =>
      simp only [List.map_cons, List.cons.injEq] at hm
      obtain ⟨rfl, h2⟩ := hm
      obtain ⟨u, h3, h4⟩ := ih h2
      exact ⟨a :: u, h3.cons a, by rw [List.map_cons, h4]⟩
  | swap x y l =>
    match l', hm with
    | a :: b :: as, hm =>
      simp only [List.map_cons, List.cons.injEq] at hm
      obtain ⟨rfl, rfl, rfl⟩ := hm
      exact ⟨b :: a :: as, List.Perm.swap _ _ _, rfl⟩
  | trans _ _ ih1 ih2 =>
    obtain ⟨u, h1, h2⟩ := ih2 hm
    obtain ⟨w, h3, h4⟩ := ih1 h2.symm
    exact ⟨w, h3.trans h1, h4⟩

theorem centres_mem {s : Struct ℝ} {cz : ℕ} {c : Site ℝ}
    (h : c ∈ s.reformat_.sites.filter (fun c => decide (c.z = cz))) : c ∈ s.sites ∧ c.z = cz := by
  rw [List.mem_filter] at h
  exact ⟨(sortByKey_perm _ _).mem_iff.1 h.1, by simpa using h.2⟩

/-- The feature pair of a structure, entry by entry. -/
theorem pair_sites_nodup (A : ArgSort) (s S : Struct ℝ)
    (hne : s.sites ≠ []) (r : ℝ) (hr : 0 ≤ r) (sc : Fin 3 → ℤ) (m : Fin 3 → ℕ)
    (h : ∀ i, sc i = 2 * (m i : ℤ) + 1) (hS : s.makeSupercell sc true = .ok S)
    (hnod : (S.sites.map Site.pos).Nodup) (cz nz : ℕ)
    (hnz : 0 < nz) :
    ∃ (table : List (List NbrEntry)) (w : ℕ) (rows : List (List NbrEntry)),
      neighborTable A s r sc = .ok table ∧ extractFeaturePair table cz nz = .ok (w, rows) ∧
      (∀ c ∈ s.sites, c.z = cz → (nbrsOf S c.pos r nz).length ≤ w) ∧
      (w = 0 ∨ ∃ c ∈ s.sites, c.z = cz ∧ (nbrsOf S c.pos r nz).length = w) ∧
      List.Forall₂ (fun c row => ∃ (ts : List (Site ℝ)),
          ts.Perm (nbrsOf S c.pos r nz) ∧
          ts.Pairwise (fun a b => dist3 a.pos c.pos ≤ dist3 b.pos c.pos) ∧ ts.length ≤ w ∧
          row = ts.map (fun t => (nz, dist3 t.pos c.pos, t.pos - c.pos))
            ++ List.replicate (w - ts.length) (0, 0, 0))
        (s.reformat_.sites.filter (fun c => c.z = cz)) rows := by
  obtain ⟨table, w, rows, h1, h2, h3, h4, h5⟩ := pair_spec_nodup A s S hne r hr sc m h hS hnod cz nz hnz
  refine ⟨table, w, rows, h1, h2, h3, h4, h5.imp ?_⟩
  rintro c row ⟨real, e1, e2, e3, e4⟩
  obtain ⟨ts, g1, rfl⟩ := perm_map_inv _ e3
  rw [List.length_map] at e1 e2
  exact ⟨ts, g1, by rw [List.pairwise_map] at e4; exact e4, e2, e1⟩

theorem pair_sites (A : ArgSort) (s S : Struct ℝ) (hL : s.lattice.det ≠ 0) (hsep : Separated s)
    (hne : s.sites ≠ []) (r : ℝ) (hr : 0 ≤ r) (sc : Fin 3 → ℤ) (m : Fin 3 → ℕ)
    (h : ∀ i, sc i = 2 * (m i : ℤ) + 1) (hS : s.makeSupercell sc true = .ok S) (cz nz : ℕ)
    (hnz : 0 < nz) :
    ∃ (table : List (List NbrEntry)) (w : ℕ) (rows : List (List NbrEntry)),
      neighborTable A s r sc = .ok table ∧ extractFeaturePair table cz nz = .ok (w, rows) ∧
      (∀ c ∈ s.sites, c.z = cz → (nbrsOf S c.pos r nz).length ≤ w) ∧
      (w = 0 ∨ ∃ c ∈ s.sites, c.z = cz ∧ (nbrsOf S c.pos r nz).length = w) ∧
      List.Forall₂ (fun c row => ∃ (ts : List (Site ℝ)),
          ts.Perm (nbrsOf S c.pos r nz) ∧
          ts.Pairwise (fun a b => dist3 a.pos c.pos ≤ dist3 b.pos c.pos) ∧ ts.length ≤ w ∧
          row = ts.map (fun t => (nz, dist3 t.pos c.pos, t.pos - c.pos))
            ++ List.replicate (w - ts.length) (0, 0, 0))
        (s.reformat_.sites.filter (fun c => c.z = cz)) rows :=
  pair_sites_nodup A s S hne r hr sc m h hS (supercell_nodup s S hL hsep sc m h hS) cz nz hnz

/-! ## Rigid motions -/

section Move

variable (Q : Matrix (Fin 3) (Fin 3) ℝ) (v : Vec ℝ)

/-- The motion of one site. -/
def moveSite (t : Site ℝ) : Site ℝ := ⟨t.z, Q.mulVec t.pos + v, t.mag⟩

theorem move_norm3 (hQ : Q.transpose * Q = 1) (p c : Vec ℝ) :
    norm3 ((Q.mulVec p + v) - (Q.mulVec c + v)) = norm3 (p - c) := by
  have e : (Q.mulVec p + v) - (Q.mulVec c + v) = Q.mulVec (p - c) := by
    rw [Matrix.mulVec_sub]; abel
  rw [e]
  have key : ∀ u : Vec ℝ, Q.mulVec u ⬝ᵥ Q.mulVec u = u ⬝ᵥ u := by
    intro u
    rw [Matrix.dotProduct_mulVec, Matrix.vecMul_mulVec, hQ, Matrix.vecMul_one]
  have := key (p - c)
  simp only [dotProduct, Fin.sum_univ_three] at this
  unfold norm3
  congr 1
  simp only [sq]
  exact this

theorem move_shiftVector (L : Matrix (Fin 3) (Fin 3) ℝ) (c : Vec ℝ) :
    shiftVector (L * Q.transpose) c = Q.mulVec (shiftVector L c) := by
  have e : ∀ M : Matrix (Fin 3) (Fin 3) ℝ, shiftVector M c = Matrix.vecMul c M := by
    intro M
    ext j
    simp [shiftVector, Matrix.diagonal_mul, Matrix.vecMul, dotProduct]
  rw [e, e, ← Matrix.vecMul_vecMul, Matrix.vecMul_transpose]

theorem zip_map_right' {α β γ : Type} (f : β → γ) (l : List α) (l' : List β) :
    l.zip (l'.map f) = (l.zip l').map (fun p => (p.1, f p.2)) := by
  rw [List.zip_map_right]
  rfl

theorem reformat_move (sites : List (Site ℝ)) :
    sortByKey Site.z (sites.map (moveSite Q v)) = (sortByKey Site.z sites).map (moveSite Q v) :=
  (sortByKey_map Site.z (moveSite Q v) sites).trans rfl

theorem move_makeSupercell (s : Struct ℝ) (sc : Fin 3 → ℤ) (b : Bool) :
    ∃ L', (s.move Q v).makeSupercell sc b =
      (s.makeSupercell sc b).map (fun S => ⟨L', S.sites.map (moveSite Q v)⟩) := by
  refine ⟨Matrix.diagonal (fun i => (sc i : ℝ)) * (s.move Q v).lattice, ?_⟩
  have hz : (s.move Q v).sites.map Site.z = s.sites.map Site.z := by
    simp [Struct.move]
  have hc : ((shiftCoeffs sc).flatMap fun c : Vec ℝ =>
      (s.move Q v).sites.map fun t => t.pos + shiftVector (s.move Q v).lattice c)
      = ((shiftCoeffs sc).flatMap fun c => s.sites.map fun t => t.pos + shiftVector s.lattice c).map
          (fun p => Q.mulVec p + v) := by
    rw [List.map_flatMap]
    congr 1
    funext c
    simp only [Struct.move, List.map_map, Function.comp_def]
    apply List.map_congr_left
    intro t _
    rw [move_shiftVector, Matrix.mulVec_add]
    abel
  unfold Struct.makeSupercell
  simp only
  rw [hz, hc, List.length_map]
  split
  · rfl
  · have e : ((pyRepeat (pyRepeat (pyRepeat (s.sites.map Site.z) (sc 0)) (sc 1)) (sc 2)).zip
        (((shiftCoeffs sc).flatMap fun c => s.sites.map fun t => t.pos + shiftVector s.lattice c).map
          (fun p => Q.mulVec p + v))).map (fun p => (⟨p.1, p.2, none⟩ : Site ℝ))
        = ((((pyRepeat (pyRepeat (pyRepeat (s.sites.map Site.z) (sc 0)) (sc 1)) (sc 2)).zip
        ((shiftCoeffs sc).flatMap fun c => s.sites.map fun t => t.pos + shiftVector s.lattice c))).map
          (fun p => (⟨p.1, p.2, none⟩ : Site ℝ))).map (moveSite Q v) := by
      rw [zip_map_right', List.map_map, List.map_map]
      rfl
    rw [e]
    cases b
    · rfl
    · simp only [if_true, Struct.reformat_, reformat_move, Except.map]

theorem sortedIndexes_move (sites : List (Site ℝ)) :
    sortedIndexes (sites.map (moveSite Q v)) = sortedIndexes sites := by
  unfold sortedIndexes
  have e : (sites.map (moveSite Q v)).zipIdx = sites.zipIdx.map (fun p => (moveSite Q v p.1, p.2)) := by
    rw [List.zipIdx_map]
    rfl
  rw [e, sortByKey_map, List.map_map]
  rfl

theorem move_getKeyIdxs (s : Struct ℝ) (sc : Fin 3 → ℤ) :
    (s.move Q v).getKeyIdxs sc = s.getKeyIdxs sc := by
  obtain ⟨L', h⟩ := move_makeSupercell Q v s sc false
  unfold Struct.getKeyIdxs bidx2aidx
  rw [h]
  have hl : (s.move Q v).sites.length = s.sites.length := by simp [Struct.move]
  rw [hl]
  cases s.makeSupercell sc false with
  | error e => rfl
  | ok S =>
    simp only [Except.map, ok_bind, sortedIndexes_move]

/-- The motion of one table entry. -/
def moveEntry (e : NbrEntry) : NbrEntry := (e.1, e.2.1, Q.mulVec e.2.2 + v)

theorem pyGet_map {α β : Type} (f : α → β) (l : List α) (i : ℕ) :
    pyGet (l.map f) i = (pyGet l i).map f := by
  unfold pyGet
  rw [List.getElem?_map]
  cases l[i]? <;> rfl

theorem move_nbrEntries (hQ : Q.transpose * Q = 1) (A : ArgSort) (coords : List (Vec ℝ)) (zs : List ℕ)
    (r : ℝ) (k : ℕ) :
    nbrEntries A (coords.map (fun p => Q.mulVec p + v)) zs r k =
      (nbrEntries A coords zs r k).map (List.map (moveEntry Q v)) := by
  unfold nbrEntries
  rw [pyGet_map]
  cases pyGet coords k with
  | error e => rfl
  | ok c =>
    simp only [Except.map, ok_bind]
    have hd : distancesFrom (coords.map (fun p => Q.mulVec p + v)) (Q.mulVec c + v)
        = distancesFrom coords c := by
      unfold distancesFrom
      rw [List.map_map]
      apply List.map_congr_left
      intro p _
      exact move_norm3 Q v hQ p c
    rw [hd]
    generalize (A.run (distancesFrom coords c)).take _ = idxs
    induction idxs with
    | nil => rfl
    | cons i is ih =>
      rw [List.mapM_cons, List.mapM_cons, ih, pyGet_map]
      cases pyGet zs i with
      | error e => rfl
      | ok z =>
        cases pyGet (distancesFrom coords c) i with
        | error e => rfl
        | ok d =>
          cases pyGet coords i with
          | error e => rfl
          | ok p =>
            simp only [Except.map, ok_bind, pure_bind]
            generalize List.mapM (m := Except PyErr) _ is = rest
            cases rest with
            | error e => rfl
            | ok rest => rfl

theorem mapM_except_map {α β γ : Type} (f : α → Except PyErr β) (g : β → γ) (l : List α) :
    l.mapM (fun a => (f a).map g) = (l.mapM f).map (List.map g) := by
  induction l with
  | nil => rfl
  | cons a as ih =>
    rw [List.mapM_cons, List.mapM_cons, ih]
    cases f a with
    | error e => rfl
    | ok b =>
      simp only [Except.map, ok_bind]
      generalize as.mapM f = rest
      cases rest <;> rfl

/-- The neighbour table before padding. -/
theorem move_table (hQ : Q.transpose * Q = 1) (A : ArgSort) (s : Struct ℝ) (r : ℝ) (sc : Fin 3 → ℤ)
    (table : List (List NbrEntry)) (hT : neighborTable A s r sc = .ok table) :
    ∃ (rows : List (List NbrEntry)) (n W : ℕ),
      table = rows.map (fun row => (row ++ List.replicate (n - row.length) zeroEntry).take W) ∧
      neighborTable A (s.move Q v) r sc = .ok (rows.map (fun row =>
        (row.map (moveEntry Q v) ++ List.replicate (n - row.length) zeroEntry).take W)) := by
  unfold neighborTable at hT ⊢
  obtain ⟨L', hm⟩ := move_makeSupercell Q v s sc true
  rw [hm, move_getKeyIdxs]
  obtain ⟨S, hS, hT⟩ := bind_eq_ok.1 hT
  obtain ⟨keys, hk, hT⟩ := bind_eq_ok.1 hT
  rw [hS, hk]
  simp only [Except.map, ok_bind]
  have e1 : (S.sites.map (moveSite Q v)).map Site.pos = (S.sites.map Site.pos).map (fun p => Q.mulVec p + v) := by
    rw [List.map_map, List.map_map]; rfl
  have e2 : (S.sites.map (moveSite Q v)).map Site.z = S.sites.map Site.z := by
    rw [List.map_map]; rfl
  rw [e1, e2]
  unfold keyNeighsInfo at hT ⊢
  obtain ⟨rows, hr, hT⟩ := bind_eq_ok.1 hT
  have e3 : nbrEntries A ((S.sites.map Site.pos).map (fun p => Q.mulVec p + v)) (S.sites.map Site.z) r
      = fun k => (nbrEntries A (S.sites.map Site.pos) (S.sites.map Site.z) r k).map
          (List.map (moveEntry Q v)) := by
    funext k
    exact move_nbrEntries Q v hQ A _ _ r k
  rw [e3, mapM_except_map, hr]
  simp only [Except.map, ok_bind]
  refine ⟨rows, (S.sites.map Site.z).length, runningMax (rows.map List.length), ?_, ?_⟩
  · exact (Except.ok.inj hT).symm
  · simp only [pure, Except.pure, List.map_map, Function.comp_def, List.length_map]

theorem filter_moveEntry (nz : ℕ) (l : List NbrEntry) :
    (l.map (moveEntry Q v)).filter (fun e => decide (e.1 = nz))
      = (l.filter (fun e => decide (e.1 = nz))).map (moveEntry Q v) := by
  rw [List.filter_map]
  rfl

theorem filter_zeros (nz : ℕ) (hnz : 0 < nz) (k W : ℕ) :
    ((List.replicate k zeroEntry).take W).filter (fun e => decide (e.1 = nz)) = [] := by
  rw [List.filter_eq_nil_iff]
  intro e he
  rw [List.eq_of_mem_replicate (List.mem_of_mem_take he)]
  simp only [decide_eq_true_eq]
  show ¬ (0 = nz)
  omega

/-- The masked row of a moved table row: the relative coordinates are multiplied by `Q`. -/
theorem move_pairEntries (nz : ℕ) (hnz : 0 < nz) (row : List NbrEntry) (k W : ℕ) :
    pairEntries ((row.map (moveEntry Q v) ++ List.replicate k zeroEntry).take W) nz =
        (pairEntries ((row ++ List.replicate k zeroEntry).take W) nz).map (moveEntry Q 0) := by
  cases row with
  | nil =>
    have : pairEntries ((List.replicate k zeroEntry).take W) nz = [] := by
      have hz := filter_zeros nz hnz (k - 1) (W - 1)
      cases k with
      | zero => simp [pairEntries]
      | succ k =>
        cases W with
        | zero => simp [pairEntries]
        | succ W =>
          simp only [Nat.add_sub_cancel] at hz
          simp only [List.replicate_succ, List.take_succ_cons, pairEntries, hz, List.map_nil]
    simp only [List.map_nil, List.nil_append, this]
  | cons c rest =>
    cases W with
    | zero => rfl
    | succ W =>
      simp only [List.map_cons, List.cons_append, List.take_succ_cons, pairEntries, List.take_append,
        List.filter_append, List.map_append, List.length_map]
      rw [filter_zeros nz hnz, ← List.map_take, filter_moveEntry]
      simp only [List.map_map, List.map_nil, List.append_nil]
      apply List.map_congr_left
      intro e _
      simp only [Function.comp, moveEntry, add_zero, Matrix.mulVec_sub]
      congr 2
      abel

theorem move_centreIs (cz : ℕ) (row : List NbrEntry) (k W : ℕ) :
    centreIs cz ((row.map (moveEntry Q v) ++ List.replicate k zeroEntry).take W)
      = centreIs cz ((row ++ List.replicate k zeroEntry).take W) := by
  cases W with
  | zero => rfl
  | succ W => cases row <;> rfl

theorem envRow_move (rcut rs : ℝ) (e : NbrEntry) :
    envRow rcut rs (moveEntry Q 0 e) = rotateRow Q (envRow rcut rs e) := by
  ext a
  fin_cases a <;> simp [envRow, rotateRow, moveEntry, Matrix.mulVec, dotProduct, Fin.sum_univ_three] <;> ring

theorem moveEntry_zero : moveEntry Q 0 zeroEntry = zeroEntry := by
  show ((0 : ℕ), (0 : ℝ), Q.mulVec 0 + 0) = (0, 0, 0)
  rw [Matrix.mulVec_zero, add_zero]

theorem rotateRow_zero : rotateRow Q 0 = 0 := by
  ext a
  fin_cases a <;> simp [rotateRow, Matrix.mulVec, dotProduct, Fin.sum_univ_three]

theorem move_extract (nz : ℕ) (hnz : 0 < nz) (cz : ℕ) (rows : List (List NbrEntry)) (n W : ℕ) :
    extractFeaturePair (rows.map (fun row =>
        (row.map (moveEntry Q v) ++ List.replicate (n - row.length) zeroEntry).take W)) cz nz =
      (extractFeaturePair (rows.map (fun row =>
        (row ++ List.replicate (n - row.length) zeroEntry).take W)) cz nz).map
        (fun a => (a.1, a.2.map (List.map (moveEntry Q 0)))) := by
  have hlen : ∀ row : List NbrEntry,
      ((row.map (moveEntry Q v) ++ List.replicate (n - row.length) zeroEntry).take W).length
        = ((row ++ List.replicate (n - row.length) zeroEntry).take W).length := by
    intro row; simp
  by_cases hbad : (rows.map (fun row =>
      (row ++ List.replicate (n - row.length) zeroEntry).take W)) = [] ∨
      [] ∈ rows.map (fun row => (row ++ List.replicate (n - row.length) zeroEntry).take W)
  · rw [extract_error _ hbad, extract_error]
    · rfl
    · rcases hbad with h | h
      · left; simpa using h
      · right
        obtain ⟨row, h1, h2⟩ := List.mem_map.1 h
        refine List.mem_map.2 ⟨row, h1, ?_⟩
        rw [← List.length_eq_zero_iff, hlen, h2]; rfl
  · push Not at hbad
    rw [extract_ok _ hbad.1 (fun r hr h0 => hbad.2 (h0 ▸ hr)), extract_ok]
    · simp only [Except.map, List.filter_map, List.map_map, Function.comp_def, move_centreIs,
        move_pairEntries Q v nz hnz, List.length_map, List.map_append, List.map_replicate,
        moveEntry_zero]
    · simpa using hbad.1
    · intro r hr h0
      obtain ⟨row, h1, h2⟩ := List.mem_map.1 hr
      apply hbad.2
      refine List.mem_map.2 ⟨row, h1, ?_⟩
      rw [← List.length_eq_zero_iff, ← hlen, h2, h0]; rfl

theorem padWidth_map {α β : Type} (f : α → β) (z : α) (w : ℕ) (rows : List (List α)) (width : ℤ) :
    padWidth (f z) (w, rows.map (List.map f)) width
      = (padWidth z (w, rows) width).map (List.map (List.map f)) := by
  unfold padWidth
  split
  · rfl
  · simp only
    split
    · simp [Except.map, Function.comp_def]
    · split
      · simp [Except.map, Function.comp_def]
      · rfl

theorem move_getTildeR (nz : ℕ) (hnz : 0 < nz) (cz : ℕ) (rows : List (List NbrEntry)) (n W : ℕ)
    (rcut rs : ℝ) (width : ℤ) :
    getTildeR rcut rs (rows.map (fun row =>
        (row.map (moveEntry Q v) ++ List.replicate (n - row.length) zeroEntry).take W)) cz nz width =
      (getTildeR rcut rs (rows.map (fun row =>
        (row ++ List.replicate (n - row.length) zeroEntry).take W)) cz nz width).map
        (List.map (List.map (rotateRow Q))) := by
  unfold getTildeR pairTildeR
  rw [move_extract Q v nz hnz]
  cases extractFeaturePair (rows.map (fun row =>
        (row ++ List.replicate (n - row.length) zeroEntry).take W)) cz nz with
  | error e => rfl
  | ok a =>
    obtain ⟨w, out⟩ := a
    have := padWidth_map (rotateRow Q) 0 w (out.map (List.map (envRow rcut rs))) width
    rw [rotateRow_zero] at this
    simp only [Except.map, ok_bind, pure, Except.pure] at this ⊢
    rw [← this]
    simp only [List.map_map, Function.comp_def, envRow_move]

end Move

/-- Environment matrix and derivatives of a structure. With a width that is large enough for every centre, the row of a
centre has that many entries. Entry `i` of the environment matrix belongs to the `i`-th neighbour by
distance: it is `(s, s x/r, s y/r, s z/r)`; the derivative block at the same place is the derivative of
that entry with respect to the centre's position if the neighbour is closer than the cutoff. All
further entries of both arrays are zero. -/
theorem env_structure (A : ArgSort) (s S : Struct ℝ) (hL : s.lattice.det ≠ 0) (hsep : Separated s)
    (hne : s.sites ≠ []) (rcut rs : ℝ) (hr : 0 ≤ rcut) (hrs : rs < rcut) (sc : Fin 3 → ℤ)
    (m : Fin 3 → ℕ) (h : ∀ i, sc i = 2 * (m i : ℤ) + 1) (hS : s.makeSupercell sc true = .ok S)
    (cz nz : ℕ) (hnz : 0 < nz) (width : ℕ)
    (hw : ∀ c ∈ s.sites, c.z = cz → (nbrsOf S c.pos rcut nz).length ≤ width) :
    ∃ (table : List (List NbrEntry)) (rows : List (List (Fin 4 → ℝ) × List (Matrix (Fin 4) (Fin 3) ℝ))),
      neighborTable A s rcut sc = .ok table ∧
      getTildeR rcut rs table cz nz width = .ok (rows.map Prod.fst) ∧
      calcDerivative rcut rs table cz nz width = .ok (rows.map Prod.snd) ∧
      List.Forall₂ (fun c row => row.1.length = width ∧ row.2.length = width ∧
        ∃ ts : List (Site ℝ), ts.Perm (nbrsOf S c.pos rcut nz) ∧
          ts.Pairwise (fun a b => dist3 a.pos c.pos ≤ dist3 b.pos c.pos) ∧
          (∀ (i : ℕ) (t : Site ℝ), ts[i]? = some t →
            let r := dist3 t.pos c.pos
            let w := getS rcut rs r
            row.1[i]? = some ![w, w * (t.pos 0 - c.pos 0) / r, w * (t.pos 1 - c.pos 1) / r,
              w * (t.pos 2 - c.pos 2) / r] ∧
            (r < rcut → row.1[i]? = some (envAt rcut rs t.pos c.pos) ∧ ∃ M, row.2[i]? = some M ∧
              HasFDerivAt (fun x => envAt rcut rs t.pos x) M.mulVecLin.toContinuousLinearMap c.pos)) ∧
          (∀ i, ts.length ≤ i → i < width → row.1[i]? = some 0 ∧ row.2[i]? = some 0))
        (s.reformat_.sites.filter (fun c => c.z = cz)) rows := by
  obtain ⟨table, w, prows, h1, h2, h3, h4, h5⟩ :=
    pair_sites A s S hL hsep hne rcut hr sc m h hS cz nz hnz
  have hww : w ≤ width := by
    rcases h4 with h4 | ⟨c, hc, hz, h4⟩
    · omega
    · rw [← h4]; exact hw c hc hz
  refine ⟨table, prows.map (fun r => (r.map (envRow rcut rs) ++ List.replicate (width - w) 0,
    r.map (derivBlock rcut rs) ++ List.replicate (width - w) 0)), h1, ?_, ?_, ?_⟩
  · unfold getTildeR pairTildeR
    rw [h2, ok_bind]
    show padWidth 0 (w, prows.map (List.map (envRow rcut rs))) (width : ℤ) = _
    rw [padWidth_ok _ _ _ _ hww, List.map_map, List.map_map]
    rfl
  · unfold calcDerivative
    rw [h2, ok_bind]
    simp only
    rw [if_neg (by omega), if_neg (sub_pos.2 hrs).ne', padWidth_ok _ _ _ _ hww, List.map_map, List.map_map]
    rfl
  · rw [List.forall₂_map_right_iff]
    refine h5.imp ?_
    rintro c row ⟨ts, e1, e2, e3, rfl⟩
    have z1 : envRow rcut rs (0, 0, 0) = 0 := by
      ext a; fin_cases a <;> simp [envRow, getS, recip]
    have z2 : derivBlock rcut rs (0, 0, 0) = 0 := by
      ext a b; fin_cases a <;> fin_cases b <;> simp [derivBlock, recip]
    simp only [List.map_append, List.map_map, List.map_replicate, z1, z2, List.append_assoc,
      List.replicate_append_replicate]
    have hk : w - ts.length + (width - w) = width - ts.length := by omega
    rw [hk]
    refine ⟨by simp; omega, by simp; omega, ts, e1, e2, ?_, ?_⟩
    · intro i t hi
      obtain ⟨hil, hit⟩ := List.getElem?_eq_some_iff.1 hi
      have hmem : t ∈ nbrsOf S c.pos rcut nz := e1.mem_iff.1 (List.mem_of_getElem? hi)
      unfold nbrsOf at hmem
      have hm := (List.mem_filter.1 hmem).2
      simp only [decide_eq_true_eq] at hm
      obtain ⟨_, hpos, hle⟩ := hm
      have g1 : (ts.map (envRow rcut rs ∘ fun t => (nz, dist3 t.pos c.pos, t.pos - c.pos))
          ++ List.replicate (width - ts.length) 0)[i]?
          = some (envRow rcut rs (nz, dist3 t.pos c.pos, t.pos - c.pos)) := by
        rw [List.getElem?_append_left (by simpa using hil), List.getElem?_map, hi]; rfl
      have g2 : (ts.map (derivBlock rcut rs ∘ fun t => (nz, dist3 t.pos c.pos, t.pos - c.pos))
          ++ List.replicate (width - ts.length) 0)[i]?
          = some (derivBlock rcut rs (nz, dist3 t.pos c.pos, t.pos - c.pos)) := by
        rw [List.getElem?_append_left (by simpa using hil), List.getElem?_map, hi]; rfl
      have g3 : envRow rcut rs (nz, dist3 t.pos c.pos, t.pos - c.pos)
          = ![getS rcut rs (dist3 t.pos c.pos),
              getS rcut rs (dist3 t.pos c.pos) * (t.pos 0 - c.pos 0) / dist3 t.pos c.pos,
              getS rcut rs (dist3 t.pos c.pos) * (t.pos 1 - c.pos 1) / dist3 t.pos c.pos,
              getS rcut rs (dist3 t.pos c.pos) * (t.pos 2 - c.pos 2) / dist3 t.pos c.pos] := by
        ext a
        fin_cases a <;> simp [envRow, recip_eq] <;> ring
      refine ⟨by rw [g1, g3], fun hlt => ⟨?_, _, g2, ?_⟩⟩
      · rw [g1, g3, envAt, getS_smoothWeight hrs hlt]
      · exact hasFDerivAt_env rcut rs hrs t.pos c.pos nz hpos hlt
    · intro i h6 h7
      constructor
      · rw [List.getElem?_append_right (by simpa using h6), List.getElem?_replicate,
          if_pos (by simp; omega)]
      · rw [List.getElem?_append_right (by simpa using h6), List.getElem?_replicate,
          if_pos (by simp; omega)]

end MaterSDK
