import Verif.Lemmas.DeepMDMove
import Verif.Model.DeepMDNormD
import Verif.Lemmas.Dict

/-! # Assembled matrices and the normaliser -/

set_option linter.unusedSectionVars false

namespace MaterSDK

open Classical

theorem flatten_get {α : Type} (Ls : List (List α)) (i : ℕ) (l : List α) (h : Ls[i]? = some l) (a : ℕ)
    (ha : a < l.length) : Ls.flatten[((Ls.take i).map List.length).sum + a]? = l[a]? := by
  induction Ls generalizing i with
  | nil => simp at h
  | cons x xs ih =>
    cases i with
    | zero =>
      simp only [List.getElem?_cons_zero, Option.some.injEq] at h
      subst h
      simp only [List.take_zero, List.map_nil, List.sum_nil, Nat.zero_add, List.flatten_cons]
      rw [List.getElem?_append_left ha]
    | succ i =>
      simp only [List.getElem?_cons_succ] at h
      simp only [List.take_succ_cons, List.map_cons, List.sum_cons, List.flatten_cons]
      rw [List.getElem?_append_right (by omega)]
      have : x.length + ((xs.take i).map List.length).sum + a - x.length
          = ((xs.take i).map List.length).sum + a := by omega
      rw [this]
      exact ih i h

theorem zipWith_append_get {α : Type} (x y : List (List α)) (a : ℕ) (p q : List α)
    (hp : x[a]? = some p) (hq : y[a]? = some q) :
    (List.zipWith (· ++ ·) x y)[a]? = some (p ++ q) := by
  rw [List.getElem?_zipWith, hp, hq]

theorem foldl_zipWith_length {α : Type} (bs : List (List (List α))) (b : List (List α)) (n : ℕ)
    (hb : b.length = n) (h : ∀ c ∈ bs, c.length = n) :
    (bs.foldl (List.zipWith (· ++ ·)) b).length = n := by
  induction bs generalizing b with
  | nil => exact hb
  | cons c cs ih =>
    rw [List.foldl_cons]
    apply ih
    · rw [List.length_zipWith, hb, h c (by simp)]; exact min_self n
    · exact fun d hd => h d (by simp [hd])

theorem foldl_zipWith_get {α : Type} (bs : List (List (List α))) (b : List (List α)) (a : ℕ)
    (p : List α) (ps : List (List α)) (hp : b[a]? = some p)
    (h : List.Forall₂ (fun c q => c[a]? = some q) bs ps) :
    (bs.foldl (List.zipWith (· ++ ·)) b)[a]? = some (p ++ ps.flatten) := by
  induction h generalizing b p with
  | nil => simpa using hp
  | cons h1 _ ih =>
    rw [List.foldl_cons, ih _ _ (zipWith_append_get _ _ a _ _ hp h1), List.flatten_cons, List.append_assoc]

/-- Concatenation along axis 1 of blocks with the same number of rows. -/
theorem concatAxis1_ok {α : Type} (blocks : List (List (List α))) (n : ℕ) (hne : blocks ≠ [])
    (h : ∀ b ∈ blocks, b.length = n) :
    ∃ out, concatAxis1 blocks = .ok out ∧ out.length = n ∧
      ∀ (a : ℕ) (ps : List (List α)), List.Forall₂ (fun b q => b[a]? = some q) blocks ps →
        out[a]? = some ps.flatten := by
  cases blocks with
  | nil => exact absurd rfl hne
  | cons b bs =>
    refine ⟨_, ?_, foldl_zipWith_length bs b n (h b (by simp)) (fun c hc => h c (by simp [hc])), ?_⟩
    · simp only [concatAxis1]
      rw [if_neg]
      intro hc
      obtain ⟨c, h1, h2⟩ := List.any_eq_true.1 hc
      simp only [decide_eq_true_eq] at h2
      exact h2 (by rw [h c (by simp [h1]), h b (by simp)])
    · intro a ps hps
      cases hps with
      | cons h1 h2 => rw [foldl_zipWith_get bs b a _ _ h1 h2, List.flatten_cons]

/-- The two arrays of a pair, for a sufficient width. -/
theorem pair_arrays (table : List (List NbrEntry)) (hne : table ≠ []) (hc : ∀ r ∈ table, r ≠ [])
    (rcut rs : ℝ) (hrs : rcut - rs ≠ 0) (cz nz w : ℕ)
    (hw : ∀ (c : NbrEntry) (nbrs : List NbrEntry), c :: nbrs ∈ table → c.1 = cz →
      nbrs.countP (fun e => e.1 = nz) ≤ w) :
    ∃ (arr : ℕ × List (List (Fin 4 → ℝ))) (R : List (List (Fin 4 → ℝ)))
      (D : List (List (Matrix (Fin 4) (Fin 3) ℝ))),
      pairTildeR rcut rs table cz nz = .ok arr ∧ padWidth 0 arr (w : ℤ) = .ok R ∧
      calcDerivative rcut rs table cz nz w = .ok D ∧
      R.length = numCentres table cz ∧ D.length = numCentres table cz ∧
      (∀ r ∈ R, r.length = w) ∧ (∀ d ∈ D, d.length = w) := by
  have he := extract_ok table hne hc cz nz
  have hle : runningMax ((table.filter (centreIs cz)).map (fun r => (pairEntries r nz).length)) ≤ w := by
    apply runningMax_le
    intro x hx
    obtain ⟨row, hrow, rfl⟩ := List.mem_map.1 hx
    obtain ⟨h3, h4⟩ := List.mem_filter.1 hrow
    match row, h3, h4 with
    | [], _, _ => exact Nat.zero_le _
    | c :: nbrs, h3, h4 =>
      have := hw c nbrs h3 (by simpa [centreIs] using h4)
      rw [List.countP_eq_length_filter] at this
      simpa [pairEntries] using this
  have hrowlen : ∀ r ∈ table.filter (centreIs cz), (pairEntries r nz).length ≤
      runningMax ((table.filter (centreIs cz)).map (fun r => (pairEntries r nz).length)) :=
    fun r hr => le_runningMax (List.mem_map.2 ⟨r, hr, rfl⟩)
  have hn : (table.filter (centreIs cz)).length = numCentres table cz := by
    rw [numCentres, List.countP_eq_length_filter]; rfl
  generalize hW : runningMax ((table.filter (centreIs cz)).map (fun r => (pairEntries r nz).length)) = W at *
  refine ⟨(W, ((table.filter (centreIs cz)).map (fun r =>
      pairEntries r nz ++ List.replicate (W - (pairEntries r nz).length) zeroEntry)).map
        (List.map (envRow rcut rs))), _,
    (((table.filter (centreIs cz)).map (fun r =>
      pairEntries r nz ++ List.replicate (W - (pairEntries r nz).length) zeroEntry)).map
        (List.map (derivBlock rcut rs))).map (fun r => r ++ List.replicate (w - W) 0),
    ?_, padWidth_ok 0 W _ w hle, ?_, ?_, ?_, ?_, ?_⟩
  · unfold pairTildeR
    rw [he, ok_bind]; rfl
  · unfold calcDerivative
    rw [he, ok_bind]
    simp only
    rw [if_neg (by omega), if_neg hrs, padWidth_ok _ _ _ _ hle]
  · simpa using hn
  · simpa using hn
  · intro r hr
    simp only [List.map_map, List.mem_map, Function.comp] at hr
    obtain ⟨row, h1, rfl⟩ := hr
    have := hrowlen row h1
    simp only [List.length_append, List.length_map, List.length_replicate]
    omega
  · intro r hr
    simp only [List.map_map, List.mem_map, Function.comp] at hr
    obtain ⟨row, h1, rfl⟩ := hr
    have := hrowlen row h1
    simp only [List.length_append, List.length_map, List.length_replicate]
    omega

theorem zipIdx_get {α : Type} (l : List α) (p : α × ℕ) : p ∈ l.zipIdx ↔ l[p.2]? = some p.1 := by
  obtain ⟨a, i⟩ := p
  rw [List.mem_zipIdx_iff_getElem?]

theorem mapM_ok_of {α β : Type} (f : α → Except PyErr β) (g : α → β) (l : List α)
    (h : ∀ a ∈ l, f a = .ok (g a)) : l.mapM f = .ok (l.map g) := by
  rw [mapM_eq_ok, List.forall₂_map_right_iff]
  exact List.forall₂_same.2 h

/-- The dictionary when every block is computed without error. -/
theorem normalizeDictWith_ok (centres nbrs : List ℕ) (block : ℕ → ℕ → ℕ → ℕ → Except PyErr NormBlock)
    (B : ℕ → ℕ → NormBlock)
    (h : ∀ (i k cz nz : ℕ), centres[i]? = some cz → nbrs[k]? = some nz → block cz i nz k = .ok (B i k)) :
    normalizeDictWith centres nbrs block = .ok ((centres.zipIdx.map (fun c =>
      nbrs.zipIdx.map (fun n => ((c.1, n.1), B c.2 n.2)))).flatten) := by
  unfold normalizeDictWith
  rw [mapM_ok_of _ (fun c : ℕ × ℕ => nbrs.zipIdx.map (fun n => ((c.1, n.1), B c.2 n.2)))]
  · rfl
  · rintro ⟨cz, i⟩ hc
    apply mapM_ok_of
    rintro ⟨nz, k⟩ hn
    simp only
    rw [h i k cz nz ((zipIdx_get _ _).1 hc) ((zipIdx_get _ _).1 hn)]
    rfl

theorem normalizeDict_ok (N : Normalizer) (table : List (List NbrEntry)) (B : ℕ → ℕ → NormBlock)
    (h : ∀ (i k cz nz : ℕ), N.centres[i]? = some cz → N.nbrs[k]? = some nz →
      N.block table cz i nz k = .ok (B i k)) :
    N.normalizeDict table = .ok ((N.centres.zipIdx.map (fun c =>
      N.nbrs.zipIdx.map (fun n => ((c.1, n.1), B c.2 n.2)))).flatten) :=
  normalizeDictWith_ok N.centres N.nbrs (N.block table) B h

theorem dict_mem (centres nbrs : List ℕ) (B : ℕ → ℕ → NormBlock) (cz nz : ℕ) (b : NormBlock) :
    ((cz, nz), b) ∈ ((centres.zipIdx.map (fun c =>
      nbrs.zipIdx.map (fun n => ((c.1, n.1), B c.2 n.2)))).flatten) ↔
      ∃ i k, centres[i]? = some cz ∧ nbrs[k]? = some nz ∧ b = B i k := by
  simp only [List.mem_flatten, List.mem_map]
  constructor
  · rintro ⟨l, ⟨⟨c, i⟩, hc, rfl⟩, hl⟩
    obtain ⟨⟨n, k⟩, hn, he⟩ := List.mem_map.1 hl
    simp only [Prod.mk.injEq] at he
    obtain ⟨⟨rfl, rfl⟩, rfl⟩ := he
    exact ⟨i, k, (zipIdx_get _ _).1 hc, (zipIdx_get _ _).1 hn, rfl⟩
  · rintro ⟨i, k, h1, h2, rfl⟩
    exact ⟨_, ⟨(cz, i), (zipIdx_get _ _).2 h1, rfl⟩,
      List.mem_map.2 ⟨(nz, k), (zipIdx_get _ _).2 h2, rfl⟩⟩

theorem dict_keys (centres nbrs : List ℕ) (B : ℕ → ℕ → NormBlock) :
    ((centres.zipIdx.map (fun c => nbrs.zipIdx.map (fun n => ((c.1, n.1), B c.2 n.2)))).flatten).map Prod.fst
      = (centres.map (fun c => nbrs.map (fun n => (c, n)))).flatten := by
  rw [List.map_flatten, List.map_map]
  congr 1
  have e1 : ∀ c : ℕ, nbrs.map (fun n => (c, n)) = nbrs.zipIdx.map (fun n => (c, n.1)) := by
    intro c
    conv_lhs => rw [← List.zipIdx_map_fst 0 nbrs]
    rw [List.map_map]; rfl
  conv_rhs => rw [← List.zipIdx_map_fst 0 centres]
  rw [List.map_map]
  apply List.map_congr_left
  intro c _
  simp only [Function.comp, List.map_map, e1]
  rfl

theorem dict_keys_nodup (centres nbrs : List ℕ) (hc : centres.Nodup) (hn : nbrs.Nodup)
    (B : ℕ → ℕ → NormBlock) :
    (((centres.zipIdx.map (fun c => nbrs.zipIdx.map (fun n => ((c.1, n.1), B c.2 n.2)))).flatten).map
      Prod.fst).Nodup := by
  rw [dict_keys]
  rw [List.nodup_flatten]
  constructor
  · intro l hl
    obtain ⟨c, _, rfl⟩ := List.mem_map.1 hl
    exact hn.map (fun a b h => (Prod.mk.inj h).2)
  · rw [List.pairwise_map]
    refine hc.imp ?_
    intro a b hab
    rw [List.disjoint_left]
    intro x hx hy
    obtain ⟨n, _, rfl⟩ := List.mem_map.1 hx
    obtain ⟨n', _, he⟩ := List.mem_map.1 hy
    exact hab (Prod.mk.inj he).1.symm

theorem get_unique {l : List ℕ} (hnd : l.Nodup) {i j a : ℕ} (hi : l[i]? = some a)
    (hj : l[j]? = some a) : i = j := by
  obtain ⟨h1, h2⟩ := List.getElem?_eq_some_iff.1 hi
  obtain ⟨h3, h4⟩ := List.getElem?_eq_some_iff.1 hj
  exact (List.Nodup.getElem_inj_iff hnd).1 (h2.trans h4.symm)

theorem dict_get (centres nbrs : List ℕ) (hc : centres.Nodup) (hn : nbrs.Nodup)
    (B : ℕ → ℕ → NormBlock) (i k cz nz : ℕ) (h1 : centres[i]? = some cz) (h2 : nbrs[k]? = some nz) :
    pyDictGet ((centres.zipIdx.map (fun c =>
      nbrs.zipIdx.map (fun n => ((c.1, n.1), B c.2 n.2)))).flatten) (cz, nz) = .ok (B i k) := by
  rw [pyDictGet_ok (dict_keys_nodup centres nbrs hc hn B)]
  exact (dict_mem _ _ _ _ _ _).2 ⟨i, k, h1, h2, rfl⟩

/-- `normalize` when the centre elements are among the neighbour elements: block rows side by side, one
block per *centre* element. `pos c` is the place of element `c` in the neighbour list. -/
theorem normalizeWith_core (centres nbrs : List ℕ) (block : ℕ → ℕ → ℕ → ℕ → Except PyErr NormBlock)
    (B : ℕ → ℕ → NormBlock)
    (h : ∀ (i k cz nz : ℕ), centres[i]? = some cz → nbrs[k]? = some nz →
      block cz i nz k = .ok (B i k))
    (hc : centres.Nodup) (hn : nbrs.Nodup) (hsub : centres ⊆ nbrs) (hne : centres ≠ [])
    (n : ℕ → ℕ)
    (hlen : ∀ (i k cz : ℕ), centres[i]? = some cz → k < nbrs.length →
      (B i k).1.length = n cz ∧ (B i k).2.length = n cz) :
    ∃ (R : List (List (Fin 4 → ℝ))) (D : List (List (Matrix (Fin 4) (Fin 3) ℝ))),
      normalizeWith centres nbrs block = .ok (R, D) ∧ R.length = (centres.map n).sum ∧
      D.length = (centres.map n).sum ∧
      ∀ (i cz a : ℕ), centres[i]? = some cz → a < n cz →
        R[((centres.take i).map n).sum + a]? =
            some ((centres.map (fun c => ((B i (nbrs.idxOf c)).1)[a]?.getD [])).flatten) ∧
        D[((centres.take i).map n).sum + a]? =
            some ((centres.map (fun c => ((B i (nbrs.idxOf c)).2)[a]?.getD [])).flatten) := by
  have hidx : ∀ c ∈ centres, nbrs[nbrs.idxOf c]? = some c ∧ nbrs.idxOf c < nbrs.length := by
    intro c hcm
    have := List.idxOf_lt_length_iff.2 (hsub hcm)
    exact ⟨by rw [List.getElem?_eq_getElem this, List.getElem_idxOf], this⟩
  -- per-centre parts
  have hpart : ∀ i cz, centres[i]? = some cz → ∃ r d,
      concatAxis1 ((centres.map (fun c => B i (nbrs.idxOf c))).map Prod.fst) = .ok r ∧
      concatAxis1 ((centres.map (fun c => B i (nbrs.idxOf c))).map Prod.snd) = .ok d ∧
      r.length = n cz ∧ d.length = n cz ∧
      ∀ a, a < n cz →
        r[a]? = some ((centres.map (fun c => ((B i (nbrs.idxOf c)).1)[a]?.getD [])).flatten) ∧
        d[a]? = some ((centres.map (fun c => ((B i (nbrs.idxOf c)).2)[a]?.getD [])).flatten) := by
    intro i cz hi
    obtain ⟨r, r1, r2, r3⟩ := concatAxis1_ok ((centres.map (fun c => B i (nbrs.idxOf c))).map Prod.fst)
      (n cz) (by simpa using hne) (by
        intro b hb
        rw [List.map_map] at hb
        obtain ⟨c, hcm, rfl⟩ := List.mem_map.1 hb
        exact (hlen i _ cz hi (hidx c hcm).2).1)
    obtain ⟨d, d1, d2, d3⟩ := concatAxis1_ok ((centres.map (fun c => B i (nbrs.idxOf c))).map Prod.snd)
      (n cz) (by simpa using hne) (by
        intro b hb
        rw [List.map_map] at hb
        obtain ⟨c, hcm, rfl⟩ := List.mem_map.1 hb
        exact (hlen i _ cz hi (hidx c hcm).2).2)
    refine ⟨r, d, r1, d1, r2, d2, fun a ha => ⟨r3 a _ ?_, d3 a _ ?_⟩⟩
    · rw [List.map_map, List.forall₂_map_left_iff, List.forall₂_map_right_iff]
      refine List.forall₂_same.2 (fun c hcm => ?_)
      have hl := (hlen i _ cz hi (hidx c hcm).2).1
      show (B i (nbrs.idxOf c)).1[a]? = _
      rw [List.getElem?_eq_getElem (by rw [hl]; exact ha)]
      rfl
    · rw [List.map_map, List.forall₂_map_left_iff, List.forall₂_map_right_iff]
      refine List.forall₂_same.2 (fun c hcm => ?_)
      have hl := (hlen i _ cz hi (hidx c hcm).2).2
      show (B i (nbrs.idxOf c)).2[a]? = _
      rw [List.getElem?_eq_getElem (by rw [hl]; exact ha)]
      rfl
  -- the list of parts
  have hparts : ∃ parts : List (NormBlock), centres.mapM (fun cz => do
      let blocks ← centres.mapM (fun nz => pyDictGet ((centres.zipIdx.map (fun c : ℕ × ℕ =>
        nbrs.zipIdx.map (fun n : ℕ × ℕ => ((c.1, n.1), B c.2 n.2)))).flatten) (cz, nz))
      let r ← concatAxis1 (blocks.map Prod.fst)
      let d ← concatAxis1 (blocks.map Prod.snd)
      return (r, d)) = .ok parts ∧
      List.Forall₂ (fun (c : ℕ × ℕ) (p : NormBlock) => List.length p.1 = n c.1 ∧ List.length p.2 = n c.1 ∧
        ∀ a, a < n c.1 →
          p.1[a]? = some ((centres.map (fun e => ((B c.2 (nbrs.idxOf e)).1)[a]?.getD [])).flatten) ∧
          p.2[a]? = some ((centres.map (fun e => ((B c.2 (nbrs.idxOf e)).2)[a]?.getD [])).flatten))
        centres.zipIdx parts := by
    refine (forall₂_mapM_ok (as := centres.zipIdx) (bs := centres)
      (Q := fun c z => c.1 = z ∧ centres[c.2]? = some c.1) ?_ ?_)
    · rw [List.forall₂_iff_get]
      refine ⟨by simp, fun j hj hj' => ?_⟩
      simp only [List.get_eq_getElem, List.getElem_zipIdx, Nat.zero_add]
      exact ⟨trivial, List.getElem?_eq_getElem hj'⟩
    · rintro ⟨cz, i⟩ z ⟨h1, hi⟩
      simp only at h1 hi
      subst h1
      obtain ⟨r, d, e1, e2, e3, e4, e5⟩ := hpart i cz hi
      refine ⟨(r, d), ?_, e3, e4, e5⟩
      rw [mapM_ok_of _ (fun c => B i (nbrs.idxOf c))]
      · rw [ok_bind, e1, ok_bind, e2, ok_bind]
        rfl
      · intro c hcm
        exact dict_get _ _ hc hn B i _ cz c hi (hidx c hcm).1
  obtain ⟨parts, p1, p2⟩ := hparts
  have hpl : ∀ (i : ℕ), ((parts.map Prod.fst).take i).map List.length = (centres.take i).map n ∧
      ((parts.map Prod.snd).take i).map List.length = (centres.take i).map n := by
    intro i
    have g : List.Forall₂ (fun (c : ℕ) (p : NormBlock) => p.1.length = n c ∧ p.2.length = n c)
        centres parts := by
      have := p2
      rw [List.forall₂_iff_get] at this ⊢
      refine ⟨by simpa using this.1, fun j hj hj' => ?_⟩
      have h6 := this.2 j (by simpa using hj) hj'
      simp only [List.get_eq_getElem, List.getElem_zipIdx] at h6 ⊢
      exact ⟨h6.1, h6.2.1⟩
    constructor
    · rw [List.map_take, List.map_take, List.map_map]
      congr 1
      symm
      rw [← List.forall₂_eq_eq_eq, List.forall₂_map_left_iff, List.forall₂_map_right_iff]
      exact g.imp (fun _ _ h => h.1.symm)
    · rw [List.map_take, List.map_take, List.map_map]
      congr 1
      symm
      rw [← List.forall₂_eq_eq_eq, List.forall₂_map_left_iff, List.forall₂_map_right_iff]
      exact g.imp (fun _ _ h => h.2.symm)
  have hplen : parts.length = centres.length := by rw [← p2.length_eq]; simp
  have hsum : ∀ (i : ℕ), i = parts.length → ((parts.map Prod.fst).map List.length) = centres.map n ∧
      ((parts.map Prod.snd).map List.length) = centres.map n := by
    intro i hi
    have := hpl i
    have t1 : (parts.map Prod.fst).take i = parts.map Prod.fst := List.take_of_length_le (by simp [hi])
    have t2 : (parts.map Prod.snd).take i = parts.map Prod.snd := List.take_of_length_le (by simp [hi])
    have t3 : centres.take i = centres := List.take_of_length_le (by simp [hi, hplen])
    rw [t1, t2, t3] at this
    exact this
  refine ⟨(parts.map Prod.fst).flatten, (parts.map Prod.snd).flatten, ?_, ?_, ?_, ?_⟩
  · unfold normalizeWith
    rw [normalizeDictWith_ok centres nbrs block B h, ok_bind, p1, ok_bind, if_neg]
    · rfl
    · rw [List.isEmpty_iff]
      intro h0
      rw [h0] at hplen
      exact hne (List.length_eq_zero_iff.1 hplen.symm)
  · rw [List.length_flatten, (hsum _ rfl).1]
  · rw [List.length_flatten, (hsum _ rfl).2]
  · intro i cz a hi ha
    obtain ⟨hil, hie⟩ := List.getElem?_eq_some_iff.1 hi
    have hip : i < parts.length := by rw [hplen]; exact hil
    have h6 := p2.get (by simpa using hil) hip
    simp only [List.get_eq_getElem, List.getElem_zipIdx, Nat.zero_add, hie] at h6
    obtain ⟨g1, g2, g3⟩ := h6
    constructor
    · rw [← (hpl i).1, flatten_get (parts.map Prod.fst) i parts[i].1 (by simp [hip]) a (by rw [g1]; exact ha)]
      exact (g3 a ha).1
    · rw [← (hpl i).2, flatten_get (parts.map Prod.snd) i parts[i].2 (by simp [hip]) a (by rw [g2]; exact ha)]
      exact (g3 a ha).2

theorem normalize_core (N : Normalizer) (table : List (List NbrEntry)) (B : ℕ → ℕ → NormBlock)
    (h : ∀ (i k cz nz : ℕ), N.centres[i]? = some cz → N.nbrs[k]? = some nz →
      N.block table cz i nz k = .ok (B i k))
    (hc : N.centres.Nodup) (hn : N.nbrs.Nodup) (hsub : N.centres ⊆ N.nbrs) (hne : N.centres ≠ [])
    (n : ℕ → ℕ)
    (hlen : ∀ (i k cz : ℕ), N.centres[i]? = some cz → k < N.nbrs.length →
      (B i k).1.length = n cz ∧ (B i k).2.length = n cz) :
    ∃ (R : List (List (Fin 4 → ℝ))) (D : List (List (Matrix (Fin 4) (Fin 3) ℝ))),
      N.normalize table = .ok (R, D) ∧ R.length = (N.centres.map n).sum ∧
      D.length = (N.centres.map n).sum ∧
      ∀ (i cz a : ℕ), N.centres[i]? = some cz → a < n cz →
        R[((N.centres.take i).map n).sum + a]? =
            some ((N.centres.map (fun c => ((B i (N.nbrs.idxOf c)).1)[a]?.getD [])).flatten) ∧
        D[((N.centres.take i).map n).sum + a]? =
            some ((N.centres.map (fun c => ((B i (N.nbrs.idxOf c)).2)[a]?.getD [])).flatten) :=
  normalizeWith_core N.centres N.nbrs (N.block table) B h hc hn hsub hne n hlen

/-- Where `normalize` puts the entries, for any neighbour list that contains the centre elements. -/
theorem normalize_spec (N : Normalizer) (table : List (List NbrEntry)) (wOf : ℕ → ℕ)
    (hw : ∀ k nz : ℕ, N.nbrs[k]? = some nz → N.widths[k]? = some (wOf nz : ℤ))
    (hdavg : N.davgs.length = N.centres.length) (hdstd : N.dstds.length = N.centres.length)
    (hc : N.centres.Nodup) (hn : N.nbrs.Nodup) (hsub : N.centres ⊆ N.nbrs) (hne : N.centres ≠ [])
    (hrs : N.rcut - N.rs ≠ 0) (htab : table ≠ []) (hrows : ∀ r ∈ table, r ≠ [])
    (hwide : ∀ (c : NbrEntry) (l : List NbrEntry) (nz : ℕ), c :: l ∈ table → c.1 ∈ N.centres →
      nz ∈ N.nbrs → l.countP (fun e => e.1 = nz) ≤ wOf nz) :
    ∃ (R : List (List (Fin 4 → ℝ))) (D : List (List (Matrix (Fin 4) (Fin 3) ℝ))),
      N.normalize table = .ok (R, D) ∧
      R.length = (N.centres.map (numCentres table)).sum ∧
      D.length = (N.centres.map (numCentres table)).sum ∧
      ∀ (i k cz nz : ℕ) (davg dstd : Fin 4 → ℝ), N.centres[i]? = some cz → N.centres[k]? = some nz →
        N.davgs[i]? = some davg → N.dstds[i]? = some dstd →
        ∃ Rp Dp, getTildeR N.rcut N.rs table cz nz (wOf nz) = .ok Rp ∧
          calcDerivative N.rcut N.rs table cz nz (wOf nz) = .ok Dp ∧
          ∀ a, a < numCentres table cz → ∃ row drow prow pdrow,
            R[((N.centres.take i).map (numCentres table)).sum + a]? = some row ∧
            D[((N.centres.take i).map (numCentres table)).sum + a]? = some drow ∧
            row.length = (N.centres.map wOf).sum ∧ drow.length = (N.centres.map wOf).sum ∧
            Rp[a]? = some prow ∧ Dp[a]? = some pdrow ∧ prow.length = wOf nz ∧ pdrow.length = wOf nz ∧
            ∀ b, b < wOf nz →
              row[((N.centres.take k).map wOf).sum + b]? = prow[b]?.map (normalizeRow davg dstd) ∧
              drow[((N.centres.take k).map wOf).sum + b]? = pdrow[b]?.map (normalizeDeriv dstd) := by
  classical
  -- the arrays of each pair
  have harr : ∀ cz nz, cz ∈ N.centres → nz ∈ N.nbrs → ∃ p : (ℕ × List (List (Fin 4 → ℝ))) ×
      List (List (Fin 4 → ℝ)) × List (List (Matrix (Fin 4) (Fin 3) ℝ)),
      pairTildeR N.rcut N.rs table cz nz = .ok p.1 ∧ padWidth 0 p.1 (wOf nz : ℤ) = .ok p.2.1 ∧
      calcDerivative N.rcut N.rs table cz nz (wOf nz) = .ok p.2.2 ∧
      p.2.1.length = numCentres table cz ∧ p.2.2.length = numCentres table cz ∧
      (∀ r ∈ p.2.1, r.length = wOf nz) ∧ (∀ d ∈ p.2.2, d.length = wOf nz) := by
    intro cz nz h1 h2
    obtain ⟨arr, R, D, h⟩ := pair_arrays table htab hrows N.rcut N.rs hrs cz nz (wOf nz)
      (fun c l hcl hz => hwide c l nz hcl (hz ▸ h1) h2)
    exact ⟨(arr, R, D), h⟩
  choose! P hP using harr
  let da : ℕ → Fin 4 → ℝ := fun i => N.davgs[i]?.getD 0
  let ds : ℕ → Fin 4 → ℝ := fun i => N.dstds[i]?.getD 0
  let cOf : ℕ → ℕ := fun i => N.centres[i]?.getD 0
  let nOf : ℕ → ℕ := fun k => N.nbrs[k]?.getD 0
  let B : ℕ → ℕ → NormBlock := fun i k =>
    ((P (cOf i) (nOf k)).2.1.map (List.map (normalizeRow (da i) (ds i))),
     (P (cOf i) (nOf k)).2.2.map (List.map (normalizeDeriv (ds i))))
  have hblock : ∀ (i k cz nz : ℕ), N.centres[i]? = some cz → N.nbrs[k]? = some nz →
      N.block table cz i nz k = .ok (B i k) := by
    intro i k cz nz h1 h2
    obtain ⟨g1, g2, g3, -⟩ := hP cz nz (List.mem_of_getElem? h1) (List.mem_of_getElem? h2)
    have hi : i < N.centres.length := (List.getElem?_eq_some_iff.1 h1).1
    unfold Normalizer.block
    have e1 : pyGet N.davgs i = .ok (da i) := by
      rw [pyGet_eq_ok]; simp only [da]
      rw [List.getElem?_eq_getElem (by omega)]; rfl
    have e2 : pyGet N.dstds i = .ok (ds i) := by
      rw [pyGet_eq_ok]; simp only [ds]
      rw [List.getElem?_eq_getElem (by omega)]; rfl
    have e3 : pyGet N.widths k = .ok (wOf nz : ℤ) := pyGet_eq_ok.2 (hw k nz h2)
    rw [g1, ok_bind, e3, ok_bind, g2, ok_bind, g3, ok_bind, e1, ok_bind, e2, ok_bind]
    simp only [B, cOf, nOf, h1, h2, Option.getD_some]
    rfl
  have hlen : ∀ (i k cz : ℕ), N.centres[i]? = some cz → k < N.nbrs.length →
      (B i k).1.length = numCentres table cz ∧ (B i k).2.length = numCentres table cz := by
    intro i k cz h1 hk
    obtain ⟨-, -, -, g4, g5, -⟩ := hP cz N.nbrs[k] (List.mem_of_getElem? h1) (List.getElem_mem hk)
    simp only [B, cOf, nOf, h1, List.getElem?_eq_getElem hk, Option.getD_some, List.length_map]
    exact ⟨g4, g5⟩
  obtain ⟨R, D, r1, r2, r3, r4⟩ := normalize_core N table B hblock hc hn hsub hne (numCentres table) hlen
  refine ⟨R, D, r1, r2, r3, ?_⟩
  intro i k cz nz davg dstd hi hk h1 h2
  have hczm := List.mem_of_getElem? hi
  have hnzm := List.mem_of_getElem? hk
  obtain ⟨g1, g2, g3, g4, g5, g6, g7⟩ := hP cz nz hczm (hsub hnzm)
  refine ⟨(P cz nz).2.1, (P cz nz).2.2, ?_, g3, ?_⟩
  · unfold getTildeR
    rw [g1, ok_bind, g2]
  · intro a ha
    obtain ⟨f1, f2⟩ := r4 i cz a hi ha
    have hnOf : ∀ c ∈ N.centres, nOf (N.nbrs.idxOf c) = c := by
      intro c hcm
      have := List.idxOf_lt_length_iff.2 (hsub hcm)
      simp only [nOf]
      rw [List.getElem?_eq_getElem this, List.getElem_idxOf]; rfl
    have hcOf : cOf i = cz := by simp only [cOf, hi, Option.getD_some]
    have hda : da i = davg := by simp only [da, h1, Option.getD_some]
    have hds : ds i = dstd := by simp only [ds, h2, Option.getD_some]
    have hB : ∀ c ∈ N.centres, B i (N.nbrs.idxOf c) =
        ((P cz c).2.1.map (List.map (normalizeRow davg dstd)),
         (P cz c).2.2.map (List.map (normalizeDeriv dstd))) := by
      intro c hcm
      simp only [B, hnOf c hcm, hcOf, hda, hds]
    have hrow : ∀ c ∈ N.centres, (((B i (N.nbrs.idxOf c)).1)[a]?.getD []).length = wOf c ∧
        (((B i (N.nbrs.idxOf c)).2)[a]?.getD []).length = wOf c := by
      intro c hcm
      obtain ⟨-, -, -, q4, q5, q6, q7⟩ := hP cz c hczm (hsub hcm)
      rw [hB c hcm]
      simp only [List.getElem?_map]
      rw [List.getElem?_eq_getElem (by omega : a < (P cz c).2.1.length),
        List.getElem?_eq_getElem (by omega : a < (P cz c).2.2.length)]
      simp only [Option.map_some, Option.getD_some, List.length_map]
      exact ⟨q6 _ (List.getElem_mem _), q7 _ (List.getElem_mem _)⟩
    have hl1 : (N.centres.map (fun c => ((B i (N.nbrs.idxOf c)).1)[a]?.getD [])).map List.length
        = N.centres.map wOf := by
      rw [List.map_map]
      exact List.map_congr_left (fun c hcm => (hrow c hcm).1)
    have hl2 : (N.centres.map (fun c => ((B i (N.nbrs.idxOf c)).2)[a]?.getD [])).map List.length
        = N.centres.map wOf := by
      rw [List.map_map]
      exact List.map_congr_left (fun c hcm => (hrow c hcm).2)
    have ha1 : a < (P cz nz).2.1.length := by omega
    have ha2 : a < (P cz nz).2.2.length := by omega
    refine ⟨_, _, (P cz nz).2.1[a], (P cz nz).2.2[a], f1, f2, ?_, ?_, List.getElem?_eq_getElem ha1,
      List.getElem?_eq_getElem ha2, g6 _ (List.getElem_mem _), g7 _ (List.getElem_mem _), ?_⟩
    · rw [List.length_flatten, hl1]
    · rw [List.length_flatten, hl2]
    · intro b hb
      constructor
      · rw [List.map_take, ← hl1, ← List.map_take]
        rw [flatten_get _ k (((B i (N.nbrs.idxOf nz)).1)[a]?.getD []) (by
          rw [List.getElem?_map, hk]; rfl) b (by rw [(hrow nz hnzm).1]; exact hb)]
        rw [hB nz hnzm]
        simp only [List.getElem?_map, List.getElem?_eq_getElem ha1, Option.map_some, Option.getD_some]
      · rw [List.map_take, ← hl2, ← List.map_take]
        rw [flatten_get _ k (((B i (N.nbrs.idxOf nz)).2)[a]?.getD []) (by
          rw [List.getElem?_map, hk]; rfl) b (by rw [(hrow nz hnzm).2]; exact hb)]
        rw [hB nz hnzm]
        simp only [List.getElem?_map, List.getElem?_eq_getElem ha2, Option.map_some, Option.getD_some]

/-! ## The flat vector of se.py -/

theorem length_flatten_const {α : Type} (l : List (List α)) (w : ℕ) (h : ∀ r ∈ l, r.length = w) :
    l.flatten.length = l.length * w := by
  induction l with
  | nil => simp
  | cons a l ih =>
    rw [List.flatten_cons, List.length_append, h a (by simp), ih (fun r hr => h r (by simp [hr])),
      List.length_cons]
    ring

theorem flatten_get_const {α : Type} (l : List (List α)) (w a : ℕ) (r : List α)
    (h : ∀ r ∈ l, r.length = w) (ha : l[a]? = some r) (b : ℕ) (hb : b < w) :
    l.flatten[a * w + b]? = r[b]? := by
  have := flatten_get l a r ha b (by rw [h r (List.mem_of_getElem? ha)]; exact hb)
  rw [← this]
  congr 1
  have e : ((l.take a).map List.length).sum = a * w := by
    rw [← List.length_flatten, length_flatten_const _ w (fun r hr => h r (List.mem_of_mem_take hr)),
      List.length_take]
    have := (List.getElem?_eq_some_iff.1 ha).1
    rw [min_eq_left (by omega)]
  rw [e]

theorem flattenBlock_length (rows : List (List (Fin 4 → ℝ))) (w : ℕ) (h : ∀ r ∈ rows, r.length = w) :
    (flattenBlock rows).length = rows.length * (4 * w) := by
  unfold flattenBlock
  rw [List.flatMap_def, length_flatten_const _ (4 * w), List.length_map]
  intro r hr
  obtain ⟨x, hx, rfl⟩ := List.mem_map.1 hr
  rw [List.flatMap_def, length_flatten_const _ 4, List.length_map, h x hx]
  · ring
  · intro y hy
    obtain ⟨z, _, rfl⟩ := List.mem_map.1 hy
    rfl

theorem flattenBlock_get (rows : List (List (Fin 4 → ℝ))) (w : ℕ) (h : ∀ r ∈ rows, r.length = w)
    (a b : ℕ) (q : Fin 4) (row : List (Fin 4 → ℝ)) (v : Fin 4 → ℝ) (ha : rows[a]? = some row)
    (hb : row[b]? = some v) :
    (flattenBlock rows)[a * (4 * w) + (b * 4 + q)]? = some (v q) := by
  have hbw : b < w := by
    rw [← h row (List.mem_of_getElem? ha)]; exact (List.getElem?_eq_some_iff.1 hb).1
  unfold flattenBlock
  rw [List.flatMap_def]
  rw [flatten_get_const _ (4 * w) a (row.flatMap (fun v => [v 0, v 1, v 2, v 3])) ?_ ?_ _ (by omega)]
  · rw [List.flatMap_def, flatten_get_const _ 4 b [v 0, v 1, v 2, v 3] ?_ ?_ _ q.2]
    · fin_cases q <;> rfl
    · intro y hy
      obtain ⟨z, _, rfl⟩ := List.mem_map.1 hy
      rfl
    · rw [List.getElem?_map, hb]; rfl
  · intro r hr
    obtain ⟨x, hx, rfl⟩ := List.mem_map.1 hr
    rw [List.flatMap_def, length_flatten_const _ 4, List.length_map, h x hx]
    · ring
    · intro y hy
      obtain ⟨z, _, rfl⟩ := List.mem_map.1 hy
      rfl
  · rw [List.getElem?_map, ha]; rfl

theorem seTildeR_spec (rcut rs : ℝ) (table : List (List NbrEntry)) (centres nbrs ws : List ℕ)
    (hlen : ws.length = nbrs.length) (hrs : rcut - rs ≠ 0) (htab : table ≠ [])
    (hrows : ∀ r ∈ table, r ≠ []) (hcn : centres ≠ []) (hnn : nbrs ≠ [])
    (hwide : ∀ (c : NbrEntry) (l : List NbrEntry) (k nz w : ℕ), c :: l ∈ table → c.1 ∈ centres →
      nbrs[k]? = some nz → ws[k]? = some w → l.countP (fun e => e.1 = nz) ≤ w) :
    ∃ out, seTildeR rcut rs table centres nbrs (ws.map (Nat.cast : ℕ → ℤ)) = .ok out ∧
      out.length = (centres.map (numCentres table)).sum * (4 * ws.sum) ∧
      ∀ (i k cz nz w : ℕ), centres[i]? = some cz → nbrs[k]? = some nz → ws[k]? = some w →
        ∃ block, getTildeR rcut rs table cz nz w = .ok block ∧ block.length = numCentres table cz ∧
          ∀ (a b : ℕ) (q : Fin 4), a < numCentres table cz → b < w →
            ∃ row v, block[a]? = some row ∧ row[b]? = some v ∧
            out[((centres.take i).map (numCentres table)).sum * (4 * ws.sum) +
              (numCentres table cz * (4 * (ws.take k).sum) + (a * (4 * w) + (b * 4 + q)))]?
                = some (v q) := by
  classical
  have harr : ∀ cz k, cz ∈ centres → k < nbrs.length →
      ∃ p : (ℕ × List (List (Fin 4 → ℝ))) × List (List (Fin 4 → ℝ)),
      pairTildeR rcut rs table cz (nbrs[k]?.getD 0) = .ok p.1 ∧
      padWidth 0 p.1 ((ws[k]?.getD 0 : ℕ) : ℤ) = .ok p.2 ∧
      p.2.length = numCentres table cz ∧ (∀ r ∈ p.2, r.length = ws[k]?.getD 0) := by
    intro cz k h1 h2
    have hk : k < ws.length := by omega
    obtain ⟨arr, R, D, e1, e2, -, e3, -, e4, -⟩ := pair_arrays table htab hrows rcut rs hrs cz
      (nbrs[k]?.getD 0) (ws[k]?.getD 0) (fun c l hcl hz => by
        rw [List.getElem?_eq_getElem h2, List.getElem?_eq_getElem hk]
        exact hwide c l k nbrs[k] ws[k] hcl (hz ▸ h1) (List.getElem?_eq_getElem h2)
          (List.getElem?_eq_getElem hk))
    exact ⟨(arr, R), e1, e2, e3, e4⟩
  choose! P hP using harr
  let F : ℕ → List (List ℝ) := fun cz => nbrs.zipIdx.map (fun n => flattenBlock (P cz n.2).2)
  have hmap : centres.mapM (fun cz => nbrs.zipIdx.mapM (fun (nz, i) => do
      let width ← pyGet (ws.map (Nat.cast : ℕ → ℤ)) i
      let arr ← pairTildeR rcut rs table cz nz
      let block ← padWidth 0 arr width
      return flattenBlock block)) = Except.ok (centres.map F) := by
    apply mapM_ok_of
    intro cz hcz
    apply mapM_ok_of
    rintro ⟨nz, k⟩ hn
    have hk := (zipIdx_get _ _).1 hn
    simp only at hk
    have hkl : k < nbrs.length := (List.getElem?_eq_some_iff.1 hk).1
    obtain ⟨e1, e2, -, -⟩ := hP cz k hcz hkl
    rw [hk, Option.getD_some] at e1
    have : pyGet (ws.map (Nat.cast : ℕ → ℤ)) k = .ok ((ws[k]?.getD 0 : ℕ) : ℤ) := by
      rw [pyGet_eq_ok, List.getElem?_map, List.getElem?_eq_getElem (by omega)]; rfl
    simp only
    rw [this, ok_bind, e1, ok_bind, e2, ok_bind]
    rfl
  have hFlen : ∀ cz ∈ centres, (F cz).map List.length = ws.map (fun w => numCentres table cz * (4 * w)) := by
    intro cz hcz
    apply List.ext_getElem?
    intro k
    simp only [F, List.getElem?_map]
    by_cases hk : k < nbrs.length
    · obtain ⟨-, -, e3, e4⟩ := hP cz k hcz hk
      rw [List.getElem?_eq_getElem (by simpa using hk), List.getElem?_eq_getElem (by omega : k < ws.length)]
      simp only [Option.map_some, List.getElem_zipIdx, Nat.zero_add]
      rw [flattenBlock_length _ _ e4, e3, List.getElem?_eq_getElem (by omega : k < ws.length)]
      rfl
    · rw [List.getElem?_eq_none (by simpa using hk), List.getElem?_eq_none (by omega)]
      rfl
  have hsum : ∀ (l : List ℕ) (n : ℕ), (l.map (fun w => n * (4 * w))).sum = n * (4 * l.sum) := by
    intro l n
    induction l with
    | nil => simp
    | cons x l ih => simp only [List.map_cons, List.sum_cons, ih]; ring
  have hG : ∀ cz ∈ centres, (F cz).flatten.length = numCentres table cz * (4 * ws.sum) := by
    intro cz hcz
    rw [List.length_flatten, hFlen cz hcz, hsum]
  have hGsum : ∀ l : List ℕ, (∀ x ∈ l, x ∈ centres) →
      ((l.map (fun cz => (F cz).flatten)).map List.length).sum
        = (l.map (numCentres table)).sum * (4 * ws.sum) := by
    intro l hl
    induction l with
    | nil => simp
    | cons x l ih =>
      simp only [List.map_cons, List.sum_cons, hG x (hl x (by simp))]
      rw [ih (fun y hy => hl y (by simp [hy]))]
      ring
  have hflat : (centres.map F).flatten.flatten = (centres.map (fun cz => (F cz).flatten)).flatten := by
    rw [List.flatten_flatten, List.map_map]; rfl
  refine ⟨(centres.map F).flatten.flatten, ?_, ?_, ?_⟩
  · unfold seTildeR
    rw [hmap, ok_bind, if_neg]
    · rfl
    · rw [List.isEmpty_iff, List.flatten_eq_nil_iff]
      intro h0
      obtain ⟨c, hc⟩ := List.exists_mem_of_ne_nil _ hcn
      have := h0 (F c) (List.mem_map.2 ⟨c, hc, rfl⟩)
      simp only [F, List.map_eq_nil_iff] at this
      have h5 : nbrs.zipIdx.length = 0 := by rw [this]; rfl
      rw [List.length_zipIdx] at h5
      exact hnn (List.length_eq_zero_iff.1 h5)
  · rw [hflat, List.length_flatten, hGsum centres (fun _ h => h)]
  · intro i k cz nz w hi hk hwk
    have hcz := List.mem_of_getElem? hi
    have hkl := (List.getElem?_eq_some_iff.1 hk).1
    obtain ⟨e1, e2, e3, e4⟩ := hP cz k hcz hkl
    rw [hk, Option.getD_some] at e1
    rw [hwk, Option.getD_some] at e2 e4
    refine ⟨(P cz k).2, ?_, e3, ?_⟩
    · unfold getTildeR
      rw [e1, ok_bind, e2]
    · intro a b q ha hb
      have ha' : a < (P cz k).2.length := by omega
      have hb' : b < (P cz k).2[a].length := by rw [e4 _ (List.getElem_mem _)]; exact hb
      refine ⟨(P cz k).2[a], (P cz k).2[a][b], List.getElem?_eq_getElem ha',
        List.getElem?_eq_getElem hb', ?_⟩
      have hblk := flattenBlock_get (P cz k).2 w e4 a b q _ _ (List.getElem?_eq_getElem ha')
        (List.getElem?_eq_getElem hb')
      have hpos : a * (4 * w) + (b * 4 + q) < (flattenBlock (P cz k).2).length :=
        (List.getElem?_eq_some_iff.1 hblk).1
      have hin : (F cz).flatten[numCentres table cz * (4 * (ws.take k).sum) + (a * (4 * w) + (b * 4 + q))]?
          = some ((P cz k).2[a][b] q) := by
        rw [← hsum, List.map_take, ← hFlen cz hcz, ← List.map_take,
          flatten_get _ k (flattenBlock (P cz k).2) ?_ _ hpos, hblk]
        simp only [F, List.getElem?_map]
        rw [List.getElem?_eq_getElem (by simpa using hkl)]
        simp
      rw [hflat, ← hGsum (centres.take i) (fun x hx => List.mem_of_mem_take hx)]
      rw [List.map_take, flatten_get _ i (F cz).flatten ?_ _ (List.getElem?_eq_some_iff.1 hin).1, hin]
      rw [List.getElem?_map, hi]; rfl

/-! ## Examples and small facts used by the property file -/

/-- Two Li atoms, each with a Li neighbour at distance 1 and a Si neighbour at distance 1/2. -/
noncomputable def twoLiTable : List (List NbrEntry) :=
  [[(3, 0, 0), (3, 1, ![1, 0, 0]), (14, 1 / 2, ![1 / 2, 0, 0])],
   [(3, 0, 0), (3, 1, ![1, 0, 0]), (14, 1 / 2, ![1 / 2, 0, 0])]]

theorem twoLi_blocks :
    getTildeR 3 2 twoLiTable 3 3 (1 : ℕ) = .ok [[![1, 1, 0, 0]], [![1, 1, 0, 0]]] ∧
    getTildeR 3 2 twoLiTable 3 14 (1 : ℕ) = .ok [[![2, 2, 0, 0]], [![2, 2, 0, 0]]] := by
  constructor
  · simp [getTildeR, pairTildeR, extractFeaturePair, twoLiTable, centreIs, pairEntries, runningMax,
      padWidth, envRow, getS, recip, Bind.bind, Except.bind, Pure.pure, Except.pure]
  · simp [getTildeR, pairTildeR, extractFeaturePair, twoLiTable, centreIs, pairEntries, runningMax,
      padWidth, envRow, getS, recip, Bind.bind, Except.bind, Pure.pure, Except.pure]
    norm_num

theorem twoLi_numCentres : numCentres twoLiTable 3 = 2 := by
  simp [numCentres, twoLiTable]

theorem twoLi_wide : ∀ (c : NbrEntry) (l : List NbrEntry) (k nz w : ℕ), c :: l ∈ twoLiTable →
    c.1 ∈ [3] → [3, 14][k]? = some nz → [1, 1][k]? = some w → l.countP (fun e => e.1 = nz) ≤ w := by
  intro c l k nz w h _ hk hw
  simp only [twoLiTable, List.mem_cons, List.not_mem_nil, or_false, or_self, List.cons.injEq] at h
  obtain ⟨rfl, rfl⟩ := h
  match k with
  | 0 =>
    simp at hk hw; subst hk; subst hw; simp
  | 1 =>
    simp at hk hw; subst hk; subst hw; simp
  | k + 2 => simp at hk

theorem sum_sq_le (l : List ℝ) : l.sum ^ 2 ≤ l.length * (l.map (fun x => x * x)).sum := by
  induction l with
  | nil => simp
  | cons a l ih =>
    simp only [List.sum_cons, List.map_cons, List.length_cons, Nat.cast_add, Nat.cast_one]
    set S := l.sum
    set Q := (l.map (fun x => x * x)).sum
    set n : ℝ := (l.length : ℝ)
    have hn : 0 ≤ n := Nat.cast_nonneg _
    rcases hn.eq_or_lt with h0 | h0
    · have : l = [] := List.length_eq_zero_iff.1 (Nat.cast_eq_zero.1 h0.symm)
      have hS : S = 0 := by simp [S, this]
      have hQ : Q = 0 := by simp [Q, this]
      rw [hS, hQ, ← h0]; ring_nf; exact le_refl _
    · have h1 : 0 ≤ (n * a - S) ^ 2 := sq_nonneg _
      have h2 : 2 * a * S * n ≤ n * a ^ 2 * n + S ^ 2 := by nlinarith
      have h3 : n * (2 * a * S) ≤ n * (n * a ^ 2 + Q) := by nlinarith
      have h4 := le_of_mul_le_mul_left h3 h0
      nlinarith

theorem flatMap_three (rows : List (Fin 4 → ℝ)) :
    (rows.flatMap (fun v => [v 1, v 2, v 3])).length = 3 * rows.length := by
  induction rows with
  | nil => rfl
  | cons a l ih => simp only [List.flatMap_cons, List.length_append, ih, List.length_cons,
      List.length_nil]; ring

theorem pyDictGet_error_kind {α β : Type} [DecidableEq α] (d : List (α × β)) (k : α) (e : PyErr)
    (h : pyDictGet d k = .error e) : e = .keyError := by
  unfold pyDictGet at h
  split at h
  · cases h
  · exact (Except.error.inj h).symm

end MaterSDK
