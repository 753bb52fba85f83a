import Verif.Model.Kpoints
import Verif.Lemmas.Except
import Verif.Lemmas.AC
import Verif.Lemmas.Dict
import Verif.Lemmas.DeepMDNorm
import Verif.Spec.Kpoints
import Mathlib.Tactic.Ring
import Mathlib.Tactic.Linarith
import Mathlib.Tactic.Positivity

/-! # Helper lemmas for IN.KPT files, k-meshes and k-paths -/

namespace MaterSDK

theorem rcumsum_length (s : ℝ) (l : List ℝ) : (rcumsum s l).length = l.length := by
  induction l generalizing s with
  | nil => rfl
  | cons x xs ih => simp [rcumsum, ih]

theorem rcumsum_head (s x : ℝ) (xs : List ℝ) : (rcumsum s (x :: xs))[0]? = some (s + x) := rfl

theorem rcumsum_step (s : ℝ) (l : List ℝ) (i : ℕ) (x : ℝ) (hx : l[i + 1]? = some x) :
    ∃ a, (rcumsum s l)[i]? = some a ∧ (rcumsum s l)[i + 1]? = some (a + x) := by
  induction l generalizing s i with
  | nil => simp at hx
  | cons y ys ih =>
    cases i with
    | zero =>
      cases ys with
      | nil => simp at hx
      | cons z zs =>
        obtain rfl : z = x := by simpa using hx
        exact ⟨s + y, rfl, rfl⟩
    | succ i => exact ih (s + y) i (by simpa using hx)

theorem pySlice_getElem? {α : Type} (l : List α) (i j k : ℕ) :
    (pySlice l i j)[k]? = if k < j - i then l[i + k]? else none := by
  unfold pySlice
  rw [List.getElem?_take, List.getElem?_drop]

theorem pySlice_length {α : Type} (l : List α) (i j : ℕ) (h : j ≤ l.length) :
    (pySlice l i j).length = j - i := by
  unfold pySlice
  rw [List.length_take, List.length_drop]; omega

theorem pyGetI_neg_one {α : Type} (l : List α) (a : α) (h : l[l.length - 1]? = some a) :
    pyGetI l (-1) = .ok a := by
  have hl : 0 < l.length := by
    rcases l with _ | _
    · simp at h
    · simp
  unfold pyGetI
  simp only [Int.reduceNeg, Int.reduceLT, if_true]
  rw [if_neg (by omega)]
  have : ((-1 : ℤ) + l.length).toNat = l.length - 1 := by omega
  rw [this]
  unfold pyGet
  rw [h]

/-- The loop over the path pieces from the second piece on. -/
theorem join_spec (cum : List ℝ) (rest : List ℕ) (acc : List ℝ) (s k : ℕ) (hk : k ≠ 0)
    (hacc : acc.length = s) (hs : s ≠ 0) (hch : (s :: rest).Pairwise (· < ·))
    (hle : ∀ t ∈ rest, t ≤ cum.length) :
    ∃ l, ((((s :: rest).zip rest).map (fun p => pySlice cum p.1 p.2)).zipIdx k).foldlM joinStep acc
        = .ok l ∧ l.length = (s :: rest).getLast (List.cons_ne_nil _ _) ∧
      (∀ i, i < s → l[i]? = acc[i]?) ∧
      ∀ i a b c d, s ≤ i + 1 → l[i]? = some a → l[i + 1]? = some b → cum[i]? = some c →
        cum[i + 1]? = some d → b = a + (if i + 1 ∈ s :: rest then 0 else d - c) := by
  induction rest generalizing acc s k with
  | nil =>
    refine ⟨acc, rfl, by simpa using hacc, fun i _ => rfl, ?_⟩
    intro i a b c d hi _ hb
    have := (List.getElem?_eq_some_iff.1 hb).1
    omega
  | cons t rest ih =>
    have hst : s < t := (List.pairwise_cons.1 hch).1 t (by simp)
    have htl : t ≤ cum.length := hle t (by simp)
    obtain ⟨c, hc⟩ : ∃ c, acc[acc.length - 1]? = some c :=
      ⟨_, List.getElem?_eq_getElem (by omega)⟩
    obtain ⟨m, hm⟩ : ∃ m, cum[s]? = some m := ⟨_, List.getElem?_eq_getElem (by omega)⟩
    have hpm : pyGet (pySlice cum s t) 0 = .ok m := by
      unfold pyGet
      rw [pySlice_getElem?, if_pos (by omega), Nat.add_zero, hm]
    have hslen := pySlice_length cum s t htl
    let acc' := acc ++ (pySlice cum s t).map (fun d => d + c - m)
    have hstep : joinStep acc (pySlice cum s t, k) = .ok acc' := by
      unfold joinStep
      simp only [ne_eq, hk, not_false_eq_true, if_true]
      rw [pyGetI_neg_one acc c hc, ok_bind, hpm, ok_bind]
      rfl
    have hacc' : acc'.length = t := by
      simp only [acc', List.length_append, List.length_map, hslen, hacc]; omega
    obtain ⟨l, hl, hlen, hpre, hrel⟩ := ih acc' t (k + 1) (by omega) hacc' (by omega)
      (List.pairwise_cons.1 hch).2 (fun x hx => hle x (by simp [hx]))
    refine ⟨l, ?_, ?_, ?_, ?_⟩
    · simp only [List.zip_cons_cons, List.map_cons, List.zipIdx_cons, List.foldlM_cons]
      rw [hstep, ok_bind]
      exact hl
    · rw [List.getLast_cons (List.cons_ne_nil _ _)]; exact hlen
    · intro i hi
      rw [hpre i (by omega)]
      simp only [acc']
      rw [List.getElem?_append_left (by omega)]
    · intro i a b c' d hi ha hb hc' hd
      by_cases hit : t ≤ i + 1
      · rw [hrel i a b c' d hit ha hb hc' hd]
        have : (i + 1 ∈ s :: t :: rest) ↔ (i + 1 ∈ t :: rest) := by
          rw [List.mem_cons]
          constructor
          · rintro (h | h)
            · omega
            · exact h
          · exact Or.inr
        simp only [this]
      · rw [hpre i (by omega)] at ha
        rw [hpre (i + 1) (by omega)] at hb
        simp only [acc'] at ha hb
        rw [List.getElem?_append_right (by omega), List.getElem?_map, pySlice_getElem?,
          if_pos (by omega)] at hb
        have e1 : s + (i + 1 - acc.length) = i + 1 := by omega
        rw [e1, hd] at hb
        simp only [Option.map_some, Option.some.injEq] at hb
        by_cases his : i + 1 = s
        · rw [List.getElem?_append_left (by omega)] at ha
          have : i = acc.length - 1 := by omega
          rw [this, hc] at ha
          rw [← his, hd] at hm
          obtain rfl := Option.some.inj ha
          obtain rfl := Option.some.inj hm
          rw [if_pos (by simp [his])]
          linarith
        · rw [List.getElem?_append_right (by omega), List.getElem?_map, pySlice_getElem?,
            if_pos (by omega)] at ha
          have e2 : s + (i - acc.length) = i := by omega
          rw [e2, hc'] at ha
          simp only [Option.map_some, Option.some.injEq] at ha
          rw [if_neg]
          · linarith
          · intro hmem
            rcases List.mem_cons.1 hmem with h | h
            · exact his h
            · rcases List.mem_cons.1 h with h | h
              · omega
              · have := (List.pairwise_cons.1 (List.pairwise_cons.1 hch).2).1 _ h
                omega

/-- The whole loop. -/
theorem join_all (cum : List ℝ) (starts : List ℕ) (hne : starts ≠ [])
    (hch : (0 :: starts).Pairwise (· < ·)) (hle : ∀ t ∈ starts, t ≤ cum.length) :
    ∃ l, ((((0 :: starts).zip starts).map (fun p => pySlice cum p.1 p.2)).zipIdx).foldlM joinStep []
        = .ok l ∧ l.length = starts.getLast hne ∧ l[0]? = cum[0]? ∧
      ∀ i a b c d, l[i]? = some a → l[i + 1]? = some b → cum[i]? = some c → cum[i + 1]? = some d →
        b = a + (if i + 1 ∈ starts then 0 else d - c) := by
  obtain ⟨t, rest, rfl⟩ := List.exists_cons_of_ne_nil hne
  have ht0 : 0 < t := (List.pairwise_cons.1 hch).1 t (by simp)
  have htl : t ≤ cum.length := hle t (by simp)
  have hslen := pySlice_length cum 0 t htl
  obtain ⟨l, hl, hlen, hpre, hrel⟩ := join_spec cum rest (pySlice cum 0 t) t 1 (by omega)
    (by omega) (by omega) (List.pairwise_cons.1 hch).2 (fun x hx => hle x (by simp [hx]))
  refine ⟨l, ?_, hlen, ?_, ?_⟩
  · simp only [List.zip_cons_cons, List.map_cons, List.zipIdx_cons, List.foldlM_cons]
    have : joinStep [] (pySlice cum 0 t, 0) = .ok (pySlice cum 0 t) := by simp [joinStep]
    rw [this, ok_bind]
    exact hl
  · rw [hpre 0 ht0, pySlice_getElem?, if_pos (by omega)]
  · intro i a b c d ha hb hc hd
    by_cases hit : t ≤ i + 1
    · exact hrel i a b c d hit ha hb hc hd
    · rw [hpre i (by omega), pySlice_getElem?, if_pos (by omega), Nat.zero_add, hc] at ha
      rw [hpre (i + 1) (by omega), pySlice_getElem?, if_pos (by omega), Nat.zero_add, hd] at hb
      obtain rfl := Option.some.inj ha
      obtain rfl := Option.some.inj hb
      rw [if_neg]
      · ring
      · intro hmem
        rcases List.mem_cons.1 hmem with h | h
        · omega
        · have := (List.pairwise_cons.1 (List.pairwise_cons.1 hch).2).1 _ h
          omega

/-- Two neighbours in a strictly increasing list that differ by one. -/
theorem mem_consecutive (keys : List ℕ) (h : keys.Pairwise (· < ·)) (i : ℕ) :
    (i, i + 1) ∈ keys.zip keys.tail ↔ i ∈ keys ∧ i + 1 ∈ keys := by
  induction keys with
  | nil => simp
  | cons k ks ih =>
    cases ks with
    | nil => simp; omega
    | cons k' ks =>
      have hp := List.pairwise_cons.1 h
      have hp2 := List.pairwise_cons.1 hp.2
      have ih' := ih hp.2
      simp only [List.tail_cons, List.zip_cons_cons, List.mem_cons, Prod.mk.injEq] at ih' ⊢
      have hkk' : k < k' := hp.1 k' (by simp)
      have hk : ∀ x ∈ ks, k < x := fun x hx => hp.1 x (by simp [hx])
      have hk' : ∀ x ∈ ks, k' < x := hp2.1
      rw [ih']
      constructor
      · rintro (⟨rfl, rfl⟩ | ⟨h1, h2⟩)
        · simp
        · exact ⟨Or.inr h1, Or.inr h2⟩
      · rintro ⟨h1, h2⟩
        rcases h1 with rfl | h1
        · rcases h2 with h2 | h2 | h2
          · omega
          · left; exact ⟨rfl, h2⟩
          · have := hk' _ h2; omega
        · right
          refine ⟨h1, ?_⟩
          rcases h2 with h2 | h2
          · rcases h1 with rfl | h1
            · omega
            · have := hk _ h1; omega
          · exact h2

theorem consecutive_second (keys : List ℕ) (h : keys.Pairwise (· < ·)) :
    ((keys.zip keys.tail).map Prod.snd).Pairwise (· < ·) := by
  have : (keys.zip keys.tail).map Prod.snd = keys.tail := by
    rw [List.map_snd_zip]
    simp
  rw [this]
  exact h.tail

/-- The starts of the path pieces. -/
theorem kptStarts_spec (keys : List ℕ) (n : ℕ) (h : keys.Pairwise (· < ·)) (hn : ∀ k ∈ keys, k < n)
    (h0 : 0 < n) :
    ∃ starts, kptStarts keys n = 0 :: starts ∧ (0 :: starts).Pairwise (· < ·) ∧
      (∀ t ∈ starts, t ≤ n) ∧ (∃ hne : starts ≠ [], starts.getLast hne = n) ∧
      ∀ i, i + 1 < n → (i + 1 ∈ starts ↔ i ∈ keys ∧ i + 1 ∈ keys) := by
  refine ⟨_, rfl, ?_, ?_, ?_, ?_⟩
  · have hsub : (((keys.zip keys.tail).filter (fun p => p.2 = p.1 + 1)).map Prod.snd).Sublist
        ((keys.zip keys.tail).map Prod.snd) := (List.filter_sublist).map _
    have hpw := (consecutive_second keys h).sublist hsub
    have hmem : ∀ x ∈ ((keys.zip keys.tail).filter (fun p => p.2 = p.1 + 1)).map Prod.snd,
        0 < x ∧ x < n := by
      intro x hx
      obtain ⟨⟨a, b⟩, hp, rfl⟩ := List.mem_map.1 hx
      obtain ⟨hp1, hp2⟩ := List.mem_filter.1 hp
      simp only [decide_eq_true_eq] at hp2
      have : b ∈ keys := List.mem_of_mem_tail (List.of_mem_zip hp1).2
      exact ⟨by simp only; omega, hn _ this⟩
    refine List.pairwise_cons.2 ⟨?_, ?_⟩
    · intro x hx
      rcases List.mem_append.1 hx with h | h
      · exact (hmem x h).1
      · simp only [List.mem_singleton] at h; omega
    · refine List.pairwise_append.2 ⟨hpw, by simp, ?_⟩
      intro x hx y hy
      simp only [List.mem_singleton] at hy
      have := (hmem x hx).2
      omega
  · intro t ht
    rcases List.mem_append.1 ht with h | h
    · obtain ⟨⟨a, b⟩, hp, rfl⟩ := List.mem_map.1 h
      have : b ∈ keys := List.mem_of_mem_tail (List.of_mem_zip (List.mem_filter.1 hp).1).2
      exact (hn _ this).le
    · simp only [List.mem_singleton] at h; omega
  · exact ⟨by simp, by simp⟩
  · intro i hi
    rw [← mem_consecutive keys h i]
    constructor
    · intro hm
      rcases List.mem_append.1 hm with h' | h'
      · obtain ⟨⟨a, b⟩, hp, hb⟩ := List.mem_map.1 h'
        obtain ⟨hp1, hp2⟩ := List.mem_filter.1 hp
        simp only [decide_eq_true_eq] at hp2 hb
        obtain rfl : a = i := by omega
        rw [hp2] at hp1
        exact hp1
      · simp only [List.mem_singleton] at h'; omega
    · intro hm
      refine List.mem_append.2 (Or.inl (List.mem_map.2 ⟨(i, i + 1), List.mem_filter.2 ⟨hm, by simp⟩, rfl⟩))

theorem idx2hsp_keys (rows : List Str) :
    ((idx2hsp rows).map Prod.fst).Pairwise (· < ·) ∧
      ∀ i, i ∈ (idx2hsp rows).map Prod.fst ↔
        ∃ r, (rows.drop 2)[i]? = some r ∧ (split r).length = 5 := by
  have e : (idx2hsp rows).map Prod.fst =
      ((rows.drop 2).zipIdx.filter (fun p => (split p.1).length = 5)).map Prod.snd := by
    unfold idx2hsp
    rw [List.map_map]
    rfl
  rw [e]
  constructor
  · have hsub := (List.filter_sublist (l := (rows.drop 2).zipIdx)
      (p := fun p => decide ((split p.1).length = 5))).map Prod.snd
    refine List.Pairwise.sublist hsub ?_
    have : List.map Prod.snd (List.drop 2 rows).zipIdx = List.range' 0 (rows.drop 2).length := by
      rw [List.zipIdx_map_snd]
    rw [this]
    exact List.pairwise_lt_range'
  · intro i
    constructor
    · intro h
      obtain ⟨⟨r, j⟩, hp, rfl⟩ := List.mem_map.1 h
      obtain ⟨h1, h2⟩ := List.mem_filter.1 hp
      have := List.mem_zipIdx_iff_getElem?.1 h1
      exact ⟨r, by simpa using this, by simpa using h2⟩
    · rintro ⟨r, hr, h5⟩
      refine List.mem_map.2 ⟨(r, i), List.mem_filter.2 ⟨?_, by simpa using h5⟩, rfl⟩
      exact List.mem_zipIdx_iff_getElem?.2 (by simpa using hr)

theorem nbrDistances_spec (cs : List (Vec ℝ)) (hne : cs ≠ []) :
    ∃ ds, nbrDistances cs = .ok ds ∧ ds.length = cs.length ∧ ds[0]? = some 0 ∧
      ∀ i u v, cs[i]? = some u → cs[i + 1]? = some v → ds[i + 1]? = some (norm3 (v - u)) := by
  refine ⟨0 :: (cs.zip cs.tail).map (fun p => norm3 (p.2 - p.1)), ?_, ?_, rfl, ?_⟩
  · unfold nbrDistances
    rw [if_pos]
    cases cs with
    | nil => exact absurd rfl hne
    | cons c cs => simp
  · cases cs with
    | nil => exact absurd rfl hne
    | cons c cs => simp
  · intro i u v hu hv
    have hz : (cs.zip cs.tail)[i]? = some (u, v) :=
      List.getElem?_zip_eq_some.2 ⟨hu, by simpa using hv⟩
    rw [List.getElem?_cons_succ, List.getElem?_map, hz]
    rfl

theorem recip_cryst_ok {lat : Matrix (Fin 3) (Fin 3) ℝ} (h : lat.det ≠ 0) :
    recipCryst lat = .ok (lat⁻¹).transpose := by
  unfold recipCryst
  rw [if_neg h]

theorem recip_unique {lat b : Matrix (Fin 3) (Fin 3) ℝ} (hb : lat * b.transpose = 1) :
    lat.det ≠ 0 ∧ (lat⁻¹).transpose = b := by
  have hdet : IsUnit lat.det := Matrix.isUnit_det_of_right_inverse hb
  refine ⟨hdet.ne_zero, ?_⟩
  rw [Matrix.inv_eq_right_inv hb, Matrix.transpose_transpose]

theorem rowKpt_iff (r : Str) (k : Vec ℝ) :
    (∃ q, ((split r).take 3).mapM parseFloat = .ok q ∧ toVec3 q = .ok k) ↔ RowKpt r k := by
  constructor
  · rintro ⟨q, hq, hk⟩
    have hf := mapM_eq_ok.1 hq
    match q, hk with
    | [x, y, z], hk =>
      generalize hs : (split r).take 3 = w at hf
      match w, hf with
      | [a, b, c], .cons ha (.cons hb (.cons hc .nil)) =>
        refine ⟨a, b, c, (split r).drop 3, x, y, z, ?_, ha, hb, hc, (Except.ok.inj hk).symm⟩
        conv_lhs => rw [← List.take_append_drop 3 (split r), hs]
        rfl
  · rintro ⟨a, b, c, rest, x, y, z, hs, ha, hb, hc, rfl⟩
    refine ⟨[x, y, z], ?_, rfl⟩
    rw [hs]
    exact mapM_eq_ok.2 (.cons ha (.cons hb (.cons hc .nil)))

theorem toVec3_length {q : List ℚ} {k : Vec ℝ} (h : toVec3 q = .ok k) : q.length = 3 := by
  match q, h with
  | [x, y, z], _ => rfl

theorem npRect_eq_of_ok {rows rows' : List (List ℚ)} (h : npRect rows = .ok rows') : rows' = rows := by
  unfold npRect at h
  cases rows with
  | nil => exact (Except.ok.inj h).symm
  | cons r rs =>
    simp only at h
    split at h
    · exact (Except.ok.inj h).symm
    · cases h

theorem npRect_same {rows : List (List ℚ)} (n : ℕ) (h : ∀ r ∈ rows, r.length = n) :
    npRect rows = .ok rows := by
  unfold npRect
  cases rows with
  | nil => rfl
  | cons r rs =>
    simp only
    rw [if_pos]
    rw [List.all_eq_true]
    intro s hs
    simp [h s (by simp [hs]), h r (by simp)]

theorem forall₂_rowKpt {rs : List Str} {qs : List (List ℚ)} {ks : List (Vec ℝ)}
    (f1 : List.Forall₂ (fun r q => ((split r).take 3).mapM parseFloat = .ok q) rs qs)
    (f2 : List.Forall₂ (fun q k => toVec3 q = .ok k) qs ks) : List.Forall₂ RowKpt rs ks := by
  induction f1 generalizing ks with
  | nil => cases f2; exact .nil
  | cons h1 _ ih =>
    cases f2 with
    | cons h2 f2 => exact .cons ((rowKpt_iff _ _).1 ⟨_, h1, h2⟩) (ih f2)

/-- When the Cartesian k-points can be computed, and what they are. -/
theorem kptCoordsA_iff (rows : List Str) (lat : Matrix (Fin 3) (Fin 3) ℝ) (cs : List (Vec ℝ)) :
    kptCoordsA rows lat = .ok cs ↔
      lat.det ≠ 0 ∧ rows.drop 2 ≠ [] ∧ ∃ ks, List.Forall₂ RowKpt (rows.drop 2) ks ∧
        cs = ks.map (fun v => Matrix.vecMul v ((2 * Real.pi) • (lat⁻¹).transpose)) := by
  constructor
  · intro h
    unfold kptCoordsA at h
    obtain ⟨b, hb, h⟩ := bind_eq_ok.1 h
    obtain ⟨qs, hq, h⟩ := bind_eq_ok.1 h
    unfold recipLattice at hb
    obtain ⟨b0, hb0, hb⟩ := bind_eq_ok.1 hb
    unfold recipCryst at hb0
    split at hb0
    · cases hb0
    rename_i hdet
    obtain rfl := Except.ok.inj hb0
    obtain rfl := Except.ok.inj hb
    unfold kptCoordsFrac at hq
    obtain ⟨qs', hq1, hq2⟩ := bind_eq_ok.1 hq
    obtain rfl := npRect_eq_of_ok hq2
    split at h
    · cases h
    rename_i hne
    obtain ⟨vs, hvs, h⟩ := bind_eq_ok.1 h
    obtain rfl := Except.ok.inj h
    have f1 := mapM_eq_ok.1 hq1
    have f2 := mapM_eq_ok.1 hvs
    refine ⟨hdet, ?_, vs, ?_, rfl⟩
    · intro h0
      rw [h0] at f1
      cases f1
      exact hne rfl
    · exact forall₂_rowKpt f1 f2
  · rintro ⟨hdet, hne, ks, hks, rfl⟩
    obtain ⟨qs, f1, f2⟩ : ∃ qs, List.Forall₂ (fun r q => ((split r).take 3).mapM parseFloat = .ok q)
        (rows.drop 2) qs ∧ List.Forall₂ (fun q k => toVec3 q = .ok k) qs ks := by
      clear hne
      generalize rows.drop 2 = rs at hks
      induction hks with
      | nil => exact ⟨[], .nil, .nil⟩
      | cons h _ ih =>
        obtain ⟨q, h1, h2⟩ := (rowKpt_iff _ _).2 h
        obtain ⟨qs, g1, g2⟩ := ih
        exact ⟨q :: qs, .cons h1 g1, .cons h2 g2⟩
    unfold kptCoordsA recipLattice
    rw [recip_cryst_ok hdet]
    simp only [ok_bind]
    unfold kptCoordsFrac
    have hq1 := mapM_eq_ok.2 f1
    have h3 : ∀ q ∈ qs, q.length = 3 := by
      intro q hq
      obtain ⟨i, hi, rfl⟩ := List.mem_iff_getElem.1 hq
      obtain ⟨k, _, hk⟩ := forall₂_get f2 (List.getElem?_eq_getElem hi)
      exact toVec3_length hk
    have hqne : qs.isEmpty = false := by
      cases qs with
      | nil =>
        have := f1.length_eq
        simp only [List.length_nil, List.length_eq_zero_iff] at this
        exact absurd this hne
      | cons _ _ => rfl
    have e1 : (pure ((2 * Real.pi) • lat⁻¹.transpose) :
        Except PyErr (Matrix (Fin 3) (Fin 3) ℝ)) = .ok ((2 * Real.pi) • lat⁻¹.transpose) := rfl
    rw [e1, ok_bind, hq1, ok_bind, npRect_same 3 h3, ok_bind]
    simp only [hqne, Bool.false_eq_true, if_false]
    rw [mapM_eq_ok.2 f2, ok_bind]
    rfl

/-- The distances along the k-path. -/
theorem distanceA_core (rows : List Str) (lat : Matrix (Fin 3) (Fin 3) ℝ) (hdet : lat.det ≠ 0)
    (hne : rows.drop 2 ≠ []) (ks : List (Vec ℝ)) (hks : List.Forall₂ RowKpt (rows.drop 2) ks) :
    ∃ l, distanceA rows lat = .ok l ∧ l.length = ks.length ∧ l[0]? = some 0 ∧
      ∀ i x y r s u v, l[i]? = some x → l[i + 1]? = some y → (rows.drop 2)[i]? = some r →
        (rows.drop 2)[i + 1]? = some s → ks[i]? = some u → ks[i + 1]? = some v →
        (Labelled r ∧ Labelled s → y = x) ∧
        (¬ (Labelled r ∧ Labelled s) →
          y = x + norm3 (Matrix.vecMul (v - u) ((2 * Real.pi) • (lat⁻¹).transpose))) := by
  have hcs := (kptCoordsA_iff rows lat _).2 ⟨hdet, hne, ks, hks, rfl⟩
  generalize hB : (2 * Real.pi) • (lat⁻¹).transpose = B at *
  have hlen : (rows.drop 2).length = ks.length := hks.length_eq
  have hpos : 0 < ks.length := by rw [← hlen]; exact List.length_pos_iff.2 hne
  have hcne : ks.map (fun v => Matrix.vecMul v B) ≠ [] := by
    intro h
    have := congrArg List.length h
    simp only [List.length_map, List.length_nil] at this
    omega
  obtain ⟨ds, hds, hdl, hd0, hdi⟩ := nbrDistances_spec _ hcne
  have hdl' : ds.length = ks.length := by simpa using hdl
  obtain ⟨hkp, hkm⟩ := idx2hsp_keys rows
  obtain ⟨starts, hst, hch, hle, ⟨hsne, hlast⟩, hmem⟩ :=
    kptStarts_spec ((idx2hsp rows).map Prod.fst) ds.length hkp
      (by
        intro k hk
        obtain ⟨r, hr, _⟩ := (hkm k).1 hk
        have := (List.getElem?_eq_some_iff.1 hr).1
        omega) (by omega)
  obtain ⟨l, hl, hll, hl0, hrel⟩ := join_all (rcumsum 0 ds) starts hsne hch
    (by simpa [rcumsum_length] using hle)
  refine ⟨l, ?_, by omega, ?_, ?_⟩
  · unfold distanceA splitDistances
    rw [hcs, ok_bind, hds, ok_bind]
    simp only [hst, List.tail_cons]
    exact hl
  · rw [hl0]
    cases ds with
    | nil => simp at hd0
    | cons d ds =>
      obtain rfl : d = 0 := by simpa using hd0
      simp [rcumsum]
  · intro i x y r s u v hx hy hr hs hu hv
    have hil : i + 1 < ds.length := by
      have := (List.getElem?_eq_some_iff.1 hv).1
      omega
    have hd := hdi i (Matrix.vecMul u B) (Matrix.vecMul v B) (by simp [hu]) (by simp [hv])
    obtain ⟨a, ha1, ha2⟩ := rcumsum_step 0 ds i _ hd
    have key := hrel i x y _ _ hx hy ha1 ha2
    have hsub : Matrix.vecMul v B - Matrix.vecMul u B = Matrix.vecMul (v - u) B := by
      rw [Matrix.sub_vecMul]
    have hiff : (i + 1 ∈ starts) ↔ (Labelled r ∧ Labelled s) := by
      rw [hmem i hil, hkm i, hkm (i + 1)]
      constructor
      · rintro ⟨⟨r', hr', h1⟩, ⟨s', hs', h2⟩⟩
        rw [hr] at hr'; rw [hs] at hs'
        obtain rfl := Option.some.inj hr'
        obtain rfl := Option.some.inj hs'
        exact ⟨h1, h2⟩
      · rintro ⟨h1, h2⟩
        exact ⟨⟨r, hr, h1⟩, ⟨s, hs, h2⟩⟩
    constructor
    · intro h
      rw [if_pos (hiff.2 h)] at key
      rw [key]; ring
    · intro h
      rw [if_neg (fun h' => h (hiff.1 h'))] at key
      rw [key, hsub]; ring

theorem rowKpt_unique {r : Str} {u v : Vec ℝ} (hu : RowKpt r u) (hv : RowKpt r v) : u = v := by
  obtain ⟨q, h1, h2⟩ := (rowKpt_iff r u).2 hu
  obtain ⟨q', h3, h4⟩ := (rowKpt_iff r v).2 hv
  obtain rfl := Except.ok.inj (h1.symm.trans h3)
  exact Except.ok.inj (h2.symm.trans h4)

theorem recip_two_pi {lat b : Matrix (Fin 3) (Fin 3) ℝ} (hb : IsReciprocal lat b) :
    (2 * Real.pi) • (lat⁻¹).transpose = b := by
  have hpi : (2 * Real.pi) ≠ 0 := by positivity
  have h1 : lat * ((2 * Real.pi)⁻¹ • b).transpose = 1 := by
    unfold IsReciprocal at hb
    rw [Matrix.transpose_smul, Matrix.mul_smul, hb, smul_smul, inv_mul_cancel₀ hpi, one_smul]
  rw [(recip_unique h1).2, smul_smul, mul_inv_cancel₀ hpi, one_smul]

theorem foldl_max_spec (as : List ℝ) (a : ℝ) :
    as.foldl max a ∈ a :: as ∧ ∀ x ∈ a :: as, x ≤ as.foldl max a := by
  induction as generalizing a with
  | nil => simp
  | cons b bs ih =>
    obtain ⟨h1, h2⟩ := ih (max a b)
    have hm := h2 (max a b) (by simp)
    rw [List.foldl_cons]
    constructor
    · rcases List.mem_cons.1 h1 with h | h
      · rw [h]
        rcases max_choice a b with h' | h' <;> rw [h'] <;> simp
      · simp [h]
    · intro x hx
      rcases List.mem_cons.1 hx with rfl | hx
      · exact (le_max_left _ _).trans hm
      · rcases List.mem_cons.1 hx with rfl | hx
        · exact (le_max_right _ _).trans hm
        · exact h2 x (by simp [hx])

theorem foldl_min_spec (as : List ℝ) (a : ℝ) :
    as.foldl min a ∈ a :: as ∧ ∀ x ∈ a :: as, as.foldl min a ≤ x := by
  induction as generalizing a with
  | nil => simp
  | cons b bs ih =>
    obtain ⟨h1, h2⟩ := ih (min a b)
    have hm := h2 (min a b) (by simp)
    rw [List.foldl_cons]
    constructor
    · rcases List.mem_cons.1 h1 with h | h
      · rw [h]
        rcases min_choice a b with h' | h' <;> rw [h'] <;> simp
      · simp [h]
    · intro x hx
      rcases List.mem_cons.1 hx with rfl | hx
      · exact hm.trans (min_le_left _ _)
      · rcases List.mem_cons.1 hx with rfl | hx
        · exact hm.trans (min_le_right _ _)
        · exact h2 x (by simp [hx])

theorem vacuumAlong_spec (s : Struct ℝ) (i : Fin 3) (hs : s.sites ≠ []) :
    ∃ v, s.vacuumAlong i = .ok v ∧ (v = true ↔ WithinRange s i (norm3 (s.lattice i) - 10)) := by
  obtain ⟨t, ts, ht⟩ := List.exists_cons_of_ne_nil hs
  have hmap : s.sites.map (fun t => t.pos i) = t.pos i :: ts.map (fun t => t.pos i) := by
    rw [ht]; rfl
  obtain ⟨hM1, hM2⟩ := foldl_max_spec (ts.map (fun t => t.pos i)) (t.pos i)
  obtain ⟨hm1, hm2⟩ := foldl_min_spec (ts.map (fun t => t.pos i)) (t.pos i)
  rw [← hmap] at hM1 hM2 hm1 hm2
  classical
  refine ⟨decide (norm3 (s.lattice i) - (List.foldl max (t.pos i) (ts.map (fun t => t.pos i)) -
    List.foldl min (t.pos i) (ts.map (fun t => t.pos i))) > 10), ?_, ?_⟩
  · unfold Struct.vacuumAlong
    simp only [hmap, npMax, npMin, ok_bind]
    congr
  · simp only [decide_eq_true_eq]
    generalize List.foldl max (t.pos i) (ts.map (fun t => t.pos i)) = M at hM1 hM2 ⊢
    generalize List.foldl min (t.pos i) (ts.map (fun t => t.pos i)) = m at hm1 hm2 ⊢
    constructor
    · intro h a ha b hb
      have h1 := hM2 (a.pos i) (List.mem_map.2 ⟨a, ha, rfl⟩)
      have h2 := hm2 (b.pos i) (List.mem_map.2 ⟨b, hb, rfl⟩)
      linarith
    · intro h
      obtain ⟨a, ha, rfl⟩ := List.mem_map.1 hM1
      obtain ⟨b, hb, rfl⟩ := List.mem_map.1 hm1
      have := h a ha b hb
      linarith

theorem judgeVacuum_spec (s : Struct ℝ) (hs : s.sites ≠ []) :
    ∃ v : Fin 3 → Bool, s.judgeVacuum = .ok [v 0, v 1, v 2] ∧
      ∀ i, v i = true ↔ WithinRange s i (norm3 (s.lattice i) - 10) := by
  choose v h1 h2 using fun i => vacuumAlong_spec s i hs
  refine ⟨v, ?_, h2⟩
  exact mapM_eq_ok.2 (.cons (h1 0) (.cons (h1 1) (.cons (h1 2) .nil)))

theorem pyRound_near (q : ℝ) : |(pyRound q : ℝ) - q| ≤ 1 / 2 := by
  have h1 := Int.floor_le q
  have h2 := Int.lt_floor_add_one q
  unfold pyRound
  simp only
  rw [abs_le]
  split
  · constructor <;> linarith
  · split
    · push_cast
      constructor <;> linarith
    · have : q - ⌊q⌋ = 1 / 2 := by linarith
      split
      · constructor <;> linarith
      · push_cast
        constructor <;> linarith

theorem pyRound_nonneg (q : ℝ) (h : 0 ≤ q) : 0 ≤ pyRound q := by
  have h1 := Int.floor_nonneg.2 h
  unfold pyRound
  simp only
  split
  · exact h1
  · split
    · omega
    · split
      · exact h1
      · omega

theorem pyRound_intCast (n : ℤ) : pyRound (n : ℝ) = n := by
  unfold pyRound
  simp

theorem genPath_error (kpts : KDict) (b : Matrix (Fin 3) (Fin 3) ℝ) (density : ℝ)
    (prev : Option (Str × Vec ℚ)) (path : List Str) (h : ∃ k ∈ path, k ∉ kpts.map Prod.fst) :
    ∃ e, genPath kpts b density prev path = .error e := by
  induction path generalizing prev with
  | nil => simp at h
  | cons p ps ih =>
    cases hg : pyDictGet kpts p with
    | error e => cases prev <;> exact ⟨e, by simp only [genPath, hg]; rfl⟩
    | ok c =>
      have hrest : ∃ k ∈ ps, k ∉ kpts.map Prod.fst := by
        obtain ⟨k, hk, hno⟩ := h
        rcases List.mem_cons.1 hk with rfl | hk
        · exfalso
          have : pyDictGet kpts k = .error .keyError :=
            (pyDictGet_err kpts k).2 (fun v hv => hno (List.mem_map.2 ⟨_, hv, rfl⟩))
          rw [this] at hg
          cases hg
        · exact ⟨k, hk, hno⟩
      cases prev with
      | none =>
        simp only [genPath, hg, ok_bind]
        exact ih _ hrest
      | some q =>
        obtain ⟨e, he⟩ := ih (some (p, c)) hrest
        simp only [genPath, hg, ok_bind, he]
        exact ⟨e, rfl⟩

theorem genPath_error_kind {kpts : KDict} {b : Matrix (Fin 3) (Fin 3) ℝ} {density : ℝ}
    {prev : Option (Str × Vec ℚ)} {path : List Str} {e : PyErr}
    (h : genPath kpts b density prev path = .error e) : e = .keyError := by
  induction path generalizing prev with
  | nil => cases prev <;> cases h
  | cons p ps ih =>
    cases hg : pyDictGet kpts p with
    | error e' =>
      have hk := pyDictGet_error_kind _ _ _ hg
      cases prev <;> simp only [genPath, hg, error_bind] at h <;> cases h <;> exact hk
    | ok c =>
      cases prev with
      | none =>
        simp only [genPath, hg, ok_bind] at h
        exact ih h
      | some q =>
        simp only [genPath, hg, ok_bind] at h
        cases hr : genPath kpts b density (some (p, c)) ps with
        | ok r => rw [hr] at h; cases h
        | error e'' =>
          rw [hr] at h
          cases h
          exact ih hr

theorem genPath_some (kpts : KDict) (b : Matrix (Fin 3) (Fin 3) ℝ) (density : ℝ)
    (path : List Str) (x0 : Str) (u0 : Vec ℚ)
    (h : ∀ k ∈ path, ∃ c, pyDictGet kpts k = .ok c) (h0 : pyDictGet kpts x0 = .ok u0) :
    ∃ ss, genPath kpts b density (some (x0, u0)) path = .ok ss ∧ ss.length = path.length ∧
      ∀ i x y, (x0 :: path)[i]? = some x → (x0 :: path)[i + 1]? = some y →
        ∃ u v, pyDictGet kpts x = .ok u ∧ pyDictGet kpts y = .ok v ∧
          ss[i]? = some ⟨numBandpoint b density u v, (x, u), (y, v)⟩ := by
  induction path generalizing x0 u0 with
  | nil => exact ⟨[], rfl, rfl, by simp⟩
  | cons p ps ih =>
    obtain ⟨c, hc⟩ := h p (by simp)
    obtain ⟨ss, h1, h2, h3⟩ := ih p c (fun k hk => h k (by simp [hk])) hc
    refine ⟨⟨numBandpoint b density u0 c, (x0, u0), (p, c)⟩ :: ss, ?_, by simp [h2], ?_⟩
    · simp only [genPath, hc, ok_bind, h1]
      rfl
    · intro i x y hx hy
      cases i with
      | zero =>
        obtain rfl : x0 = x := by simpa using hx
        obtain rfl : p = y := by simpa using hy
        exact ⟨u0, c, h0, hc, rfl⟩
      | succ i =>
        obtain ⟨u, v, g1, g2, g3⟩ := h3 i x y (by simpa using hx) (by simpa using hy)
        exact ⟨u, v, g1, g2, by simpa using g3⟩

theorem genPath_spec (kpts : KDict) (b : Matrix (Fin 3) (Fin 3) ℝ) (density : ℝ) (path : List Str)
    (h : ∀ k ∈ path, ∃ c, pyDictGet kpts k = .ok c) :
    ∃ ss, genPath kpts b density none path = .ok ss ∧ ss.length = path.length - 1 ∧
      ∀ i x y, path[i]? = some x → path[i + 1]? = some y →
        ∃ u v, pyDictGet kpts x = .ok u ∧ pyDictGet kpts y = .ok v ∧
          ss[i]? = some ⟨numBandpoint b density u v, (x, u), (y, v)⟩ := by
  cases path with
  | nil => exact ⟨[], rfl, rfl, by simp⟩
  | cons p ps =>
    obtain ⟨c, hc⟩ := h p (by simp)
    obtain ⟨ss, h1, h2, h3⟩ := genPath_some kpts b density ps p c (fun k hk => h k (by simp [hk])) hc
    refine ⟨ss, ?_, by simpa using h2, h3⟩
    simp only [genPath, hc, ok_bind, h1]

end MaterSDK
