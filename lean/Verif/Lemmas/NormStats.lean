import Verif.Lemmas.NormBuild
import Verif.Spec.NormBuild
import Verif.Props.DeepMDNorm
import Verif.Lemmas.DeepMDMove

/-! # The statistics of a normaliser against the atoms of its frames -/

namespace MaterSDK

open Classical

theorem calcStd_eq (s2 s : ℝ) (n : ℕ) (h : n = 0 ∨ (s / n) ^ 2 ≤ s2 / n) :
    calcStd s2 s n = some (max (1 / 100) (Real.sqrt (s2 / n - (s / n) ^ 2))) := by
  unfold calcStd
  by_cases h0 : n = 0
  · subst h0
    simp
  · rw [if_neg h0]
    have h1 := h.resolve_left h0
    simp only
    rw [if_neg (by rw [← sq]; linarith), ← sq, abs_of_nonneg (Real.sqrt_nonneg _)]
    split
    · rw [max_eq_left (by linarith)]
    · rw [max_eq_right (by linarith)]

theorem sum_angles (rows : List (Fin 4 → ℝ)) :
    (rows.flatMap (fun v => [v 1, v 2, v 3])).sum = (rows.map (fun v => v 1 + v 2 + v 3)).sum ∧
    ((rows.flatMap (fun v => [v 1, v 2, v 3])).map (fun x => x * x)).sum
      = (rows.map (fun v => v 1 ^ 2 + v 2 ^ 2 + v 3 ^ 2)).sum := by
  induction rows with
  | nil => simp
  | cons v rows ih =>
    constructor
    · rw [List.flatMap_cons, List.sum_append, ih.1]
      simp; ring
    · rw [List.flatMap_cons, List.map_append, List.sum_append, ih.2]
      simp; ring

/-- The statistics of a list of rows. -/
theorem calcPairStats_isStats (rows : List (Fin 4 → ℝ)) :
    IsStats rows rows.length (calcPairStats rows).davg (calcPairStats rows).dstd := by
  have hnum : ∀ q, ∃ σ, (calcPairStats rows).dstd q = some σ := fun q => by
    obtain ⟨σ, h, _⟩ := C30_samples_partial rows q
    exact ⟨σ, h⟩
  have e0 : (calcPairStats rows).dstd 0 = calcStd ((rows.map (fun v => v 0)).map (fun x => x * x)).sum
      (rows.map (fun v => v 0)).sum (rows.map (fun v => v 0)).length := rfl
  have e1 : ∀ q, q ≠ 0 → (calcPairStats rows).dstd q =
      calcStd (((rows.flatMap (fun v => [v 1, v 2, v 3])).map (fun x => x * x)).sum / 3)
      ((rows.flatMap (fun v => [v 1, v 2, v 3])).sum / 3) (rows.map (fun v => v 0)).length := by
    intro q hq
    fin_cases q
    · exact absurd rfl hq
    · rfl
    · rfl
    · rfl
  unfold IsStats weightVar angleVar angleMean
  refine ⟨?_, ?_, fun q hq => ⟨?_, ?_⟩⟩
  · simp [calcPairStats]
  · have := hnum 0
    rw [e0] at this ⊢
    rw [C30_number_iff] at this
    rw [calcStd_eq _ _ _ this, List.map_map, List.length_map]
    simp only [Function.comp_def, sq]
  · exact (C30_average rows).2 q hq
  · have := hnum q
    rw [e1 q hq] at this ⊢
    rw [C30_number_iff] at this
    rw [calcStd_eq _ _ _ this, List.length_map, (sum_angles rows).1, (sum_angles rows).2]
    simp only [div_div]

theorem IsStats.zeros {rows : List (Fin 4 → ℝ)} {n k : ℕ} {davg : Fin 4 → ℝ} {dstd : Fin 4 → Option ℝ}
    (h : IsStats (rows ++ List.replicate k 0) n davg dstd) : IsStats rows n davg dstd := by
  unfold IsStats weightVar angleVar angleMean at h ⊢
  simpa using h

theorem PadPerm.isStats {x y : List (Fin 4 → ℝ)} (h : PadPerm x y) :
    IsStats y x.length (calcPairStats x).davg (calcPairStats x).dstd := by
  obtain ⟨k, hk⟩ := h
  rw [calcPairStats_perm hk, hk.length_eq]
  exact IsStats.zeros (calcPairStats_isStats _)

theorem listedRow_eq (rcut rs : ℝ) (hrs : rs < rcut) (nz : ℕ) (p x : Vec ℝ) :
    envRow rcut rs (nz, dist3 p x, p - x) = listedRow rcut rs p x := by
  have hw : getS rcut rs (dist3 p x) = if dist3 p x < rcut then smoothWeight rcut rs (dist3 p x)
      else 1 / dist3 p x := by
    split
    · rename_i h
      exact getS_smoothWeight hrs h
    · rename_i h
      unfold getS
      simp only
      rw [if_neg (fun hc => h hc.2), recip_eq, one_div]
  ext a
  unfold listedRow
  simp only [← hw]
  fin_cases a <;> simp [envRow, recip_eq] <;> ring

/-- The neighbour table of a structure: one row per atom in sorted order. -/
theorem table_rows (A : ArgSort) (s S : Struct ℝ) (hL : s.lattice.det ≠ 0) (hsep : Separated s)
    (hne : s.sites ≠ []) (r : ℝ) (hr : 0 ≤ r) (sc : Fin 3 → ℤ) (m : Fin 3 → ℕ)
    (h : ∀ i, sc i = 2 * (m i : ℤ) + 1) (hS : s.makeSupercell sc true = .ok S) :
    ∃ table, neighborTable A s r sc = .ok table ∧ table ≠ [] ∧ (∀ row ∈ table, row ≠ []) ∧
      ∀ cz, List.Forall₂ (fun c row => ∀ nz, 0 < nz → (pairEntries row nz).Perm
          ((nbrsOf S c.pos r nz).map (fun t => (nz, dist3 t.pos c.pos, t.pos - c.pos))))
        (s.reformat_.sites.filter (fun c => c.z = cz)) (table.filter (centreIs cz)) := by
  obtain ⟨table, t1, t2⟩ := row_split A s S r hr sc m h hS (supercell_nodup s S hL hsep sc m h hS)
  refine ⟨table, t1, ?_, ?_, ?_⟩
  · intro h0
    rw [h0] at t2
    have := t2.length_eq
    rw [Struct.reformat_, (sortByKey_perm _ _).length_eq] at this
    exact hne (List.length_eq_zero_iff.1 this)
  · intro row hrow
    obtain ⟨i, hi, rfl⟩ := List.mem_iff_getElem.1 hrow
    obtain ⟨rest, k, g, _⟩ := t2.get (by rw [t2.length_eq]; exact hi) hi
    simp only [List.get_eq_getElem] at g
    rw [g]
    simp
  · intro cz
    have t3 : List.Forall₂ (fun c row => row.head?.map Prod.fst = some c.z ∧
        ∀ nz, 0 < nz → (pairEntries row nz).Perm
          ((nbrsOf S c.pos r nz).map (fun t => (nz, dist3 t.pos c.pos, t.pos - c.pos))))
        s.reformat_.sites table := by
      refine t2.imp ?_
      rintro c row ⟨rest, k, rfl, g1, g2, g3⟩
      exact ⟨rfl, fun nz hnz => (pairEntries_spec S c r nz hnz rest k g1 g2 g3).1⟩
    refine (forall₂_filter (p := fun c : Site ℝ => decide (c.z = cz)) (q := centreIs cz) t3 ?_).imp
      (fun c row h => h.2)
    rintro c row ⟨g, _⟩
    rw [centreIs, g]; simp

theorem forall₂_mem_right {α β : Type} {R : α → β → Prop} {as : List α} {bs : List β}
    (h : List.Forall₂ R as bs) (b : β) (hb : b ∈ bs) : ∃ a ∈ as, R a b := by
  induction h with
  | nil => simp at hb
  | cons h1 _ ih =>
    rcases List.mem_cons.1 hb with rfl | hb
    · exact ⟨_, by simp, h1⟩
    · obtain ⟨a, ha, hab⟩ := ih hb
      exact ⟨a, by simp [ha], hab⟩

/-- The rows of one frame against the atoms and their neighbours. -/
theorem frame_samples (A : ArgSort) (rcut rs : ℝ) (hr : 0 ≤ rcut) (hrs : rs < rcut) (sc : Fin 3 → ℤ)
    (m : Fin 3 → ℕ) (h : ∀ i, sc i = 2 * (m i : ℤ) + 1) (f : Struct ℝ × Struct ℝ) (hf : GoodFrame sc f)
    (cz : ℕ) (nbrs ws : List ℕ) (hlen : ws.length = nbrs.length) (hnn : nbrs ≠ [])
    (hpos : ∀ nz ∈ nbrs, 0 < nz)
    (hw : ∀ p ∈ nbrs.zip ws, ∀ c ∈ f.1.sites, c.z = cz → (nbrsOf f.2 c.pos rcut p.1).length ≤ p.2) :
    ∃ table out, neighborTable A f.1 rcut sc = .ok table ∧
      frameTildeR rcut rs table cz nbrs (ws.map (Nat.cast : ℕ → ℤ)) = .ok out ∧
      out.length = atomCount f.1 cz ∧ (∀ row ∈ out, row.length = ws.sum) ∧
      PadPerm out.flatten (sampleRows rcut rs [f] cz nbrs) := by
  obtain ⟨table, t1, t2, t3, t4⟩ := table_rows A f.1 f.2 hf.det hf.sep hf.ne rcut hr sc m h hf.super
  have t4 := t4 cz
  have hle : ∀ p ∈ nbrs.zip ws, ∀ r ∈ table.filter (centreIs cz), (pairEntries r p.1).length ≤ p.2 := by
    intro p hp r hrm
    obtain ⟨c, hc, hcr⟩ := forall₂_mem_right t4 r hrm
    have := hcr p.1 (hpos p.1 (List.of_mem_zip hp).1)
    rw [this.length_eq, List.length_map]
    obtain ⟨h1, h2⟩ := centres_mem hc
    exact hw p hp c h1 h2
  refine ⟨table, _, t1, frameTildeR_ok rcut rs table t2 t3 cz nbrs ws hlen hnn hle, ?_, ?_, ?_⟩
  · rw [List.length_map, ← t4.length_eq, atomCount, List.countP_eq_length_filter]
    exact ((sortByKey_perm _ _).filter _).length_eq
  · intro row hrow
    obtain ⟨r, hrm, rfl⟩ := List.mem_map.1 hrow
    rw [List.length_flatMap]
    have : (nbrs.zip ws).map (fun p => (padRow rcut rs r p.1 p.2).length) = ws := by
      have : (nbrs.zip ws).map (fun p => (padRow rcut rs r p.1 p.2).length) = (nbrs.zip ws).map Prod.snd :=
        List.map_congr_left (fun p hp => padRow_length _ _ _ _ _ (hle p hp r hrm))
      rw [this, List.map_snd_zip (by omega)]
    rw [this]
  · rw [← List.flatMap_def]
    unfold sampleRows
    rw [List.flatMap_cons, List.flatMap_nil, List.append_nil]
    have hperm : (f.1.reformat_.sites.filter (fun c => decide (c.z = cz))).Perm
        (f.1.sites.filter (fun c => decide (c.z = cz))) := (sortByKey_perm _ _).filter _
    refine PadPerm.perm_right ?_ (hperm.flatMap_right _)
    apply PadPerm.flatten₂
    refine List.Forall₂.flip (t4.imp ?_)
    intro c row hcr
    have e1 : nbrs.flatMap (fun nz => (nbrsOf f.2 c.pos rcut nz).map
        (fun t => listedRow rcut rs t.pos c.pos)) = (nbrs.zip ws).flatMap (fun p =>
        (nbrsOf f.2 c.pos rcut p.1).map (fun t => listedRow rcut rs t.pos c.pos)) := by
      conv_lhs => rw [← List.map_fst_zip (l₁ := nbrs) (l₂ := ws) (by omega)]
      rw [List.flatMap_map]
    show PadPerm _ (nbrs.flatMap _)
    rw [e1]
    apply PadPerm.flatten
    intro p hp
    refine (padRow_pad rcut rs row p.1 p.2).perm_right ?_
    refine ((hcr p.1 (hpos p.1 (List.of_mem_zip hp).1)).map _).trans ?_
    rw [List.map_map]
    apply List.Perm.of_eq
    apply List.map_congr_left
    intro t _
    exact listedRow_eq rcut rs hrs p.1 t.pos c.pos

theorem sampleRows_cons (rcut rs : ℝ) (f : Struct ℝ × Struct ℝ) (fs : List (Struct ℝ × Struct ℝ)) (cz : ℕ)
    (nbrs : List ℕ) : sampleRows rcut rs (f :: fs) cz nbrs
      = sampleRows rcut rs [f] cz nbrs ++ sampleRows rcut rs fs cz nbrs := by
  simp [sampleRows]

/-- The frames of one centre element. -/
theorem frames_samples (A : ArgSort) (rcut rs : ℝ) (hr : 0 ≤ rcut) (hrs : rs < rcut) (sc : Fin 3 → ℤ)
    (m : Fin 3 → ℕ) (h : ∀ i, sc i = 2 * (m i : ℤ) + 1) (frames : List (Struct ℝ × Struct ℝ))
    (hf : ∀ f ∈ frames, GoodFrame sc f) (cz : ℕ) (nbrs ws : List ℕ) (hlen : ws.length = nbrs.length)
    (hnn : nbrs ≠ []) (hpos : ∀ nz ∈ nbrs, 0 < nz)
    (hw : ∀ f ∈ frames, ∀ p ∈ nbrs.zip ws, ∀ c ∈ f.1.sites, c.z = cz →
      (nbrsOf f.2 c.pos rcut p.1).length ≤ p.2) :
    ∃ outs : List (List (List (Fin 4 → ℝ))), (frames.map Prod.fst).mapM (fun s => do
        let table ← neighborTable A s rcut sc
        frameTildeR rcut rs table cz nbrs (ws.map (Nat.cast : ℕ → ℤ))) = .ok outs ∧
      outs.map List.length = frames.map (fun f => atomCount f.1 cz) ∧
      outs.flatten.flatten.length = (frames.map (fun f => atomCount f.1 cz)).sum * ws.sum ∧
      PadPerm outs.flatten.flatten (sampleRows rcut rs frames cz nbrs) := by
  induction frames with
  | nil => exact ⟨[], rfl, rfl, by simp, PadPerm.nil⟩
  | cons f fs ih =>
    obtain ⟨outs, o1, o2, o3, o4⟩ := ih (fun g hg => hf g (by simp [hg])) (fun g hg => hw g (by simp [hg]))
    obtain ⟨table, out, t1, t2, t3, t4, t5⟩ := frame_samples A rcut rs hr hrs sc m h f (hf f (by simp)) cz
      nbrs ws hlen hnn hpos (hw f (by simp))
    refine ⟨out :: outs, ?_, ?_, ?_, ?_⟩
    · rw [List.map_cons, List.mapM_cons, t1, ok_bind, t2, ok_bind, o1, ok_bind]
      rfl
    · rw [List.map_cons, List.map_cons, t3, o2]
    · rw [List.flatten_cons, List.flatten_append, List.length_append, o3, List.map_cons, List.sum_cons,
        Nat.add_mul, ← t3, List.length_flatten]
      congr 1
      rw [List.map_congr_left (g := fun _ => ws.sum) t4]
      simp
    · rw [sampleRows_cons, List.flatten_cons, List.flatten_append]
      exact t5.append o4

theorem pyGetI_picks {structures : List (Struct ℝ)} {i : ℤ} {s : Struct ℝ} :
    pyGetI structures i = .ok s ↔ Picks structures i s := by
  unfold pyGetI Picks
  simp only
  by_cases h1 : i < 0
  · rw [if_pos h1]
    by_cases h2 : i + (structures.length : ℤ) < 0
    · rw [if_pos h2]
      refine ⟨fun h => (by cases h), ?_⟩
      rintro ⟨k, -, h3⟩
      omega
    · rw [if_neg h2, pyGet_eq_ok]
      refine ⟨fun h => ⟨_, h, Or.inr (by omega)⟩, ?_⟩
      rintro ⟨k, h3, h4⟩
      rw [show (i + (structures.length : ℤ)).toNat = k by omega]
      exact h3
  · rw [if_neg h1, if_neg h1, pyGet_eq_ok]
    refine ⟨fun h => ⟨_, h, Or.inl (by omega)⟩, ?_⟩
    rintro ⟨k, h3, h4⟩
    have hk := (List.getElem?_eq_some_iff.1 h3).1
    rw [show i.toNat = k by omega]
    exact h3

/-- The rows of one centre element of the system. -/
theorem systemTildeR_eq (A : ArgSort) (structures : List (Struct ℝ)) (idx : List ℤ) (rcut rs : ℝ)
    (hr : 0 ≤ rcut) (hrs : rs < rcut) (sc : Fin 3 → ℤ) (m : Fin 3 → ℕ) (h : ∀ i, sc i = 2 * (m i : ℤ) + 1)
    (frames : List (Struct ℝ × Struct ℝ)) (hidx : List.Forall₂ (fun i f => Picks structures i f.1) idx frames)
    (hf : ∀ f ∈ frames, GoodFrame sc f) (cz : ℕ) (nbrs ws : List ℕ) (hlen : ws.length = nbrs.length)
    (hnn : nbrs ≠ []) (hpos : ∀ nz ∈ nbrs, 0 < nz)
    (hw : ∀ f ∈ frames, ∀ p ∈ nbrs.zip ws, ∀ c ∈ f.1.sites, c.z = cz →
      (nbrsOf f.2 c.pos rcut p.1).length ≤ p.2) :
    (systemTildeR A structures idx rcut rs sc cz nbrs (ws.map (Nat.cast : ℕ → ℤ)) = .error .valueError ∧
      ¬ (frames ≠ [] ∧ ∀ f ∈ frames, ∀ g ∈ frames, atomCount f.1 cz = atomCount g.1 cz)) ∨
    ((frames ≠ [] ∧ ∀ f ∈ frames, ∀ g ∈ frames, atomCount f.1 cz = atomCount g.1 cz) ∧
      ∃ out, systemTildeR A structures idx rcut rs sc cz nbrs (ws.map (Nat.cast : ℕ → ℤ)) = .ok out ∧
      out.flatten.length = (frames.map (fun f => atomCount f.1 cz)).sum * ws.sum ∧
      PadPerm out.flatten (sampleRows rcut rs frames cz nbrs)) := by
  obtain ⟨outs, o1, o2, o3, o4⟩ := frames_samples A rcut rs hr hrs sc m h frames hf cz nbrs ws hlen hnn hpos hw
  have hc : idx.mapM (pyGetI structures) = .ok (frames.map Prod.fst) := by
    rw [mapM_eq_ok, List.forall₂_map_right_iff]
    exact hidx.imp (fun i f hp => pyGetI_picks.2 hp)
  have e : systemTildeR A structures idx rcut rs sc cz nbrs (ws.map (Nat.cast : ℕ → ℤ)) = concatAxis1 outs := by
    unfold systemTildeR
    rw [hc, ok_bind, o1, ok_bind]
  have hiff : (∃ out, concatAxis1 outs = .ok out) ↔
      (frames ≠ [] ∧ ∀ f ∈ frames, ∀ g ∈ frames, atomCount f.1 cz = atomCount g.1 cz) := by
    rw [concatAxis1_iff]
    have h1 : outs ≠ [] ↔ frames ≠ [] := by
      have := congrArg List.length o2
      simp only [List.length_map] at this
      rw [← List.length_pos_iff, ← List.length_pos_iff, this]
    have h2 : (∀ b ∈ outs, ∀ c ∈ outs, b.length = c.length) ↔
        ∀ x ∈ outs.map List.length, ∀ y ∈ outs.map List.length, x = y := by simp
    rw [h1, h2, o2]
    simp only [List.forall_mem_map]
  rw [e]
  by_cases hok : ∃ out, concatAxis1 outs = .ok out
  · right
    obtain ⟨out, ho⟩ := hok
    have hp := concatAxis1_perm outs out ho
    exact ⟨hiff.1 ⟨out, ho⟩, out, ho, by rw [hp.length_eq, o3], o4.perm_left hp⟩
  · left
    exact ⟨concatAxis1_error _ hok, fun hn => hok (hiff.2 hn)⟩

/-- The rows of one centre element in the result of `normalize`, for equal lists of elements. -/
theorem normalize_rows (rcut rs : ℝ) (hrs : rcut - rs ≠ 0) (els ws : List ℕ) (davgs dstds : List (Fin 4 → ℝ))
    (N : Normalizer) (hN : mkNormalizer rcut rs els els (ws.map (Nat.cast : ℕ → ℤ)) davgs dstds = .ok N)
    (hlen : ws.length = els.length) (hnd : els.Nodup) (hne : els ≠ [])
    (table : List (List NbrEntry)) (htab : table ≠ []) (hrows : ∀ r ∈ table, r ≠ [])
    (hw : ∀ cz ∈ els, ∀ p ∈ els.zip ws, ∀ r ∈ table.filter (centreIs cz), (pairEntries r p.1).length ≤ p.2) :
    ∃ R D, N.normalize table = .ok (R, D) ∧
      ∀ (i cz : ℕ) (davg dstd : Fin 4 → ℝ), els[i]? = some cz → davgs[i]? = some davg →
        dstds[i]? = some dstd →
        (R.drop ((els.take i).map (fun c => (table.filter (centreIs c)).length)).sum).take
            (table.filter (centreIs cz)).length
          = (table.filter (centreIs cz)).map (fun r => ((els.zip ws).flatMap
              (fun p => padRow rcut rs r p.1 p.2)).map (normalizeRow davg dstd)) := by
  unfold mkNormalizer at hN
  split at hN
  · cases hN
  rename_i hl
  push Not at hl
  obtain rfl := (Except.ok.inj hN).symm
  -- the derivative blocks
  have hder : ∀ i k cz nz w : ℕ, els[i]? = some cz → els[k]? = some nz → ws[k]? = some w →
      ∃ Dp, calcDerivative rcut rs table cz nz w = .ok Dp ∧ Dp.length = (table.filter (centreIs cz)).length := by
    intro i k cz nz w hi hk hkw
    have hmem : (nz, w) ∈ els.zip ws := by
      rw [List.mem_iff_getElem?]
      exact ⟨k, by rw [List.getElem?_zip_eq_some]; exact ⟨hk, hkw⟩⟩
    have hcz := List.mem_of_getElem? hi
    obtain ⟨arr, R, D, _, _, e3, _, e5, _⟩ := pair_arrays table htab hrows rcut rs hrs cz nz w (by
      intro c nbrs hc hz
      have := hw cz hcz (nz, w) hmem (c :: nbrs) (List.mem_filter.2 ⟨hc, by simp [centreIs, hz]⟩)
      rw [List.countP_eq_length_filter]
      simpa [pairEntries] using this)
    exact ⟨D, e3, by rw [e5, numCentres, List.countP_eq_length_filter]; rfl⟩
  have hder' : ∀ i k : ℕ, ∃ Dp : List (List (Matrix (Fin 4) (Fin 3) ℝ)), ∀ cz nz w : ℕ, els[i]? = some cz →
      els[k]? = some nz → ws[k]? = some w →
      calcDerivative rcut rs table cz nz w = .ok Dp ∧ Dp.length = (table.filter (centreIs cz)).length := by
    intro i k
    by_cases hh : ∃ cz nz w : ℕ, els[i]? = some cz ∧ els[k]? = some nz ∧ ws[k]? = some w
    · obtain ⟨cz, nz, w, h1, h2, h3⟩ := hh
      obtain ⟨Dp, hD⟩ := hder i k cz nz w h1 h2 h3
      refine ⟨Dp, fun cz' nz' w' g1 g2 g3 => ?_⟩
      rw [h1] at g1; rw [h2] at g2; rw [h3] at g3
      cases g1; cases g2; cases g3
      exact hD
    · exact ⟨[], fun cz nz w g1 g2 g3 => absurd ⟨cz, nz, w, g1, g2, g3⟩ hh⟩
  choose Dp hDp using hder'
  let B : ℕ → ℕ → NormBlock := fun i k =>
    ((table.filter (centreIs (els[i]?.getD 0))).map (fun r =>
      (padRow rcut rs r (els[k]?.getD 0) (ws[k]?.getD 0)).map
        (normalizeRow (davgs[i]?.getD 0) (dstds[i]?.getD 0))),
      (Dp i k).map (List.map (normalizeDeriv (dstds[i]?.getD 0))))
  have hws : ∀ k nz : ℕ, els[k]? = some nz → ∃ w, ws[k]? = some w := by
    intro k nz h1
    have hk : k < ws.length := by rw [hlen]; exact (List.getElem?_eq_some_iff.1 h1).1
    exact ⟨_, List.getElem?_eq_getElem hk⟩
  have hdv : ∀ i cz : ℕ, els[i]? = some cz → ∃ a b, davgs[i]? = some a ∧ dstds[i]? = some b := by
    intro i cz h1
    have hi := (List.getElem?_eq_some_iff.1 h1).1
    exact ⟨_, _, List.getElem?_eq_getElem (by omega), List.getElem?_eq_getElem (by omega)⟩
  obtain ⟨R, D, r1, r2, r3, r4⟩ := normalize_core
    ⟨rcut, rs, els, els, ws.map (Nat.cast : ℕ → ℤ), davgs, dstds⟩ table B (by
      intro i k cz nz h1 h2
      simp only at h1 h2
      obtain ⟨w, hw'⟩ := hws k nz h2
      obtain ⟨a, b, ha, hb⟩ := hdv i cz h1
      have hmem : (nz, w) ∈ els.zip ws := by
        rw [List.mem_iff_getElem?]
        exact ⟨k, by rw [List.getElem?_zip_eq_some]; exact ⟨h2, hw'⟩⟩
      obtain ⟨arr, e1, e2⟩ := pad_block rcut rs table htab hrows cz nz w
        (hw cz (List.mem_of_getElem? h1) (nz, w) hmem)
      unfold Normalizer.block
      simp only
      rw [e1, ok_bind, pyGet_eq_ok.2 (show (ws.map (Nat.cast : ℕ → ℤ))[k]? = some (w : ℤ) by
        rw [List.getElem?_map, hw']; rfl), ok_bind, e2, ok_bind, (hDp i k cz nz w h1 h2 hw').1, ok_bind,
        pyGet_eq_ok.2 ha, ok_bind, pyGet_eq_ok.2 hb, ok_bind]
      simp only [B, h1, h2, hw', ha, hb, Option.getD_some, List.map_map]
      rfl) hnd hnd (fun _ h => h) hne (fun c => (table.filter (centreIs c)).length) (by
      intro i k cz h1 hk
      simp only at h1 hk
      obtain ⟨w, hw'⟩ := hws k _ (List.getElem?_eq_getElem hk)
      simp only [B, List.length_map, h1, Option.getD_some, true_and]
      exact (hDp i k cz _ w h1 (List.getElem?_eq_getElem hk) hw').2)
  refine ⟨R, D, r1, ?_⟩
  intro i cz davg dstd h1 ha hb
  simp only at r2 r4
  have hsum : ((els.take i).map (fun c => (table.filter (centreIs c)).length)).sum
      + (table.filter (centreIs cz)).length ≤ R.length := by
    rw [r2]
    have hi := (List.getElem?_eq_some_iff.1 h1).1
    conv_rhs => rw [← List.take_append_drop i els]
    rw [List.map_append, List.sum_append]
    have : els.drop i = cz :: els.drop (i + 1) := by
      rw [List.drop_eq_getElem_cons hi, (List.getElem?_eq_some_iff.1 h1).2]
    rw [this, List.map_cons, List.sum_cons]
    omega
  apply List.ext_getElem?
  intro a
  by_cases hlt : a < (table.filter (centreIs cz)).length
  · rw [List.getElem?_take_of_lt hlt, List.getElem?_drop, (r4 i cz a h1 hlt).1, List.getElem?_map,
      List.getElem?_eq_getElem hlt, Option.map_some]
    congr 1
    rw [List.map_flatMap, List.flatMap_def]
    congr 1
    apply List.ext_getElem?
    intro k
    rw [List.getElem?_map, List.getElem?_map]
    by_cases hk : k < els.length
    · have hz : (els.zip ws)[k]? = some (els[k], ws[k]'(by omega)) := by
        rw [List.getElem?_zip_eq_some]
        exact ⟨List.getElem?_eq_getElem hk, List.getElem?_eq_getElem (by omega)⟩
      rw [hz, List.getElem?_eq_getElem hk, Option.map_some, Option.map_some]
      congr 1
      simp only [B]
      rw [hnd.idxOf_getElem k hk, List.getElem?_map, h1, Option.getD_some, List.getElem?_eq_getElem hlt,
        List.getElem?_eq_getElem hk, List.getElem?_eq_getElem (show k < ws.length by omega), ha, hb]
      rfl
    · rw [List.getElem?_eq_none (by omega), List.getElem?_eq_none (by simp; omega)]
      rfl
  · rw [List.getElem?_eq_none (by rw [List.length_take]; omega), List.getElem?_eq_none (by simp; omega)]

/-- A frame of the system, normalised. -/
theorem frame_normalized (A : ArgSort) (rcut rs : ℝ) (hr : 0 ≤ rcut) (hrs : rs < rcut) (sc : Fin 3 → ℤ)
    (m : Fin 3 → ℕ) (h : ∀ i, sc i = 2 * (m i : ℤ) + 1) (f : Struct ℝ × Struct ℝ) (hf : GoodFrame sc f)
    (els ws : List ℕ) (hlen : ws.length = els.length) (hnd : els.Nodup) (hne : els ≠ [])
    (hpos : ∀ nz ∈ els, 0 < nz)
    (hw : ∀ p ∈ els.zip ws, ∀ c ∈ f.1.sites, c.z ∈ els → (nbrsOf f.2 c.pos rcut p.1).length ≤ p.2)
    (davgs dstds : List (Fin 4 → ℝ)) (N : Normalizer)
    (hN : mkNormalizer rcut rs els els (ws.map (Nat.cast : ℕ → ℤ)) davgs dstds = .ok N) :
    ∃ table R D, neighborTable A f.1 rcut sc = .ok table ∧ N.normalize table = .ok (R, D) ∧
      ∀ (i cz : ℕ) (davg dstd : Fin 4 → ℝ), els[i]? = some cz → davgs[i]? = some davg →
        dstds[i]? = some dstd → ∃ Z : List (List (Fin 4 → ℝ)),
          (R.drop ((els.take i).map (atomCount f.1)).sum).take (atomCount f.1 cz)
            = Z.map (List.map (normalizeRow davg dstd)) ∧
          Z.flatten.length = atomCount f.1 cz * ws.sum ∧
          PadPerm Z.flatten (sampleRows rcut rs [f] cz els) := by
  obtain ⟨table, t1, t2, t3, t4⟩ := table_rows A f.1 f.2 hf.det hf.sep hf.ne rcut hr sc m h hf.super
  have hle : ∀ cz ∈ els, ∀ p ∈ els.zip ws, ∀ r ∈ table.filter (centreIs cz),
      (pairEntries r p.1).length ≤ p.2 := by
    intro cz hcz p hp r hrm
    obtain ⟨c, hc, hcr⟩ := forall₂_mem_right (t4 cz) r hrm
    have := hcr p.1 (hpos p.1 (List.of_mem_zip hp).1)
    rw [this.length_eq, List.length_map]
    obtain ⟨h1, h2⟩ := centres_mem hc
    exact hw p hp c h1 (h2 ▸ hcz)
  have hcount : ∀ cz, (table.filter (centreIs cz)).length = atomCount f.1 cz := by
    intro cz
    rw [← (t4 cz).length_eq, atomCount, List.countP_eq_length_filter]
    exact ((sortByKey_perm _ _).filter _).length_eq
  obtain ⟨R, D, r1, r2⟩ := normalize_rows rcut rs (sub_pos.2 hrs).ne' els ws davgs dstds N hN hlen hnd hne
    table t2 t3 hle
  refine ⟨table, R, D, t1, r1, ?_⟩
  intro i cz davg dstd h1 h2 h3
  have hcz := List.mem_of_getElem? h1
  have hR := r2 i cz davg dstd h1 h2 h3
  simp only [hcount] at hR
  obtain ⟨table', out, g1, g2, g3, g4, g5⟩ := frame_samples A rcut rs hr hrs sc m h f hf cz els ws hlen hne
    hpos (fun p hp c hc hz => hw p hp c hc (hz ▸ hcz))
  rw [t1] at g1
  cases g1
  rw [frameTildeR_ok rcut rs table t2 t3 cz els ws hlen hne (hle cz hcz)] at g2
  have g2 := Except.ok.inj g2
  refine ⟨out, ?_, ?_, g5⟩
  · have e : (fun c => atomCount f.1 c) = atomCount f.1 := rfl
    rw [e] at hR
    rw [hR, ← g2, List.map_map]
    rfl
  · rw [List.length_flatten, List.map_congr_left (g := fun _ => ws.sum) g4, ← g3]
    simp

/-- Sums after normalisation. -/
theorem sums_normalized (Z : List (Fin 4 → ℝ)) (μ σ : Fin 4 → ℝ) (hμ : ∀ q, q ≠ 0 → μ q = 0)
    (τ : ℝ) (hσ : ∀ q, q ≠ 0 → σ q = τ) :
    ((Z.map (normalizeRow μ σ)).map (fun v => v 0)).sum
      = ((Z.map (fun v => v 0)).sum - Z.length * μ 0) / σ 0 ∧
    ((Z.map (normalizeRow μ σ)).map (fun v => v 0 ^ 2)).sum
      = ((Z.map (fun v => v 0 ^ 2)).sum - 2 * μ 0 * (Z.map (fun v => v 0)).sum + Z.length * μ 0 ^ 2)
        / σ 0 ^ 2 ∧
    ((Z.map (normalizeRow μ σ)).map (fun v => v 1 + v 2 + v 3)).sum
      = (Z.map (fun v => v 1 + v 2 + v 3)).sum / τ ∧
    ((Z.map (normalizeRow μ σ)).map (fun v => v 1 ^ 2 + v 2 ^ 2 + v 3 ^ 2)).sum
      = (Z.map (fun v => v 1 ^ 2 + v 2 ^ 2 + v 3 ^ 2)).sum / τ ^ 2 := by
  have h1 := hσ 1 (by decide)
  have h2 := hσ 2 (by decide)
  have h3 := hσ 3 (by decide)
  have k1 := hμ 1 (by decide)
  have k2 := hμ 2 (by decide)
  have k3 := hμ 3 (by decide)
  induction Z with
  | nil => simp
  | cons v Z ih =>
    simp only [List.map_cons, List.sum_cons, ih.1, ih.2.1, ih.2.2.1, ih.2.2.2, List.length_cons,
      normalizeRow, h1, h2, h3, k1, k2, k3]
    push_cast
    refine ⟨by ring, by ring, by ring, by ring⟩

theorem PadPerm.sums {x y : List (Fin 4 → ℝ)} (h : PadPerm x y) (g : (Fin 4 → ℝ) → ℝ) (hg : g 0 = 0) :
    (x.map g).sum = (y.map g).sum := by
  obtain ⟨k, hk⟩ := h
  rw [(hk.map g).sum_eq]
  simp [hg]

/-- Standardisation of a list of slots by its own statistics. -/
theorem standardised (Z samples : List (Fin 4 → ℝ)) (hZ : PadPerm Z samples) (hn : 0 < Z.length)
    (μ σ : Fin 4 → ℝ) (hst : IsStats samples Z.length μ (fun q => some (σ q))) :
    |weightMean (Z.map (normalizeRow μ σ)) Z.length| ≤ 1 / 10 ^ 13 * |weightMean samples Z.length| ∧
    weightVar (Z.map (normalizeRow μ σ)) Z.length
      = weightVar samples Z.length / max (1 / 10 ^ 4) (weightVar samples Z.length) ∧
    angleMean (Z.map (normalizeRow μ σ)) Z.length
      = angleMean samples Z.length / Real.sqrt (max (1 / 10 ^ 4) (angleVar samples Z.length)) ∧
    angleVar (Z.map (normalizeRow μ σ)) Z.length
      = angleVar samples Z.length / max (1 / 10 ^ 4) (angleVar samples Z.length) := by
  obtain ⟨m0, s0, hq⟩ := hst
  have hσ : ∀ q, q ≠ 0 → σ q = max (1 / 100) (Real.sqrt (angleVar samples Z.length)) :=
    fun q h => Option.some.inj (hq q h).2
  have s0 := Option.some.inj s0
  obtain ⟨e1, e2, e3, e4⟩ := sums_normalized Z μ σ (fun q h => (hq q h).1) _ hσ
  rw [hZ.sums (fun v => v 0) rfl] at e1 e2
  rw [hZ.sums (fun v => v 0 ^ 2) (by simp)] at e2
  rw [hZ.sums (fun v => v 1 + v 2 + v 3) (by simp)] at e3
  rw [hZ.sums (fun v => v 1 ^ 2 + v 2 ^ 2 + v 3 ^ 2) (by simp)] at e4
  have hnn : (1 : ℝ) ≤ Z.length := by exact_mod_cast hn
  have hsq : ∀ x : ℝ, max (1 / 100) (Real.sqrt x) ^ 2 = max (1 / 10 ^ 4) x := by
    intro x
    rcases le_total (1 / 10 ^ 4) x with hx | hx
    · have : (1 / 100 : ℝ) ≤ Real.sqrt x := Real.le_sqrt_of_sq_le (by norm_num at hx ⊢; linarith)
      rw [max_eq_right this, max_eq_right hx, Real.sq_sqrt (by norm_num at hx; linarith)]
    · have : Real.sqrt x ≤ 1 / 100 := by
        rw [show (1 / 100 : ℝ) = Real.sqrt (1 / 10 ^ 4) by
          rw [show (1 / 10 ^ 4 : ℝ) = (1 / 100) ^ 2 by norm_num, Real.sqrt_sq (by norm_num)]]
        exact Real.sqrt_le_sqrt hx
      rw [max_eq_left this, max_eq_left hx]; norm_num
  generalize hN : (Z.length : ℝ) = n at *
  have hn0 : n ≠ 0 := by linarith
  have hne : n + 1 / 10 ^ 15 ≠ 0 := by positivity
  have hσ0 : 1 / 100 ≤ σ 0 := by rw [s0]; exact le_max_left _ _
  have hσ1 : σ 0 ≠ 0 := by intro h0; rw [h0] at hσ0; norm_num at hσ0
  refine ⟨?_, ?_, ?_, ?_⟩
  · unfold weightMean
    rw [hN, e1, m0]
    generalize (samples.map (fun v => v 0)).sum = S
    have : (S - n * (S / (n + 1 / 10 ^ 15))) / σ 0 / n
        = (1 / 10 ^ 15 / ((n + 1 / 10 ^ 15) * σ 0)) * (S / n) := by
      field_simp
      ring
    rw [this, abs_mul]
    apply mul_le_mul_of_nonneg_right _ (abs_nonneg _)
    have hp : 0 < σ 0 := by linarith
    rw [abs_of_nonneg (by positivity), div_le_div_iff₀ (by positivity) (by norm_num)]
    nlinarith
  · unfold weightVar at s0 ⊢
    rw [hN] at s0 ⊢
    rw [e1, e2, ← hsq, ← s0]
    field_simp
    ring
  · have hp : 0 < max (1 / 100) (Real.sqrt (angleVar samples Z.length)) :=
      lt_of_lt_of_le (by norm_num) (le_max_left _ _)
    rw [← hsq, Real.sqrt_sq hp.le]
    unfold angleMean
    rw [e3]
    ring
  · rw [← hsq]
    have hp : 0 < max (1 / 100) (Real.sqrt (angleVar samples Z.length)) :=
      lt_of_lt_of_le (by norm_num) (le_max_left _ _)
    generalize max (1 / 100) (Real.sqrt (angleVar samples Z.length)) = τ at *
    unfold angleVar angleMean
    rw [e3, e4]
    field_simp

theorem mapM_perm {α β : Type} (f : α → Except PyErr β) {l l' : List α} (h : l.Perm l') {r : List β}
    (hr : l.mapM f = .ok r) : ∃ r', l'.mapM f = .ok r' ∧ r.Perm r' := by
  induction h generalizing r with
  | nil => exact ⟨r, hr, List.Perm.refl _⟩
  | cons a _ ih =>
    rw [mapM_eq_ok] at hr
    cases hr with
    | cons h1 h2 =>
      rename_i b r
      obtain ⟨r', e1, e2⟩ := ih (mapM_eq_ok.2 h2)
      exact ⟨b :: r', mapM_eq_ok.2 (.cons h1 (mapM_eq_ok.1 e1)), e2.cons b⟩
  | swap a b l =>
    rw [mapM_eq_ok] at hr
    cases hr with
    | cons h1 h2 =>
      cases h2 with
      | cons h3 h4 =>
        exact ⟨_, mapM_eq_ok.2 (.cons h3 (.cons h1 h4)), List.Perm.swap _ _ _⟩
  | trans _ _ ih1 ih2 =>
    obtain ⟨r1, e1, p1⟩ := ih1 hr
    obtain ⟨r2, e2, p2⟩ := ih2 e1
    exact ⟨r2, e2, p1.trans p2⟩

theorem concatAxis1_perm_ok {α : Type} {bs bs' : List (List (List α))} (h : bs.Perm bs') {out : List (List α)}
    (ho : concatAxis1 bs = .ok out) : ∃ out', concatAxis1 bs' = .ok out' ∧ out.flatten.Perm out'.flatten := by
  have h1 := (concatAxis1_iff bs).1 ⟨out, ho⟩
  obtain ⟨out', ho'⟩ := (concatAxis1_iff bs').2 ⟨fun h0 => h1.1 (by rw [h0] at h; exact h.eq_nil),
    fun b hb c hc => h1.2 b (h.mem_iff.2 hb) c (h.mem_iff.2 hc)⟩
  exact ⟨out', ho', (concatAxis1_perm _ _ ho).trans ((h.flatten.flatten).trans (concatAxis1_perm _ _ ho').symm)⟩

theorem systemStats_perm (A : ArgSort) (structures : List (Struct ℝ)) {idx idx' : List ℤ} (hp : idx.Perm idx')
    (rcut rs : ℝ) (sc : Fin 3 → ℤ) (centres nbrs : List ℕ) (widths : List ℤ) (stats : List PairStats)
    (h : systemStats A structures idx rcut rs sc centres nbrs widths = .ok stats) :
    systemStats A structures idx' rcut rs sc centres nbrs widths = .ok stats := by
  unfold systemStats at h ⊢
  obtain ⟨st, h1, h2⟩ := bind_eq_ok.1 h
  have : centres.mapM (fun cz => do
      let rows ← systemTildeR A structures idx' rcut rs sc cz nbrs widths
      return calcPairStats rows.flatten) = .ok st := by
    rw [mapM_eq_ok] at h1 ⊢
    refine h1.imp ?_
    intro cz s hs
    obtain ⟨rows, g1, g2⟩ := bind_eq_ok.1 hs
    unfold systemTildeR at g1
    obtain ⟨ch, g3, g4⟩ := bind_eq_ok.1 g1
    obtain ⟨fr, g5, g6⟩ := bind_eq_ok.1 g4
    obtain ⟨ch', k3, k3'⟩ := mapM_perm _ hp g3
    obtain ⟨fr', k5, k5'⟩ := mapM_perm _ k3' g5
    obtain ⟨out', k6, k6'⟩ := concatAxis1_perm_ok k5' g6
    have : systemTildeR A structures idx' rcut rs sc cz nbrs widths = .ok out' := by
      unfold systemTildeR
      rw [k3, ok_bind, k5, ok_bind, k6]
    rw [this, ok_bind]
    rw [← g2, calcPairStats_perm k6']
  rw [this, ok_bind]
  exact h2

end MaterSDK
