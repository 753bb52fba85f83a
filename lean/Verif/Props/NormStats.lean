import Verif.Lemmas.NormStats
import Verif.Lemmas.NeighIndex
import Verif.Lemmas.Collection
import Verif.Props.MoreExact
import Verif.Props.FFInfer

/-! # The statistics of a normaliser: C200, C201 -/

namespace MaterSDK

open Classical

/-! ## C200 -/

/-- C200, for frames with the same number of atoms of every centre element: the average and the deviations
of a centre element are those of the environment rows of all its atoms in all selected frames. Every
neighbour within the cutoff counts once, and the slots that are not filled count as rows of zeros; the
number of slots is the number of these atoms times the sum of the widths. A frame that is selected
twice counts twice, negative indices count from the end. Missing: frames with different numbers of
atoms, see `C200_returns_iff` and `C200_violated_counts`. -/
theorem C200_statistics_partial (A : ArgSort) (structures : List (Struct ℝ)) (idx : List ℤ) (rcut rs : ℝ)
    (hr : 0 ≤ rcut) (hrs : rs < rcut) (sc : Fin 3 → ℤ) (m : Fin 3 → ℕ) (h : ∀ i, sc i = 2 * (m i : ℤ) + 1)
    (frames : List (Struct ℝ × Struct ℝ)) (hidx : List.Forall₂ (fun i f => Picks structures i f.1) idx frames)
    (hf : ∀ f ∈ frames, GoodFrame sc f) (hne : frames ≠ []) (centres nbrs ws : List ℕ) (hcn : centres ≠ [])
    (hlen : ws.length = nbrs.length) (hnn : nbrs ≠ []) (hpos : ∀ nz ∈ nbrs, 0 < nz)
    (hw : ∀ f ∈ frames, ∀ p ∈ nbrs.zip ws, ∀ c ∈ f.1.sites, c.z ∈ centres →
      (nbrsOf f.2 c.pos rcut p.1).length ≤ p.2)
    (heq : ∀ cz ∈ centres, ∀ f ∈ frames, ∀ g ∈ frames, atomCount f.1 cz = atomCount g.1 cz) :
    ∃ stats, systemStats A structures idx rcut rs sc centres nbrs (ws.map (Nat.cast : ℕ → ℤ)) = .ok stats ∧
      List.Forall₂ (fun cz st => IsStats (sampleRows rcut rs frames cz nbrs)
        ((frames.map (fun f => atomCount f.1 cz)).sum * ws.sum) st.davg st.dstd) centres stats := by
  have hrow : ∀ cz ∈ centres, ∃ st : PairStats, (do
      let rows ← systemTildeR A structures idx rcut rs sc cz nbrs (ws.map (Nat.cast : ℕ → ℤ))
      return calcPairStats rows.flatten) = (.ok st : Except PyErr PairStats) ∧
      IsStats (sampleRows rcut rs frames cz nbrs)
        ((frames.map (fun f => atomCount f.1 cz)).sum * ws.sum) st.davg st.dstd := by
    intro cz hcz
    rcases systemTildeR_eq A structures idx rcut rs hr hrs sc m h frames hidx hf cz nbrs ws hlen hnn hpos
      (fun f hfm p hp c hc hz => hw f hfm p hp c hc (hz ▸ hcz)) with ⟨_, h2⟩ | ⟨_, out, h1, h2, h3⟩
    · exact absurd ⟨hne, heq cz hcz⟩ h2
    · refine ⟨calcPairStats out.flatten, by rw [h1, ok_bind]; rfl, ?_⟩
      rw [← h2]
      exact h3.isStats
  have : Nonempty PairStats := ⟨calcPairStats []⟩
  choose! g hg using hrow
  refine ⟨centres.map g, ?_, ?_⟩
  · unfold systemStats
    rw [mapM_ok_of _ g _ (fun cz hcz => (hg cz hcz).1), ok_bind]
    rw [if_neg (by simpa using hcn)]
    rfl
  · rw [List.forall₂_map_right_iff]
    exact List.forall₂_same.2 (fun cz hcz => (hg cz hcz).2)

/-- C200: with sufficient widths the normaliser is made exactly when there are a centre element and a frame
and all frames have the same number of atoms of every centre element; otherwise the result is a
`ValueError`. -/
theorem C200_returns_iff (A : ArgSort) (structures : List (Struct ℝ)) (idx : List ℤ) (rcut rs : ℝ)
    (hr : 0 ≤ rcut) (hrs : rs < rcut) (sc : Fin 3 → ℤ) (m : Fin 3 → ℕ) (h : ∀ i, sc i = 2 * (m i : ℤ) + 1)
    (frames : List (Struct ℝ × Struct ℝ)) (hidx : List.Forall₂ (fun i f => Picks structures i f.1) idx frames)
    (hf : ∀ f ∈ frames, GoodFrame sc f) (centres nbrs ws : List ℕ)
    (hlen : ws.length = nbrs.length) (hnn : nbrs ≠ []) (hpos : ∀ nz ∈ nbrs, 0 < nz)
    (hw : ∀ f ∈ frames, ∀ p ∈ nbrs.zip ws, ∀ c ∈ f.1.sites, c.z ∈ centres →
      (nbrsOf f.2 c.pos rcut p.1).length ≤ p.2) :
    ((∃ stats, systemStats A structures idx rcut rs sc centres nbrs (ws.map (Nat.cast : ℕ → ℤ)) = .ok stats) ↔
      centres ≠ [] ∧ frames ≠ [] ∧
        ∀ cz ∈ centres, ∀ f ∈ frames, ∀ g ∈ frames, atomCount f.1 cz = atomCount g.1 cz) ∧
    (¬ (centres ≠ [] ∧ frames ≠ [] ∧
        ∀ cz ∈ centres, ∀ f ∈ frames, ∀ g ∈ frames, atomCount f.1 cz = atomCount g.1 cz) →
      systemStats A structures idx rcut rs sc centres nbrs (ws.map (Nat.cast : ℕ → ℤ)) =
        .error .valueError) := by
  have herr : ¬ (centres ≠ [] ∧ frames ≠ [] ∧
        ∀ cz ∈ centres, ∀ f ∈ frames, ∀ g ∈ frames, atomCount f.1 cz = atomCount g.1 cz) →
      systemStats A structures idx rcut rs sc centres nbrs (ws.map (Nat.cast : ℕ → ℤ)) =
        .error .valueError := by
    intro hn
    by_cases hc : centres = []
    · subst hc; rfl
    · have hrow : ∀ cz ∈ centres, (∃ st : PairStats, (do
          let rows ← systemTildeR A structures idx rcut rs sc cz nbrs (ws.map (Nat.cast : ℕ → ℤ))
          return calcPairStats rows.flatten) = (.ok st : Except PyErr PairStats)) ∧ (frames ≠ [] ∧
            ∀ f ∈ frames, ∀ g ∈ frames, atomCount f.1 cz = atomCount g.1 cz) ∨ (do
          let rows ← systemTildeR A structures idx rcut rs sc cz nbrs (ws.map (Nat.cast : ℕ → ℤ))
          return calcPairStats rows.flatten) = (.error .valueError : Except PyErr PairStats) := by
        intro cz hcz
        rcases systemTildeR_eq A structures idx rcut rs hr hrs sc m h frames hidx hf cz nbrs ws hlen hnn hpos
          (fun f hfm p hp c hc hz => hw f hfm p hp c hc (hz ▸ hcz)) with ⟨h1, _⟩ | ⟨h0, out, h1, h2, h3⟩
        · right; rw [h1, error_bind]
        · left; exact ⟨⟨_, by rw [h1, ok_bind]; rfl⟩, h0⟩
      unfold systemStats
      rw [mapM_same_error _ .valueError, error_bind]
      · intro cz hcz
        exact (hrow cz hcz).imp And.left id
      · by_contra hno
        push Not at hno
        apply hn
        have : ∀ cz ∈ centres, frames ≠ [] ∧
            ∀ f ∈ frames, ∀ g ∈ frames, atomCount f.1 cz = atomCount g.1 cz :=
          fun cz hcz => ((hrow cz hcz).resolve_right (hno cz hcz)).2
        obtain ⟨cz, hcz⟩ := List.exists_mem_of_ne_nil _ hc
        exact ⟨hc, (this cz hcz).1, fun cz hcz => (this cz hcz).2⟩
  refine ⟨⟨?_, ?_⟩, herr⟩
  · rintro ⟨st, hst⟩
    by_contra hn
    rw [herr hn] at hst
    cases hst
  · rintro ⟨h1, h2, h3⟩
    obtain ⟨st, hst, _⟩ := C200_statistics_partial A structures idx rcut rs hr hrs sc m h frames hidx hf h2
      centres nbrs ws h1 hlen hnn hpos hw h3
    exact ⟨st, hst⟩

/-- C200: an index outside the system is refused with an `IndexError`. -/
theorem C200_index (A : ArgSort) (structures : List (Struct ℝ)) (idx : List ℤ) (rcut rs : ℝ)
    (sc : Fin 3 → ℤ) (centres nbrs : List ℕ) (widths : List ℤ) (hcn : centres ≠ []) (i : ℤ) (hi : i ∈ idx)
    (hout : i < -(structures.length : ℤ) ∨ (structures.length : ℤ) ≤ i) :
    systemStats A structures idx rcut rs sc centres nbrs widths = .error .indexError := by
  have hm : idx.mapM (pyGetI structures) = .error .indexError := by
    apply mapM_same_error
    · intro j _
      rcases pyGetI_err structures j with ⟨x, hx, _⟩ | hx
      · exact Or.inl ⟨x, hx⟩
      · exact Or.inr hx
    · refine ⟨i, hi, ?_⟩
      rcases pyGetI_err structures i with ⟨x, hx, _⟩ | hx
      · obtain ⟨k, h1, h2⟩ := pyGetI_picks.1 hx
        have := (List.getElem?_eq_some_iff.1 h1).1
        omega
      · exact hx
  have hrow : ∀ cz, systemTildeR A structures idx rcut rs sc cz nbrs widths = .error .indexError := by
    intro cz
    unfold systemTildeR
    rw [hm, error_bind]
  unfold systemStats
  obtain ⟨cz, hcz⟩ := List.exists_mem_of_ne_nil _ hcn
  rw [mapM_same_error _ .indexError, error_bind]
  · intro z _; right; rw [hrow, error_bind]
  · exact ⟨cz, hcz, by rw [hrow, error_bind]⟩

/-- C200: the order in which the frames are selected has no influence on the statistics. -/
theorem C200_order (A : ArgSort) (structures : List (Struct ℝ)) (idx idx' : List ℤ) (hp : idx.Perm idx')
    (rcut rs : ℝ) (sc : Fin 3 → ℤ) (centres nbrs : List ℕ) (widths : List ℤ) (stats : List PairStats) :
    systemStats A structures idx rcut rs sc centres nbrs widths = .ok stats ↔
      systemStats A structures idx' rcut rs sc centres nbrs widths = .ok stats :=
  ⟨systemStats_perm A structures hp rcut rs sc centres nbrs widths stats,
    systemStats_perm A structures hp.symm rcut rs sc centres nbrs widths stats⟩

/-- One Li atom in the cell of `originCell`. -/
noncomputable def oneLi : Struct ℝ := ⟨originCell.lattice, [⟨3, 0, none⟩]⟩

theorem oneLi_good : ∃ S, GoodFrame ![1, 1, 1] (oneLi, S) ∧ S.sites.length = 1 := by
  have hS := makeSupercell_odd oneLi ![0, 0, 0] (sc := ![1, 1, 1]) (by decide) true
  refine ⟨_, ⟨?_, ?_, by simp [oneLi], hS⟩, ?_⟩
  · simp [oneLi, originCell, Matrix.det_diagonal]
  · intro i j t u hij hi hj
    have h1 := (List.getElem?_eq_some_iff.1 hi).1
    have h2 := (List.getElem?_eq_some_iff.1 hj).1
    simp only [oneLi, List.length_cons, List.length_nil] at h1 h2
    omega
  · rw [(sortByKey_perm _ _).length_eq]
    have hsh : shiftsZ ![0, 0, 0] = [0] := by decide
    unfold superSites
    rw [hsh]
    simp [oneLi]

/-- C200 fails for frames with different numbers of atoms of an element: of a cell with two Li and one Si
and a cell with one Li each alone gives a normaliser, both together are refused with a `ValueError`,
although every width suffices. -/
theorem C200_violated_counts (A : ArgSort) :
    ∃ (f g : Struct ℝ × Struct ℝ), GoodFrame ![1, 1, 1] f ∧ GoodFrame ![1, 1, 1] g ∧
      (∀ k ∈ [f, g], ∀ c ∈ k.1.sites, ∀ nz, (nbrsOf k.2 c.pos 1 nz).length ≤ 1) ∧
      atomCount f.1 3 = 2 ∧ atomCount g.1 3 = 1 ∧
      (∀ i ∈ [0, 1], ∃ stats, systemStats A [f.1, g.1] [i] 1 (1 / 2) ![1, 1, 1] [3] [3, 14] [1, 1] =
        .ok stats) ∧
      systemStats A [f.1, g.1] [0, 1] 1 (1 / 2) ![1, 1, 1] [3] [3, 14] [1, 1] = .error .valueError := by
  obtain ⟨S, hg, hSl⟩ := oneLi_good
  have hff : GoodFrame ![1, 1, 1] (originCell, ⟨Matrix.diagonal (fun i => ((![1, 1, 1] : Fin 3 → ℤ) i : ℝ))
      * originCell.lattice, [⟨3, 0, none⟩, ⟨3, ![2, 0, 0], none⟩, ⟨14, ![2, 1, 0], none⟩]⟩) :=
    ⟨by simp [originCell, Matrix.det_diagonal], originCell_separated, by simp [originCell],
      originCell_supercell⟩
  obtain ⟨f, hF⟩ : ∃ f : Struct ℝ × Struct ℝ, (originCell, ⟨Matrix.diagonal (fun i =>
      ((![1, 1, 1] : Fin 3 → ℤ) i : ℝ)) * originCell.lattice,
      [⟨3, 0, none⟩, ⟨3, ![2, 0, 0], none⟩, ⟨14, ![2, 1, 0], none⟩]⟩) = f := ⟨_, rfl⟩
  rw [hF] at hff
  have hf1 : f.1 = originCell := by rw [← hF]
  have hw : ∀ k ∈ [f, (oneLi, S)], ∀ c ∈ k.1.sites, ∀ nz, (nbrsOf k.2 c.pos 1 nz).length ≤ 1 := by
    intro k hk c hc nz
    rcases List.mem_cons.1 hk with rfl | hk
    · rw [hf1] at hc
      have := originCell_le_one c hc nz
      rw [← hF]
      exact this
    · obtain rfl := List.mem_singleton.1 hk
      unfold nbrsOf
      refine (List.length_filter_le _ _).trans ?_
      simp only [hSl, le_refl]
  have c1 : atomCount f.1 3 = 2 := by rw [hf1]; simp [atomCount, originCell]
  have c2 : atomCount oneLi 3 = 1 := by simp [atomCount, oneLi]
  have hz : ∀ p ∈ ([3, 14] : List ℕ).zip [1, 1], p.2 = 1 := by decide
  have hp : ∀ nz ∈ ([3, 14] : List ℕ), 0 < nz := by decide
  have hwz : ∀ fr : List (Struct ℝ × Struct ℝ), fr ⊆ [f, (oneLi, S)] → ∀ k ∈ fr,
      ∀ p ∈ ([3, 14] : List ℕ).zip [1, 1], ∀ c ∈ k.1.sites, c.z ∈ [3] →
        (nbrsOf k.2 c.pos 1 p.1).length ≤ p.2 := by
    intro fr hfr k hk p hpm c hc _
    rw [hz p hpm]
    exact hw k (hfr hk) c hc p.1
  have hgood : ∀ fr : List (Struct ℝ × Struct ℝ), fr ⊆ [f, (oneLi, S)] → ∀ k ∈ fr, GoodFrame ![1, 1, 1] k := by
    intro fr hfr k hk
    rcases List.mem_cons.1 (hfr hk) with rfl | hk
    · exact hff
    · obtain rfl := List.mem_singleton.1 hk; exact hg
  have key := fun (idx : List ℤ) (fr : List (Struct ℝ × Struct ℝ)) (hfr : fr ⊆ [f, (oneLi, S)])
    (hi : List.Forall₂ (fun i k => Picks [f.1, oneLi] i k.1) idx fr) =>
    C200_returns_iff A [f.1, oneLi] idx 1 (1 / 2) (by norm_num) (by norm_num) ![1, 1, 1] ![0, 0, 0] (by decide)
      fr hi (hgood fr hfr) [3] [3, 14] [1, 1] rfl (by simp) hp (hwz fr hfr)
  refine ⟨f, (oneLi, S), hff, hg, hw, c1, c2, ?_, ?_⟩
  · intro i hi
    rcases List.mem_cons.1 hi with rfl | hi
    · refine (key [0] [f] (by simp) (.cons ⟨0, rfl, Or.inl rfl⟩ .nil)).1.2 ⟨by simp, by simp, ?_⟩
      simp
    · obtain rfl := List.mem_singleton.1 hi
      refine (key [1] [(oneLi, S)] (by simp) (.cons ⟨1, rfl, Or.inl rfl⟩ .nil)).1.2 ⟨by simp, by simp, ?_⟩
      simp
  · refine (key [0, 1] [f, (oneLi, S)] (by simp)
      (.cons ⟨0, rfl, Or.inl rfl⟩ (.cons ⟨1, rfl, Or.inl rfl⟩ .nil))).2 ?_
    rintro ⟨-, -, h3⟩
    have := h3 3 (by simp) f (by simp) (oneLi, S) (by simp)
    simp only [c1, c2] at this
    omega

/-! ## C201 -/

/-- C201: a normaliser made from frames, with the same list of elements for centres and neighbours, is
applied to these frames. The rows of a centre element, of all its atoms in all frames, then have
* a mean weight of zero, up to 1e-13 of the mean weight before (the code adds 1e-15 to the number of slots),
* a variance of the weights of one if it was at least 1e-4, and below one otherwise,
* the same for the variance of the angular entries, whose mean is scaled but not subtracted. -/
theorem C201_standardised (A : ArgSort) (structures : List (Struct ℝ)) (idx : List ℤ) (rcut rs : ℝ)
    (hr : 0 ≤ rcut) (hrs : rs < rcut) (sc : Fin 3 → ℤ) (m : Fin 3 → ℕ) (h : ∀ i, sc i = 2 * (m i : ℤ) + 1)
    (frames : List (Struct ℝ × Struct ℝ)) (hidx : List.Forall₂ (fun i f => Picks structures i f.1) idx frames)
    (hf : ∀ f ∈ frames, GoodFrame sc f) (els ws : List ℕ) (hlen : ws.length = els.length) (hnd : els.Nodup)
    (hne : els ≠ []) (hpos : ∀ nz ∈ els, 0 < nz)
    (hw : ∀ f ∈ frames, ∀ p ∈ els.zip ws, ∀ c ∈ f.1.sites, c.z ∈ els →
      (nbrsOf f.2 c.pos rcut p.1).length ≤ p.2)
    (stats : List PairStats)
    (hst : systemStats A structures idx rcut rs sc els els (ws.map (Nat.cast : ℕ → ℤ)) = .ok stats)
    (dstds : List (Fin 4 → ℝ)) (hd : List.Forall₂ (fun st d => ∀ q, st.dstd q = some (d q)) stats dstds)
    (N : Normalizer) (hN : mkNormalizer rcut rs els els (ws.map (Nat.cast : ℕ → ℤ))
      (stats.map PairStats.davg) dstds = .ok N) :
    ∃ Rs : List (List (List (Fin 4 → ℝ))),
      List.Forall₂ (fun f R => ∃ table D, neighborTable A f.1 rcut sc = .ok table ∧
        N.normalize table = .ok (R, D)) frames Rs ∧
      ∀ i cz : ℕ, els[i]? = some cz →
        let rows := (frames.zip Rs).flatMap (fun p =>
          ((p.2.drop ((els.take i).map (atomCount p.1.1)).sum).take (atomCount p.1.1 cz)).flatten)
        let samples := sampleRows rcut rs frames cz els
        let n := (frames.map (fun f => atomCount f.1 cz)).sum * ws.sum
        rows.length = n ∧ (0 < n →
          |weightMean rows n| ≤ 1 / 10 ^ 13 * |weightMean samples n| ∧
          weightVar rows n = weightVar samples n / max (1 / 10 ^ 4) (weightVar samples n) ∧
          angleMean rows n = angleMean samples n / Real.sqrt (max (1 / 10 ^ 4) (angleVar samples n)) ∧
          angleVar rows n = angleVar samples n / max (1 / 10 ^ 4) (angleVar samples n)) := by
  obtain ⟨-, hne', heq⟩ := (C200_returns_iff A structures idx rcut rs hr hrs sc m h frames hidx hf els els ws
    hlen hne hpos hw).1.1 ⟨stats, hst⟩
  obtain ⟨stats', hst', hIs⟩ := C200_statistics_partial A structures idx rcut rs hr hrs sc m h frames hidx hf
    hne' els els ws hne hlen hne hpos hw heq
  rw [hst] at hst'
  cases hst'
  have hfr : ∀ f ∈ frames, ∃ R : List (List (Fin 4 → ℝ)), (∃ table D, neighborTable A f.1 rcut sc = .ok table ∧
      N.normalize table = .ok (R, D)) ∧
      ∀ (i cz : ℕ) (davg dstd : Fin 4 → ℝ), els[i]? = some cz → (stats.map PairStats.davg)[i]? = some davg →
        dstds[i]? = some dstd → ∃ Z : List (List (Fin 4 → ℝ)),
          (R.drop ((els.take i).map (atomCount f.1)).sum).take (atomCount f.1 cz)
            = Z.map (List.map (normalizeRow davg dstd)) ∧
          Z.flatten.length = atomCount f.1 cz * ws.sum ∧
          PadPerm Z.flatten (sampleRows rcut rs [f] cz els) := by
    intro f hfm
    obtain ⟨table, R, D, g1, g2, g3⟩ := frame_normalized A rcut rs hr hrs sc m h f (hf f hfm) els ws hlen hnd
      hne hpos (hw f hfm) _ dstds N hN
    exact ⟨R, ⟨table, D, g1, g2⟩, g3⟩
  choose! R hR using hfr
  refine ⟨frames.map R, ?_, ?_⟩
  · rw [List.forall₂_map_right_iff]
    exact List.forall₂_same.2 (fun f hfm => (hR f hfm).1)
  · intro i cz hi
    obtain ⟨st, hsti, his⟩ := forall₂_get hIs hi
    obtain ⟨d, hdi, hdd⟩ := forall₂_get hd hsti
    have hav : (stats.map PairStats.davg)[i]? = some st.davg := by rw [List.getElem?_map, hsti]; rfl
    -- all slots of the element
    have hall : ∀ fr : List (Struct ℝ × Struct ℝ), (∀ f ∈ fr, f ∈ frames) → ∃ Z : List (Fin 4 → ℝ),
        (fr.zip (fr.map R)).flatMap (fun p => ((p.2.drop ((els.take i).map (atomCount p.1.1)).sum).take
          (atomCount p.1.1 cz)).flatten) = Z.map (normalizeRow st.davg d) ∧
        Z.length = (fr.map (fun f => atomCount f.1 cz)).sum * ws.sum ∧
        PadPerm Z (sampleRows rcut rs fr cz els) := by
      intro fr
      induction fr with
      | nil => exact fun _ => ⟨[], rfl, by simp, PadPerm.nil⟩
      | cons f fr ih =>
        intro hsub
        obtain ⟨Z, z1, z2, z3⟩ := ih (fun g hg => hsub g (by simp [hg]))
        obtain ⟨Y, y1, y2, y3⟩ := (hR f (hsub f (by simp))).2 i cz st.davg d hi hav hdi
        refine ⟨Y.flatten ++ Z, ?_, ?_, ?_⟩
        · rw [List.map_cons, List.zip_cons_cons, List.flatMap_cons, z1]
          simp only
          rw [y1, List.map_append, List.map_flatten]
        · rw [List.length_append, y2, z2, List.map_cons, List.sum_cons, Nat.add_mul]
        · rw [sampleRows_cons]
          exact y3.append z3
    obtain ⟨Z, z1, z2, z3⟩ := hall frames (fun _ hf => hf)
    simp only
    rw [z1, ← z2]
    refine ⟨by simp, fun hpos => ?_⟩
    apply standardised Z _ z3 hpos st.davg d
    rw [← z2] at his
    have e : st.dstd = fun q => some (d q) := funext hdd
    rw [e] at his
    exact his

/-- The hypotheses of C200 and C201 hold for the cell of two Li and one Si, selected by the index -1, with
both elements as centres and neighbours: the statistics exist, all deviations are numbers, and the
constructor accepts them. -/
example (A : ArgSort) : ∃ (S : Struct ℝ) (stats : List PairStats) (dstds : List (Fin 4 → ℝ)) (N : Normalizer),
    GoodFrame ![1, 1, 1] (originCell, S) ∧ Picks [oneLi, originCell] (-1) originCell ∧
    (∀ p ∈ ([3, 14] : List ℕ).zip [1, 1], ∀ c ∈ originCell.sites, (nbrsOf S c.pos 1 p.1).length ≤ p.2) ∧
    systemStats A [oneLi, originCell] [-1] 1 (1 / 2) ![1, 1, 1] [3, 14] [3, 14] [1, 1] = .ok stats ∧
    List.Forall₂ (fun st d => ∀ q, st.dstd q = some (d q)) stats dstds ∧
    mkNormalizer 1 (1 / 2) [3, 14] [3, 14] [1, 1] (stats.map PairStats.davg) dstds = .ok N := by
  have hp : ∀ nz ∈ ([3, 14] : List ℕ), 0 < nz := by decide
  have hz : ∀ p ∈ ([3, 14] : List ℕ).zip [1, 1], p.2 = 1 := by decide
  have hw : ∀ p ∈ ([3, 14] : List ℕ).zip [1, 1], ∀ c ∈ originCell.sites, (nbrsOf
      ⟨Matrix.diagonal (fun i => ((![1, 1, 1] : Fin 3 → ℤ) i : ℝ)) * originCell.lattice,
        [⟨3, 0, none⟩, ⟨3, ![2, 0, 0], none⟩, ⟨14, ![2, 1, 0], none⟩]⟩ c.pos 1 p.1).length ≤ p.2 := by
    intro p hpm c hc
    rw [hz p hpm]
    exact originCell_le_one c hc p.1
  have hg : GoodFrame ![1, 1, 1] (originCell, ⟨Matrix.diagonal (fun i => ((![1, 1, 1] : Fin 3 → ℤ) i : ℝ))
      * originCell.lattice, [⟨3, 0, none⟩, ⟨3, ![2, 0, 0], none⟩, ⟨14, ![2, 1, 0], none⟩]⟩) :=
    ⟨by simp [originCell, Matrix.det_diagonal], originCell_separated, by simp [originCell],
      originCell_supercell⟩
  have hpick : Picks [oneLi, originCell] (-1) originCell := ⟨1, rfl, Or.inr rfl⟩
  obtain ⟨stats, h1, h2⟩ := C200_statistics_partial A [oneLi, originCell] [-1] 1 (1 / 2) (by norm_num)
    (by norm_num) ![1, 1, 1] ![0, 0, 0] (by decide) [_] (.cons hpick .nil)
    (fun f hf => by obtain rfl := List.mem_singleton.1 hf; exact hg) (by simp) [3, 14] [3, 14] [1, 1]
    (by simp) rfl (by simp) hp
    (fun f hf p hpm c hc _ => by obtain rfl := List.mem_singleton.1 hf; exact hw p hpm c hc)
    (by simp)
  refine ⟨_, stats, stats.map (fun st q => (st.dstd q).getD 0), ⟨1, 1 / 2, [3, 14], [3, 14], [1, 1],
    stats.map PairStats.davg, stats.map (fun st q => (st.dstd q).getD 0)⟩, hg, hpick, hw, h1, ?_, ?_⟩
  · rw [List.forall₂_map_right_iff]
    refine List.forall₂_same.2 (fun st hst q => ?_)
    obtain ⟨cz, _, his⟩ := forall₂_mem_right h2 st hst
    by_cases hq : q = 0
    · subst hq; simp only [his.2.1, Option.getD_some]
    · simp only [(his.2.2 q hq).2, Option.getD_some]
  · unfold mkNormalizer
    rw [if_neg]
    have := h2.length_eq
    simp only [List.length_map, ← this, not_or, not_not, and_self]

end MaterSDK
