import Verif.Lemmas.TildeRD

/-! # C221: `TildeR` in doubles -/

namespace MaterSDK

variable (p : LmpIn) (rcut rs ρ B : ℝ)

/-- C221, one pair of elements: in doubles `PairTildeR` succeeds and fails exactly as in real arithmetic, the
arrays have the same shape, and for neighbours between `ρ` and `B` away every row and every derivative block
differs from the exact one by rounding only. -/
theorem C221_pair (hrs : rs < rcut) (hρ : 0 < ρ) (hρB : ρ ≤ B) (hB : B ≤ 2 ^ 41 * ρ)
    (hB' : B ≤ 2 ^ 41 * (rcut - rs)) (hp : LmpPairs p (fun c q => ρ ≤ dist3 q c ∧ dist3 q c ≤ B)) (cz nz w : ℤ) :
    ((∀ e, pairGenerateLmpD flR p cz nz w rcut rs = .error e ↔ pairGenerateLmp p cz nz w rcut rs = .error e) ∧
      ∀ out ex, pairGenerateLmpD flR p cz nz w rcut rs = .ok out → pairGenerateLmp p cz nz w rcut rs = .ok ex →
        List.Forall₂ (List.Forall₂ (fun u v => ∀ a, |u a - v a| ≤ seTol rcut rs ρ B)) out ex) ∧
    (∀ e, pairDerivLmpD flR p cz nz w rcut rs = .error e ↔ pairDerivLmp p cz nz w rcut rs = .error e) ∧
      ∀ out ex, pairDerivLmpD flR p cz nz w rcut rs = .ok out → pairDerivLmp p cz nz w rcut rs = .ok ex →
        List.Forall₂ (List.Forall₂ (fun u v => ∀ a b, |u a b - v a b| ≤ seDerivTol rcut rs ρ B)) out ex := by
  rw [pairBoth_fst, pairBoth_snd, pairBothD_fst, pairBothD_snd]
  exact ⟨both_forall₂ Prod.fst Prod.snd _ _ (fun out h => pairBoth_near hrs hρ hρB hB hB' hp cz nz w out h),
    both_forall₂ Prod.fst Prod.snd _ _ (fun out h => pairBothD_near hrs hρ hρB hB hB' hp cz nz w out h)⟩

/-- C221, values: in doubles `TildeR::generate` succeeds and fails exactly as in real arithmetic, writes the
same entries, and every entry differs from the exact one by rounding only. -/
theorem C221_values (hrs : rs < rcut) (hρ : 0 < ρ) (hρB : ρ ≤ B) (hB : B ≤ 2 ^ 41 * ρ)
    (hB' : B ≤ 2 ^ 41 * (rcut - rs)) (hp : LmpPairs p (fun c q => ρ ≤ dist3 q c ∧ dist3 q c ≤ B))
    (cz nz nn : List ℤ) :
    (∀ e, tildeGenerateLmpD flR p cz nz nn rcut rs = .error e ↔ tildeGenerateLmp p cz nz nn rcut rs = .error e) ∧
    ∀ out ex, tildeGenerateLmpD flR p cz nz nn rcut rs = .ok out → tildeGenerateLmp p cz nz nn rcut rs = .ok ex →
      List.Forall₂ (List.Forall₂ (Option.Rel (fun u v => ∀ a, |u a - v a| ≤ seTol rcut rs ρ B))) out ex := by
  have e1 : tildeGenerateLmpD flR p cz nz nn rcut rs = _ := table_mapped
    (fun u : (Fin 4 → ℝ) × (Fin 4 → ℝ) => u.1) (Option.map (fun u : (Fin 4 → ℝ) × (Fin 4 → ℝ) => u.1)) some some
    (fun _ => rfl) (fun c z _ w => pairBoth p c z w rcut rs) _ (fun c z _ w => pairBoth_fst c z w) cz nz
    (cz.mapM p.src.numCentres) (cTake nn nz.length) none
  have e2 : tildeGenerateLmp p cz nz nn rcut rs = _ := table_mapped
    (fun u : (Fin 4 → ℝ) × (Fin 4 → ℝ) => u.2) (Option.map (fun u : (Fin 4 → ℝ) × (Fin 4 → ℝ) => u.2)) some some
    (fun _ => rfl) (fun c z _ w => pairBoth p c z w rcut rs) _ (fun c z _ w => pairBoth_snd c z w) cz nz
    (cz.mapM p.src.numCentres) (cTake nn nz.length) none
  rw [e1, e2]
  refine both_forall₂ _ _ _ _ ?_
  intro out h
  refine table_allIn (RowNear rcut rs ρ B) (fun u : Option ((Fin 4 → ℝ) × (Fin 4 → ℝ)) =>
    Option.Rel (fun u v => ∀ a, |u a - v a| ≤ seTol rcut rs ρ B) (u.map (fun u => u.1)) (u.map (fun u => u.2)))
    some ?_ _ ?_ cz nz _ _ none Option.Rel.none out h
  · intro a ha
    exact Option.Rel.some ha
  · intro c z _ w blk hblk
    exact pairBoth_near hrs hρ hρB hB hB' hp c z w blk hblk

/-- C221, derivatives: the same for `TildeR::deriv`. -/
theorem C221_derivatives (hrs : rs < rcut) (hρ : 0 < ρ) (hρB : ρ ≤ B) (hB : B ≤ 2 ^ 41 * ρ)
    (hB' : B ≤ 2 ^ 41 * (rcut - rs)) (hp : LmpPairs p (fun c q => ρ ≤ dist3 q c ∧ dist3 q c ≤ B))
    (cz nz nn : List ℤ) :
    (∀ e, tildeDerivLmpD flR p cz nz nn rcut rs = .error e ↔ tildeDerivLmp p cz nz nn rcut rs = .error e) ∧
    ∀ out ex, tildeDerivLmpD flR p cz nz nn rcut rs = .ok out → tildeDerivLmp p cz nz nn rcut rs = .ok ex →
      List.Forall₂ (List.Forall₂ (fun u v => ∀ a b, |u a b - v a b| ≤ seDerivTol rcut rs ρ B)) out ex := by
  have e1 : tildeDerivLmpD flR p cz nz nn rcut rs = _ := table_mapped
    (fun u : Matrix (Fin 4) (Fin 3) ℝ × Matrix (Fin 4) (Fin 3) ℝ => u.1)
    (fun u : Matrix (Fin 4) (Fin 3) ℝ × Matrix (Fin 4) (Fin 3) ℝ => u.1) id id
    (fun _ => rfl) (fun c z _ w => pairBothD p c z w rcut rs) _ (fun c z _ w => pairBothD_fst c z w) cz nz
    (cz.mapM p.src.numCentres) (cTake nn nz.length) (0, 0)
  have e2 : tildeDerivLmp p cz nz nn rcut rs = _ := table_mapped
    (fun u : Matrix (Fin 4) (Fin 3) ℝ × Matrix (Fin 4) (Fin 3) ℝ => u.2)
    (fun u : Matrix (Fin 4) (Fin 3) ℝ × Matrix (Fin 4) (Fin 3) ℝ => u.2) id id
    (fun _ => rfl) (fun c z _ w => pairBothD p c z w rcut rs) _ (fun c z _ w => pairBothD_snd c z w) cz nz
    (cz.mapM p.src.numCentres) (cTake nn nz.length) (0, 0)
  rw [e1, e2]
  refine both_forall₂ (fun u : Matrix (Fin 4) (Fin 3) ℝ × Matrix (Fin 4) (Fin 3) ℝ => u.1) (fun u => u.2) _ _ ?_
  intro out h
  refine table_allIn (BlockNear rcut rs ρ B) (BlockNear rcut rs ρ B) id (fun a ha => ha) _ ?_ cz nz _ _ (0, 0) ?_
    out h
  · intro c z _ w blk hblk
    exact pairBothD_near hrs hρ hρB hB hB' hp c z w blk hblk
  · intro a b
    simpa using seDerivTol_nonneg hrs hρ (hρ.le.trans hρB)

/-- C221, values, for the version that fills an array of the caller: for every array, whatever its size and contents,
the same inputs are refused, and each entry of the filled array differs from that of exact arithmetic by rounding
only (entries that are not written keep their value). -/
theorem C221_fill_values (hrs : rs < rcut) (hρ : 0 < ρ) (hρB : ρ ≤ B) (hB : B ≤ 2 ^ 41 * ρ)
    (hB' : B ≤ 2 ^ 41 * (rcut - rs)) (hp : LmpPairs p (fun c q => ρ ≤ dist3 q c ∧ dist3 q c ≤ B))
    (cz nz nn : List ℤ) (arr : List (List (Fin 4 → ℝ))) :
    (∀ e, tildeGenerateIntoD flR arr p cz nz nn rcut rs = .error e ↔
      tildeGenerateInto arr p cz nz nn rcut rs = .error e) ∧
    ∀ out ex, tildeGenerateIntoD flR arr p cz nz nn rcut rs = .ok out →
      tildeGenerateInto arr p cz nz nn rcut rs = .ok ex →
      List.Forall₂ (List.Forall₂ (fun u v => ∀ a, |u a - v a| ≤ seTol rcut rs ρ B)) out ex := by
  have e1 : tildeGenerateIntoD flR arr p cz nz nn rcut rs = _ := fill_mapped
    (fun u : (Fin 4 → ℝ) × (Fin 4 → ℝ) => u.1) (fun u : (Fin 4 → ℝ) × (Fin 4 → ℝ) => u.1) id id
    (fun _ => rfl) (fun c z _ w => pairBoth p c z w rcut rs) _ (fun c z _ w => pairBoth_fst c z w) cz nz
    (cz.mapM p.src.numCentres) (cTake nn nz.length) arr (arr.map (List.map (fun u => (u, u))))
    (rows_back _ _ (fun _ => rfl) arr)
  have e2 : tildeGenerateInto arr p cz nz nn rcut rs = _ := fill_mapped
    (fun u : (Fin 4 → ℝ) × (Fin 4 → ℝ) => u.2) (fun u : (Fin 4 → ℝ) × (Fin 4 → ℝ) => u.2) id id
    (fun _ => rfl) (fun c z _ w => pairBoth p c z w rcut rs) _ (fun c z _ w => pairBoth_snd c z w) cz nz
    (cz.mapM p.src.numCentres) (cTake nn nz.length) arr (arr.map (List.map (fun u => (u, u))))
    (rows_back _ _ (fun _ => rfl) arr)
  rw [e1, e2]
  refine both_forall₂ (fun u : (Fin 4 → ℝ) × (Fin 4 → ℝ) => u.1) (fun u => u.2) _ _ ?_
  intro out h
  refine fill_allIn (RowNear rcut rs ρ B) (RowNear rcut rs ρ B) id (fun a ha => ha) _ ?_ cz nz _ _ _ ?_ out h
  · intro c z _ w blk hblk
    exact pairBoth_near hrs hρ hρB hB hB' hp c z w blk hblk
  · intro row hrow u hu
    obtain ⟨r, -, rfl⟩ := List.mem_map.1 hrow
    obtain ⟨v, -, rfl⟩ := List.mem_map.1 hu
    intro a
    simpa using seTol_nonneg hrs hρ (hρ.le.trans hρB)

/-- C221, derivatives, for the version that fills an array of the caller. -/
theorem C221_fill_derivatives (hrs : rs < rcut) (hρ : 0 < ρ) (hρB : ρ ≤ B) (hB : B ≤ 2 ^ 41 * ρ)
    (hB' : B ≤ 2 ^ 41 * (rcut - rs)) (hp : LmpPairs p (fun c q => ρ ≤ dist3 q c ∧ dist3 q c ≤ B))
    (cz nz nn : List ℤ) (arr : List (List (Matrix (Fin 4) (Fin 3) ℝ))) :
    (∀ e, tildeDerivIntoD flR arr p cz nz nn rcut rs = .error e ↔
      tildeDerivInto arr p cz nz nn rcut rs = .error e) ∧
    ∀ out ex, tildeDerivIntoD flR arr p cz nz nn rcut rs = .ok out →
      tildeDerivInto arr p cz nz nn rcut rs = .ok ex →
      List.Forall₂ (List.Forall₂ (fun u v => ∀ a b, |u a b - v a b| ≤ seDerivTol rcut rs ρ B)) out ex := by
  have e1 : tildeDerivIntoD flR arr p cz nz nn rcut rs = _ := fill_mapped
    (fun u : Matrix (Fin 4) (Fin 3) ℝ × Matrix (Fin 4) (Fin 3) ℝ => u.1)
    (fun u : Matrix (Fin 4) (Fin 3) ℝ × Matrix (Fin 4) (Fin 3) ℝ => u.1) id id
    (fun _ => rfl) (fun c z _ w => pairBothD p c z w rcut rs) _ (fun c z _ w => pairBothD_fst c z w) cz nz
    (cz.mapM p.src.numCentres) (cTake nn nz.length) arr (arr.map (List.map (fun u => (u, u))))
    (rows_back _ _ (fun _ => rfl) arr)
  have e2 : tildeDerivInto arr p cz nz nn rcut rs = _ := fill_mapped
    (fun u : Matrix (Fin 4) (Fin 3) ℝ × Matrix (Fin 4) (Fin 3) ℝ => u.2)
    (fun u : Matrix (Fin 4) (Fin 3) ℝ × Matrix (Fin 4) (Fin 3) ℝ => u.2) id id
    (fun _ => rfl) (fun c z _ w => pairBothD p c z w rcut rs) _ (fun c z _ w => pairBothD_snd c z w) cz nz
    (cz.mapM p.src.numCentres) (cTake nn nz.length) arr (arr.map (List.map (fun u => (u, u))))
    (rows_back _ _ (fun _ => rfl) arr)
  rw [e1, e2]
  refine both_forall₂ (fun u : Matrix (Fin 4) (Fin 3) ℝ × Matrix (Fin 4) (Fin 3) ℝ => u.1) (fun u => u.2) _ _ ?_
  intro out h
  refine fill_allIn (BlockNear rcut rs ρ B) (BlockNear rcut rs ρ B) id (fun a ha => ha) _ ?_ cz nz _ _ _ ?_ out h
  · intro c z _ w blk hblk
    exact pairBothD_near hrs hρ hρB hB hB' hp c z w blk hblk
  · intro row hrow u hu
    obtain ⟨r, -, rfl⟩ := List.mem_map.1 hrow
    obtain ⟨v, -, rfl⟩ := List.mem_map.1 hu
    intro a b
    simpa using seDerivTol_nonneg hrs hρ (hρ.le.trans hρB)

/-! ### Example -/

/-- A lithium and an oxygen at distance 3, each with the other as neighbour. -/
noncomputable def exPairLmp : LmpIn := ⟨2, [0, 1], [1, 1], [[1], [0]], [0, ![1, 2, 2]], [3, 8]⟩

theorem exPairLmp_pairs : LmpPairs exPairLmp (fun c q => 3 ≤ dist3 q c ∧ dist3 q c ≤ 3) := by
  have e1 : dist3 ![1, 2, 2] 0 = 3 := by
    unfold dist3
    rw [Fin.sum_univ_three, Real.sqrt_eq_iff_mul_self_eq (by simp; norm_num) (by norm_num)]
    simp
    norm_num
  have e2 : dist3 0 ![1, 2, 2] = 3 := by
    unfold dist3
    rw [Fin.sum_univ_three, Real.sqrt_eq_iff_mul_self_eq (by simp; norm_num) (by norm_num)]
    simp
    norm_num
  intro ii hii i c hi hc m hm fl hfl jj hjj nb q hnb hq
  have hii' : (ii : ℤ) < 2 := hii
  have e : ii = 0 ∨ ii = 1 := by omega
  simp only [exPairLmp] at hi hc hm hfl hq
  rcases e with rfl | rfl
  · have hi : i = 0 := by
      have : (0 : ℤ) = i := by simpa using hi
      omega
    have hm : m = 1 := by simpa using hm.symm
    have hj : jj = 0 := by omega
    subst hi hm hj
    have hfl : fl = [1] := by simpa using hfl.symm
    subst hfl
    have hnb : nb = 1 := by
      have : (1 : ℤ) = nb := by simpa using hnb
      omega
    subst hnb
    have hc : c = 0 := by simpa using hc.symm
    have hq : q = ![1, 2, 2] := by simpa using hq.symm
    rw [hc, hq, e1]
    exact ⟨le_rfl, le_rfl⟩
  · have hi : i = 1 := by
      have : (1 : ℤ) = i := by simpa using hi
      omega
    have hm : m = 1 := by simpa using hm.symm
    have hj : jj = 0 := by omega
    subst hi hm hj
    have hfl : fl = [0] := by simpa using hfl.symm
    subst hfl
    have hnb : nb = 0 := by
      have : (0 : ℤ) = nb := by simpa using hnb
      omega
    subst hnb
    have hc : c = ![1, 2, 2] := by simpa using hc.symm
    have hq : q = 0 := by simpa using hq.symm
    rw [hc, hq, e2]
    exact ⟨le_rfl, le_rfl⟩

example := C221_pair exPairLmp 4 1 3 3 (by norm_num) (by norm_num) le_rfl (by norm_num) (by norm_num) exPairLmp_pairs 3 8 1

example := C221_values exPairLmp 4 1 3 3 (by norm_num) (by norm_num) le_rfl (by norm_num) (by norm_num) exPairLmp_pairs
  [3, 8] [3, 8] [1, 1]

example := C221_derivatives exPairLmp 4 1 3 3 (by norm_num) (by norm_num) le_rfl (by norm_num) (by norm_num) exPairLmp_pairs
  [3, 8] [3, 8] [1, 1]

example := C221_fill_values exPairLmp 4 1 3 3 (by norm_num) (by norm_num) le_rfl (by norm_num) (by norm_num)
  exPairLmp_pairs [3, 8] [3, 8] [1, 1] [[1, 1, 1], [1, 1, 1], [1, 1, 1]]

example := C221_fill_derivatives exPairLmp 4 1 3 3 (by norm_num) (by norm_num) le_rfl (by norm_num) (by norm_num)
  exPairLmp_pairs [3, 8] [3, 8] [1, 1] (List.replicate 3 (List.replicate 3 (fun _ _ => 1)))

/-- Here the functions do return. -/
example (R : ℝ → ℝ) : ∃ out, tildeGenerateLmpD R exPairLmp [3, 8] [3, 8] [1, 1] 4 1 = .ok out ∧
    out = [[some 0, some (envRowD R 4 1 (diffD R ![1, 2, 2]))],
      [some (envRowD R 4 1 (diffD R ![-1, -2, -2])), some 0]] := by
  simp [tildeGenerateLmpD, pairGenerateLmpD, pairLmp, PairSrc.numCentres, PairSrc.maxNbrs, LmpIn.src, exPairLmp,
    cTake, cGet, cSet, stackPairs, copyPairBlock, writeSlot, pairFill, pairNbrStep, allocRows, nstartIdxs, runningMax,
    List.range_succ, Bind.bind, Except.bind, Pure.pure, Except.pure]

/-- A larger array keeps its other entries. -/
example (R : ℝ → ℝ) : tildeGenerateIntoD R [[1, 1, 1], [1, 1, 1], [1, 1, 1]] exPairLmp [3, 8] [3, 8] [1, 1] 4 1 = .ok
    [[0, envRowD R 4 1 (diffD R ![1, 2, 2]), 1], [envRowD R 4 1 (diffD R ![-1, -2, -2]), 0, 1], [1, 1, 1]] := by
  simp [tildeGenerateIntoD, pairGenerateLmpD, pairLmp, PairSrc.numCentres, PairSrc.maxNbrs, LmpIn.src, exPairLmp,
    cTake, cGet, cSet, stackPairs, copyPairBlock, writeSlot, pairFill, pairNbrStep, allocRows, nstartIdxs, runningMax,
    List.range_succ, Bind.bind, Except.bind, Pure.pure, Except.pure]

end MaterSDK
