import Verif.Lemmas.CellListFind
import Verif.Model.CellListD

/-! # The bin search with rounded arithmetic: what it returns for an arbitrary rounding -/

namespace MaterSDK

open Classical Matrix

/-- Without rounding the model of `CellListD.lean` is that of `CellList.lean`. -/
theorem makeD_id (A : ArgSort) (s : CStruct) (rcut : ℝ) (pbc : Fin 3 → Bool) (sort : Bool) :
    NbrLists.makeD id A s rcut pbc sort = NbrLists.make A s rcut pbc sort := rfl

theorem findInfoD_id (N : NbrLists) (umax : ℕ) : NbrLists.findInfoD id N umax = N.findInfo umax := rfl

variable (R : ℝ → ℝ)

/-- Bin numbers of the supercell atoms. -/
noncomputable def BinList.bsD (B : BinList) : List ℤ :=
  B.supercell.struct.atoms.map (fun a => linIdx B.numBin (binIdxD R B.minLimit B.binSize a.2))

/-- Invariants of a bin list whose atoms all lie inside the box of the bins. -/
structure BinOkD (B : BinList) : Prop where
  rcut : 0 < B.rcut
  size : ∀ p, 0 < B.binSize p
  lim : B.minLimit = B.supercell.struct.minLimitD R
  inside : ∀ a ∈ B.supercell.struct.atoms, ∀ p,
    0 ≤ binIdxD R B.minLimit B.binSize a.2 p ∧ binIdxD R B.minLimit B.binSize a.2 p < B.numBin p
  heads : B.heads.length = (B.numBin 0 * B.numBin 1 * B.numBin 2).toNat
  nexts : B.nexts.length = B.supercell.struct.atoms.length
  chain : ∀ b : ℕ, (b : ℤ) < B.numBin 0 * B.numBin 1 * B.numBin 2 →
    ∃ h, B.heads[b]? = some h ∧ BinChain B.nexts h (binMembers (B.bsD R) b)

theorem BinList.makeD_ok (s : CStruct) (rcut : ℝ) (size : Vec ℝ) (pbc : Fin 3 → Bool)
    (hne : s.atoms ≠ []) (hr : 0 < rcut) (hs : ∀ p, 0 < size p) (hi : ∀ p, 0 < s.interplanarD R p)
    (hin : ∀ a ∈ (s.makeSupercellD R (binScalingD R s rcut pbc)).atoms, ∀ p,
      0 ≤ binIdxD R ((s.makeSupercellD R (binScalingD R s rcut pbc)).minLimitD R) size a.2 p ∧
      binIdxD R ((s.makeSupercellD R (binScalingD R s rcut pbc)).minLimitD R) size a.2 p
        < ⌈R ((s.makeSupercellD R (binScalingD R s rcut pbc)).projectedD R p / size p)⌉) :
    ∃ B, BinList.makeD R s rcut size pbc = .ok B ∧ BinOkD R B ∧
      B.supercell = CSupercell.makeD R s (binScalingD R s rcut pbc) ∧ B.rcut = rcut ∧ B.binSize = size ∧
      B.pbc = pbc ∧
      B.numBin = fun p => ⌈R ((s.makeSupercellD R (binScalingD R s rcut pbc)).projectedD R p / size p)⌉ := by
  set S := CSupercell.makeD R s (binScalingD R s rcut pbc) with hS
  set nb : Fin 3 → ℤ := fun p => ⌈R (S.struct.projectedD R p / size p)⌉ with hnb
  set bins := S.struct.atoms.map (fun a => linIdx nb (binIdxD R (S.struct.minLimitD R) size a.2)) with hbins
  have hin' : ∀ a ∈ S.struct.atoms, ∀ p, 0 ≤ binIdxD R (S.struct.minLimitD R) size a.2 p ∧
      binIdxD R (S.struct.minLimitD R) size a.2 p < nb p := hin
  clear hin
  clear_value S nb
  have hb : ∀ b ∈ bins, 0 ≤ b ∧ b < ((nb 0 * nb 1 * nb 2).toNat : ℕ) := by
    intro b hb
    obtain ⟨a, ha, rfl⟩ := List.mem_map.1 hb
    have := linIdx_bounds (hin' a ha)
    omega
  obtain ⟨heads, nexts, h1, h2, h3, h4⟩ := fillBins_ok _ bins hb
  have hl : bins.length = S.struct.atoms.length := by simp [hbins]
  refine ⟨⟨S, rcut, size, pbc, nb, S.struct.minLimitD R, heads, nexts⟩, ?_, ?_, rfl, rfl, rfl, rfl, ?_⟩
  · unfold BinList.makeD
    rw [if_neg hne, if_neg (not_not.2 ⟨hr, hs, hi⟩)]
    have e : ∀ p, ⌈R (S.struct.projectedD R p / size p)⌉ = nb p := fun p => (congrFun hnb p).symm
    simp only [← hS, ← hbins, e]
    rw [← hl]
    show (fillBins bins 0 _ _ >>= _) = _
    rw [h1]
    rfl
  · refine ⟨hr, hs, rfl, hin', h2, by rw [← hl]; exact h3, ?_⟩
    intro b hb
    have hb' : b < (nb 0 * nb 1 * nb 2).toNat := by
      have hb2 : (b : ℤ) < nb 0 * nb 1 * nb 2 := hb
      omega
    exact h4 b hb'
  · rw [hnb, hS]; rfl

/-- The atom with this index passes the distance test. -/
noncomputable def BinList.closeAtD (B : BinList) (c : Vec ℝ) (k : ℕ) : Bool :=
  match B.supercell.struct.atoms[k]? with
  | some a => B.closeD R c a.2
  | none => false

/-- The accepted atoms of one bin. -/
noncomputable def BinList.inBinD (B : BinList) (c : Vec ℝ) (b : ℤ) : List ℕ :=
  if b = -1 then [] else (binMembers (B.bsD R) b).filter (B.closeAtD R c)

theorem BinList.fromBinD_spec (B : BinList) (hB : BinOkD R B) (c : Vec ℝ) (b : ℤ)
    (hb : b = -1 ∨ (0 ≤ b ∧ b < B.numBin 0 * B.numBin 1 * B.numBin 2)) :
    B.fromBinD R c b = .ok ((B.inBinD R c b).map (fun k : ℕ => (k : ℤ))) := by
  unfold BinList.fromBinD BinList.inBinD
  by_cases h : b = -1
  · rw [if_pos h, if_pos h]; rfl
  · rw [if_neg h, if_neg h]
    have hb : 0 ≤ b ∧ b < B.numBin 0 * B.numBin 1 * B.numBin 2 := by
      rcases hb with hb | hb
      · exact absurd hb h
      · exact hb
    obtain ⟨hd, g1, g2⟩ := hB.chain b.toNat (by omega)
    have hbz : ((b.toNat : ℕ) : ℤ) = b := by omega
    rw [hbz] at g2
    have hlen : (binMembers (B.bsD R) b).length ≤ B.nexts.length := by
      rw [hB.nexts]
      have := binMembers_length (B.bsD R) b
      simpa [BinList.bsD] using this
    rw [cGet_ok.2 ⟨hb.1, g1⟩, ok_bind, g2.walk _ hlen, ok_bind]
    have hm : ((binMembers (B.bsD R) b).map (fun k : ℕ => (k : ℤ))).mapM (fun k => (do
        let a ← cGet B.supercell.struct.atoms k
        return (k, B.closeD R c a.2) : Except CErr (ℤ × Bool)))
        = .ok ((binMembers (B.bsD R) b).map (fun k : ℕ => ((k : ℤ), B.closeAtD R c k))) := by
      rw [mapM_eq_ok, List.forall₂_map_left_iff, List.forall₂_map_right_iff, List.forall₂_same]
      intro k hk
      rw [mem_binMembers] at hk
      unfold BinList.bsD at hk
      rw [List.getElem?_map, Option.map_eq_some_iff] at hk
      obtain ⟨a, ha, _⟩ := hk
      rw [cGet_nat ha, ok_bind]
      unfold BinList.closeAtD
      rw [ha]
      rfl
    rw [hm, ok_bind]
    refine congrArg Except.ok ?_
    rw [List.filter_map, List.map_map]
    rfl

theorem neighBinsOfD_range (B : BinList) (b : Fin 3 → ℤ) :
    ∀ x ∈ B.neighBinsOfD R b, x = -1 ∨ (0 ≤ x ∧ x < B.numBin 0 * B.numBin 1 * B.numBin 2) := by
  intro x hx
  unfold BinList.neighBinsOfD at hx
  obtain ⟨o, _, rfl⟩ := List.mem_map.1 hx
  simp only
  split_ifs with h
  · right
    apply linIdx_bounds
    intro p
    fin_cases p
    · exact h.1
    · exact h.2.1
    · exact h.2.2
  · left; rfl

/-- What `get_neigh_atoms` returns when all atoms are inside the box. -/
noncomputable def BinList.foundD (B : BinList) (c : Vec ℝ) : List ℕ :=
  (B.neighBinsOfD R (binIdxD R B.minLimit B.binSize c)).flatMap (B.inBinD R c)

theorem BinList.neighAtomsD_spec (B : BinList) (hB : BinOkD R B) (i : ℕ) (c : Vec ℝ)
    (hi : i < B.supercell.primNum) (hc : B.centre i = .ok c) :
    B.neighAtomsD R i = .ok ((B.foundD R c).map (fun k : ℕ => (k : ℤ))) := by
  unfold BinList.neighAtomsD BinList.neighBinsD
  rw [hc, ok_bind, if_neg (not_not.2 hi), ok_bind, ← hB.lim]
  show ((B.neighBinsOfD R (binIdxD R B.minLimit B.binSize c)).mapM (B.fromBinD R c) >>= _) = _
  rw [mapM_map_ok (g := fun b => (B.inBinD R c b).map (fun k : ℕ => (k : ℤ)))
    (fun b hb => B.fromBinD_spec R hB c b (neighBinsOfD_range R B _ b hb)), ok_bind]
  refine congrArg Except.ok ?_
  unfold BinList.foundD
  rw [List.map_flatMap, List.flatMap_def]

/-- How often an atom occurs in the result: once per visit of its bin. -/
theorem BinList.countD_found (B : BinList) (hB : BinOkD R B) (c : Vec ℝ) (k : ℕ) (a : ℤ × Vec ℝ)
    (ha : B.supercell.struct.atoms[k]? = some a) :
    (B.foundD R c).count k = if B.closeD R c a.2 = true then
      (cRange3 (fun p => -B.extD R p) (B.extD R)).countP (fun o => decide (∀ p,
        wrapBin (B.pbc p) (B.numBin p) (binIdxD R B.minLimit B.binSize c p + o p)
          = binIdxD R B.minLimit B.binSize a.2 p)) else 0 := by
  have hin := hB.inside a (List.mem_of_getElem? ha)
  set bk := binIdxD R B.minLimit B.binSize a.2 with hbk
  have hbsk : (B.bsD R)[k]? = some (linIdx B.numBin bk) := by
    unfold BinList.bsD; rw [List.getElem?_map, ha]; rfl
  have hcl : B.closeAtD R c k = B.closeD R c a.2 := by unfold BinList.closeAtD; rw [ha]
  unfold BinList.foundD
  rw [List.count_flatMap]
  have e1 : (List.count k ∘ B.inBinD R c) = fun b =>
      if (B.closeD R c a.2 = true ∧ b = linIdx B.numBin bk) then 1 else 0 := by
    funext b
    show (B.inBinD R c b).count k = _
    unfold BinList.inBinD
    have hpos := (linIdx_bounds hin).1
    by_cases h : b = -1
    · rw [if_pos h, if_neg (by rintro ⟨_, h'⟩; omega)]; rfl
    · rw [if_neg h]
      by_cases hc2 : B.closeD R c a.2 = true ∧ b = linIdx B.numBin bk
      · rw [if_pos hc2]
        apply List.count_eq_one_of_mem ((binMembers_nodup _ _).filter _)
        rw [List.mem_filter, mem_binMembers, hcl]
        exact ⟨by rw [hbsk, hc2.2], hc2.1⟩
      · rw [if_neg hc2]
        apply List.count_eq_zero_of_not_mem
        intro hm
        rw [List.mem_filter, mem_binMembers, hbsk, hcl] at hm
        exact hc2 ⟨hm.2, (Option.some.inj hm.1).symm⟩
  rw [e1, sum_indicator]
  by_cases hc2 : B.closeD R c a.2 = true
  · rw [if_pos hc2]
    unfold BinList.neighBinsOfD
    rw [List.countP_map]
    apply List.countP_congr
    intro o _
    simp only [Function.comp, hc2, true_and, decide_eq_true_eq]
    split_ifs with h
    · constructor
      · intro he
        have := linIdx_inj (b := fun p => wrapBin (B.pbc p) (B.numBin p) (binIdxD R B.minLimit B.binSize c p + o p)) (by
          intro p
          fin_cases p
          · exact h.1
          · exact h.2.1
          · exact h.2.2) hin he
        intro p
        exact congrFun this p
      · intro he
        congr 1
        funext p
        exact he p
    · constructor
      · intro he
        have hpos := (linIdx_bounds hin).1
        omega
      · intro he
        exfalso
        apply h
        rw [he 0, he 1, he 2]
        exact ⟨hin 0, hin 1, hin 2⟩
  · rw [if_neg hc2]
    rw [List.countP_eq_zero]
    intro b _
    simp [hc2]

/-- With enough bins along periodic axes no atom is found twice, atoms found pass the distance test, and
those that pass it are found unless they were filed too many bins away. -/
theorem BinList.foundD_spec (B : BinList) (hB : BinOkD R B) (c : Vec ℝ)
    (hn : ∀ p, B.pbc p = true → 2 * B.extD R p + 1 ≤ B.numBin p) :
    (B.foundD R c).Nodup ∧
    (∀ k, k ∈ B.foundD R c →
      ∃ a, B.supercell.struct.atoms[k]? = some a ∧ B.closeD R c a.2 = true) ∧
    ∀ k a, B.supercell.struct.atoms[k]? = some a → B.closeD R c a.2 = true →
      (∀ p, |binIdxD R B.minLimit B.binSize a.2 p - binIdxD R B.minLimit B.binSize c p| ≤ B.extD R p) →
      k ∈ B.foundD R c := by
  have hle : ∀ k a, B.supercell.struct.atoms[k]? = some a → (B.foundD R c).count k ≤ 1 := by
    intro k a ha
    rw [B.countD_found R hB c k a ha]
    split_ifs with hcl
    · have hnd := cRange3_nodup (fun p => -B.extD R p) (B.extD R)
      rw [List.countP_eq_length_filter]
      by_contra hlt
      have hnd' := hnd.filter (fun o => decide (∀ p,
        wrapBin (B.pbc p) (B.numBin p) (binIdxD R B.minLimit B.binSize c p + o p)
          = binIdxD R B.minLimit B.binSize a.2 p))
      rw [not_le] at hlt
      have h0 := List.getElem_mem (Nat.lt_of_succ_lt hlt)
      have h1 := List.getElem_mem hlt
      rw [List.mem_filter, decide_eq_true_eq, mem_cRange3] at h0 h1
      have := hnd'.getElem_inj_iff.1 (show _[0] = _[1] from by
        funext p
        exact wrapBin_inj (e := B.extD R p) (hn p) (h0.1 p) (h1.1 p) (h0.2 p) (h1.2 p))
      omega
    · omega
  have hmem : ∀ k, k ∈ B.foundD R c →
      ∃ a, B.supercell.struct.atoms[k]? = some a ∧ B.closeD R c a.2 = true := by
    intro k hk
    unfold BinList.foundD at hk
    obtain ⟨b, _, hk⟩ := List.mem_flatMap.1 hk
    unfold BinList.inBinD at hk
    split_ifs at hk with hb
    · simp at hk
    · rw [List.mem_filter] at hk
      have := hk.2
      unfold BinList.closeAtD at this
      cases ha : B.supercell.struct.atoms[k]? with
      | none => rw [ha] at this; simp at this
      | some a => rw [ha] at this; exact ⟨a, rfl, this⟩
  refine ⟨?_, hmem, ?_⟩
  · rw [List.nodup_iff_count_le_one]
    intro k
    by_cases hk : k ∈ B.foundD R c
    · obtain ⟨a, ha, _⟩ := hmem k hk
      exact hle k a ha
    · rw [List.count_eq_zero_of_not_mem hk]; omega
  · intro k a ha hcl hb
    rw [← List.count_pos_iff, B.countD_found R hB c k a ha, if_pos hcl, List.countP_pos_iff]
    refine ⟨fun p => binIdxD R B.minLimit B.binSize a.2 p - binIdxD R B.minLimit B.binSize c p, ?_, ?_⟩
    · rw [mem_cRange3]
      intro p
      exact abs_le.1 (hb p)
    · rw [decide_eq_true_eq]
      intro p
      rw [add_sub_cancel]
      exact wrapBin_self (hB.inside a (List.mem_of_getElem? ha) p)

end MaterSDK
