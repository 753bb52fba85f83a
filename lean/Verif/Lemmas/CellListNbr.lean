import Verif.Lemmas.CellListGeom
import Mathlib.Algebra.BigOperators.Group.List.Basic

/-! # What the bin search returns -/

namespace MaterSDK

open Classical Matrix

/-- Bin numbers of the supercell atoms. -/
noncomputable def BinList.bs (B : BinList) : List ℤ :=
  B.supercell.struct.atoms.map (fun a => linIdx B.numBin (binIdx B.minLimit B.binSize a.2))

/-- Invariants of a bin list whose atoms all lie inside the box of the bins. -/
structure BinOk (B : BinList) : Prop where
  rcut : 0 < B.rcut
  size : ∀ p, 0 < B.binSize p
  lim : B.minLimit = B.supercell.struct.minLimit
  inside : ∀ a ∈ B.supercell.struct.atoms, ∀ p,
    0 ≤ binIdx B.minLimit B.binSize a.2 p ∧ binIdx B.minLimit B.binSize a.2 p < B.numBin p
  nexts : B.nexts.length = B.supercell.struct.atoms.length
  chain : ∀ b : ℕ, (b : ℤ) < B.numBin 0 * B.numBin 1 * B.numBin 2 →
    ∃ h, B.heads[b]? = some h ∧ BinChain B.nexts h (binMembers B.bs b)

theorem BinList.make_ok (s : CStruct) (rcut : ℝ) (size : Vec ℝ) (pbc : Fin 3 → Bool)
    (hne : s.atoms ≠ []) (hr : 0 < rcut) (hs : ∀ p, 0 < size p) (hi : ∀ p, 0 < s.interplanar p)
    (hin : ∀ a ∈ (s.makeSupercell (binScaling s rcut pbc)).atoms, ∀ p,
      0 ≤ binIdx (s.makeSupercell (binScaling s rcut pbc)).minLimit size a.2 p ∧
      binIdx (s.makeSupercell (binScaling s rcut pbc)).minLimit size a.2 p
        < ⌈(s.makeSupercell (binScaling s rcut pbc)).projected p / size p⌉) :
    ∃ B, BinList.make s rcut size pbc = .ok B ∧ BinOk B ∧
      B.supercell = CSupercell.make s (binScaling s rcut pbc) ∧ B.rcut = rcut ∧ B.binSize = size ∧
      B.pbc = pbc ∧
      B.numBin = fun p => ⌈(s.makeSupercell (binScaling s rcut pbc)).projected p / size p⌉ := by
  set S := CSupercell.make s (binScaling s rcut pbc) with hS
  set nb : Fin 3 → ℤ := fun p => ⌈S.struct.projected p / size p⌉ with hnb
  set bins := S.struct.atoms.map (fun a => linIdx nb (binIdx S.struct.minLimit size a.2)) with hbins
  have hin' : ∀ a ∈ S.struct.atoms, ∀ p, 0 ≤ binIdx S.struct.minLimit size a.2 p ∧
      binIdx S.struct.minLimit size a.2 p < nb p := hin
  clear hin
  clear_value S nb
  have hb : ∀ b ∈ bins, 0 ≤ b ∧ b < ((nb 0 * nb 1 * nb 2).toNat : ℕ) := by
    intro b hb
    obtain ⟨a, ha, rfl⟩ := List.mem_map.1 hb
    have := linIdx_bounds (hin' a ha)
    omega
  obtain ⟨heads, nexts, h1, h2, h3, h4⟩ := fillBins_ok _ bins hb
  have hl : bins.length = S.struct.atoms.length := by simp [hbins]
  refine ⟨⟨S, rcut, size, pbc, nb, S.struct.minLimit, heads, nexts⟩, ?_, ?_, rfl, rfl, rfl, rfl, ?_⟩
  · unfold BinList.make
    rw [if_neg hne, if_neg (not_not.2 ⟨hr, hs, hi⟩)]
    have e : ∀ p, ⌈S.struct.projected p / size p⌉ = nb p := fun p => (congrFun hnb p).symm
    simp only [← hS, ← hbins, e]
    rw [← hl]
    show (fillBins bins 0 _ _ >>= _) = _
    rw [h1]
    rfl
  · refine ⟨hr, hs, rfl, hin', by rw [← hl]; exact h3, ?_⟩
    intro b hb
    have hb' : b < (nb 0 * nb 1 * nb 2).toNat := by
      have hb2 : (b : ℤ) < nb 0 * nb 1 * nb 2 := hb
      omega
    exact h4 b hb'
  · rw [hnb, hS]; rfl

/-- The atom with this index passes the distance test. -/
noncomputable def BinList.closeAt (B : BinList) (c : Vec ℝ) (k : ℕ) : Bool :=
  match B.supercell.struct.atoms[k]? with
  | some a => B.close c a.2
  | none => false

/-- The accepted atoms of one bin. -/
noncomputable def BinList.inBin (B : BinList) (c : Vec ℝ) (b : ℤ) : List ℕ :=
  if b = -1 then [] else (binMembers B.bs b).filter (B.closeAt c)

theorem BinList.fromBin_spec (B : BinList) (hB : BinOk B) (c : Vec ℝ) (b : ℤ)
    (hb : b = -1 ∨ (0 ≤ b ∧ b < B.numBin 0 * B.numBin 1 * B.numBin 2)) :
    B.fromBin c b = .ok ((B.inBin c b).map (fun k : ℕ => (k : ℤ))) := by
  unfold BinList.fromBin BinList.inBin
  by_cases h : b = -1
  · rw [if_pos h, if_pos h]; rfl
  · rw [if_neg h, if_neg h]
    have hb : 0 ≤ b ∧ b < B.numBin 0 * B.numBin 1 * B.numBin 2 := by
      rcases hb with hb | hb
      · exact absurd hb h
      · exact hb
    obtain ⟨hd, g1, g2⟩ := hB.chain b.toNat (by omega)
    have hbz : ((b.toNat : ℕ) : ℤ) = b := by omega
    rw [hbz] at g2
    have hlen : (binMembers B.bs b).length ≤ B.nexts.length := by
      rw [hB.nexts]
      have := binMembers_length B.bs b
      simpa [BinList.bs] using this
    rw [cGet_ok.2 ⟨hb.1, g1⟩, ok_bind, g2.walk _ hlen, ok_bind]
    have hm : ((binMembers B.bs b).map (fun k : ℕ => (k : ℤ))).mapM (fun k => (do
        let a ← cGet B.supercell.struct.atoms k
        return (k, B.close c a.2) : Except CErr (ℤ × Bool)))
        = .ok ((binMembers B.bs b).map (fun k : ℕ => ((k : ℤ), B.closeAt c k))) := by
      rw [mapM_eq_ok, List.forall₂_map_left_iff, List.forall₂_map_right_iff, List.forall₂_same]
      intro k hk
      rw [mem_binMembers] at hk
      unfold BinList.bs at hk
      rw [List.getElem?_map, Option.map_eq_some_iff] at hk
      obtain ⟨a, ha, _⟩ := hk
      rw [cGet_nat ha, ok_bind]
      unfold BinList.closeAt
      rw [ha]
      rfl
    rw [hm, ok_bind]
    refine congrArg Except.ok ?_
    rw [List.filter_map, List.map_map]
    rfl

theorem neighBinsOf_range (B : BinList) (b : Fin 3 → ℤ) :
    ∀ x ∈ B.neighBinsOf b, x = -1 ∨ (0 ≤ x ∧ x < B.numBin 0 * B.numBin 1 * B.numBin 2) := by
  intro x hx
  unfold BinList.neighBinsOf at hx
  obtain ⟨o, _, rfl⟩ := List.mem_map.1 hx
  simp only
  split_ifs with h
  · right
    apply linIdx_bounds
    intro p
    fin_cases p
    · exact h.1
    · exact h.2.1
    · exact h.2.2
  · left; rfl

/-- What `get_neigh_atoms` returns when all atoms are inside the box. -/
noncomputable def BinList.found (B : BinList) (c : Vec ℝ) : List ℕ :=
  (B.neighBinsOf (binIdx B.minLimit B.binSize c)).flatMap (B.inBin c)

theorem BinList.neighAtoms_spec (B : BinList) (hB : BinOk B) (i : ℕ) (c : Vec ℝ)
    (hi : i < B.supercell.primNum) (hc : B.centre i = .ok c) :
    B.neighAtoms i = .ok ((B.found c).map (fun k : ℕ => (k : ℤ))) := by
  unfold BinList.neighAtoms BinList.neighBins
  rw [hc, ok_bind, if_neg (not_not.2 hi), ok_bind, ← hB.lim]
  show ((B.neighBinsOf (binIdx B.minLimit B.binSize c)).mapM (B.fromBin c) >>= _) = _
  rw [mapM_map_ok (g := fun b => (B.inBin c b).map (fun k : ℕ => (k : ℤ)))
    (fun b hb => B.fromBin_spec hB c b (neighBinsOf_range B _ b hb)), ok_bind]
  refine congrArg Except.ok ?_
  unfold BinList.found
  rw [List.map_flatMap, List.flatMap_def]

theorem sum_indicator {α : Type} (l : List α) (P : α → Prop) [DecidablePred P] :
    (l.map (fun a => if P a then 1 else 0)).sum = l.countP (fun a => decide (P a)) := by
  induction l with
  | nil => rfl
  | cons a l ih =>
    rw [List.map_cons, List.sum_cons, ih, List.countP_cons]
    by_cases h : P a
    · simp [h, add_comm]
    · simp [h]

/-- How often an atom occurs in the result: once per visit of its bin. -/
theorem BinList.count_found (B : BinList) (hB : BinOk B) (c : Vec ℝ) (k : ℕ) (a : ℤ × Vec ℝ)
    (ha : B.supercell.struct.atoms[k]? = some a) :
    (B.found c).count k = if B.close c a.2 = true then
      (cRange3 (fun p => -B.ext p) B.ext).countP (fun o => decide (∀ p,
        wrapBin (B.pbc p) (B.numBin p) (binIdx B.minLimit B.binSize c p + o p)
          = binIdx B.minLimit B.binSize a.2 p)) else 0 := by
  have hin := hB.inside a (List.mem_of_getElem? ha)
  set bk := binIdx B.minLimit B.binSize a.2 with hbk
  have hbsk : B.bs[k]? = some (linIdx B.numBin bk) := by
    unfold BinList.bs; rw [List.getElem?_map, ha]; rfl
  have hcl : B.closeAt c k = B.close c a.2 := by unfold BinList.closeAt; rw [ha]
  unfold BinList.found
  rw [List.count_flatMap]
  have e1 : (List.count k ∘ B.inBin c) = fun b =>
      if (B.close c a.2 = true ∧ b = linIdx B.numBin bk) then 1 else 0 := by
    funext b
    show (B.inBin c b).count k = _
    unfold BinList.inBin
    have hpos := (linIdx_bounds hin).1
    by_cases h : b = -1
    · rw [if_pos h, if_neg (by rintro ⟨_, h'⟩; omega)]; rfl
    · rw [if_neg h]
      by_cases hc2 : B.close c a.2 = true ∧ b = linIdx B.numBin bk
      · rw [if_pos hc2]
        apply List.count_eq_one_of_mem ((binMembers_nodup _ _).filter _)
        rw [List.mem_filter, mem_binMembers, hcl]
        exact ⟨by rw [hbsk, hc2.2], hc2.1⟩
      · rw [if_neg hc2]
        apply List.count_eq_zero_of_not_mem
        intro hm
        rw [List.mem_filter, mem_binMembers, hbsk, hcl] at hm
        exact hc2 ⟨hm.2, (Option.some.inj hm.1).symm⟩
  rw [e1, sum_indicator]
  by_cases hc2 : B.close c a.2 = true
  · rw [if_pos hc2]
    unfold BinList.neighBinsOf
    rw [List.countP_map]
    apply List.countP_congr
    intro o _
    simp only [Function.comp, hc2, true_and, decide_eq_true_eq]
    split_ifs with h
    · constructor
      · intro he
        have := linIdx_inj (b := fun p => wrapBin (B.pbc p) (B.numBin p) (binIdx B.minLimit B.binSize c p + o p)) (by
          intro p
          fin_cases p
          · exact h.1
          · exact h.2.1
          · exact h.2.2) hin he
        intro p
        exact congrFun this p
      · intro he
        congr 1
        funext p
        exact he p
    · constructor
      · intro he
        have hpos := (linIdx_bounds hin).1
        omega
      · intro he
        exfalso
        apply h
        rw [he 0, he 1, he 2]
        exact ⟨hin 0, hin 1, hin 2⟩
  · rw [if_neg hc2]
    rw [List.countP_eq_zero]
    intro b _
    simp [hc2]

/-- With enough bins along periodic axes each close atom is found exactly once. -/
theorem BinList.found_spec (B : BinList) (hB : BinOk B) (c : Vec ℝ)
    (hn : ∀ p, B.pbc p = true → 2 * B.ext p + 1 ≤ B.numBin p) :
    (B.found c).Nodup ∧ ∀ k, k ∈ B.found c ↔
      ∃ a, B.supercell.struct.atoms[k]? = some a ∧ dist3 a.2 c < B.rcut ∧ 1 / 1000 < dist3 a.2 c ^ 2 := by
  have hclose : ∀ x, B.close c x = true ↔ dist3 x c < B.rcut ∧ 1 / 1000 < dist3 x c ^ 2 := by
    intro x
    unfold BinList.close
    rw [decide_eq_true_eq, cDist2_lt hB.rcut, cDist2_sq]
  have hone : ∀ k a, B.supercell.struct.atoms[k]? = some a → B.close c a.2 = true →
      (B.found c).count k = 1 := by
    intro k a ha hcl
    rw [B.count_found hB c k a ha, if_pos hcl]
    have hin := hB.inside a (List.mem_of_getElem? ha)
    apply count_of_unique _ _ (cRange3_nodup _ _)
      (fun p => binIdx B.minLimit B.binSize a.2 p - binIdx B.minLimit B.binSize c p)
    · rw [mem_cRange3]
      intro p
      have hd : |a.2 p - c p| ≤ B.rcut :=
        le_trans (comp_le_dist3 _ _ _) ((hclose _).1 hcl).1.le
      have h2 : |(a.2 p - B.minLimit p) / B.binSize p - (c p - B.minLimit p) / B.binSize p|
          ≤ B.rcut / B.binSize p := by
        rw [← sub_div, abs_div, abs_of_pos (hB.size p)]
        apply div_le_div_of_nonneg_right _ (hB.size p).le
        have : a.2 p - B.minLimit p - (c p - B.minLimit p) = a.2 p - c p := by ring
        rw [this]
        exact hd
      have := floor_diff h2
      rw [abs_le] at this
      exact this
    · intro p
      have : binIdx B.minLimit B.binSize c p +
          (binIdx B.minLimit B.binSize a.2 p - binIdx B.minLimit B.binSize c p)
          = binIdx B.minLimit B.binSize a.2 p := by ring
      rw [this]
      exact wrapBin_self (hin p)
    · intro o ho hP
      rw [mem_cRange3] at ho
      funext p
      apply wrapBin_inj (e := B.ext p) (hn p) (ho p) _ (hP p)
      · have : binIdx B.minLimit B.binSize c p +
          (binIdx B.minLimit B.binSize a.2 p - binIdx B.minLimit B.binSize c p)
          = binIdx B.minLimit B.binSize a.2 p := by ring
        rw [this]
        exact wrapBin_self (hin p)
      · have hd : |a.2 p - c p| ≤ B.rcut :=
          le_trans (comp_le_dist3 _ _ _) ((hclose _).1 hcl).1.le
        have h2 : |(a.2 p - B.minLimit p) / B.binSize p - (c p - B.minLimit p) / B.binSize p|
            ≤ B.rcut / B.binSize p := by
          rw [← sub_div, abs_div, abs_of_pos (hB.size p)]
          apply div_le_div_of_nonneg_right _ (hB.size p).le
          have : a.2 p - B.minLimit p - (c p - B.minLimit p) = a.2 p - c p := by ring
          rw [this]
          exact hd
        have := floor_diff h2
        rw [abs_le] at this
        exact this
  have hmem : ∀ k, k ∈ B.found c → ∃ a, B.supercell.struct.atoms[k]? = some a ∧ B.close c a.2 = true := by
    intro k hk
    unfold BinList.found at hk
    obtain ⟨b, _, hk⟩ := List.mem_flatMap.1 hk
    unfold BinList.inBin at hk
    split_ifs at hk with hb
    · simp at hk
    · rw [List.mem_filter] at hk
      have := hk.2
      unfold BinList.closeAt at this
      cases ha : B.supercell.struct.atoms[k]? with
      | none => rw [ha] at this; simp at this
      | some a => rw [ha] at this; exact ⟨a, rfl, this⟩
  constructor
  · rw [List.nodup_iff_count_le_one]
    intro k
    by_cases hk : k ∈ B.found c
    · obtain ⟨a, ha, hcl⟩ := hmem k hk
      rw [hone k a ha hcl]
    · rw [List.count_eq_zero_of_not_mem hk]; omega
  · intro k
    constructor
    · intro hk
      obtain ⟨a, ha, hcl⟩ := hmem k hk
      exact ⟨a, ha, (hclose _).1 hcl⟩
    · rintro ⟨a, ha, hcl⟩
      rw [← List.count_pos_iff, hone k a ha ((hclose _).2 hcl)]
      omega

end MaterSDK
