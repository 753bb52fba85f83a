import Verif.Lemmas.CellListInfo

/-! # The C++ neighbour list with bins of any size (helpers of C83) -/

namespace MaterSDK

open Classical Matrix

theorem BinList.found_close (B : BinList) (c : Vec ℝ) (k : ℕ) (hk : k ∈ B.found c) :
    ∃ a, B.supercell.struct.atoms[k]? = some a ∧ B.close c a.2 = true := by
  unfold BinList.found at hk
  obtain ⟨b, _, hk⟩ := List.mem_flatMap.1 hk
  unfold BinList.inBin at hk
  split_ifs at hk with hb
  · simp at hk
  · rw [List.mem_filter] at hk
    have := hk.2
    unfold BinList.closeAt at this
    cases ha : B.supercell.struct.atoms[k]? with
    | none => rw [ha] at this; simp at this
    | some a => rw [ha] at this; exact ⟨a, rfl, this⟩

theorem BinList.close_iff (B : BinList) (hB : BinOk B) (c x : Vec ℝ) :
    B.close c x = true ↔ dist3 x c < B.rcut ∧ 1 / 1000 < dist3 x c ^ 2 := by
  unfold BinList.close
  rw [decide_eq_true_eq, cDist2_lt hB.rcut, cDist2_sq]

/-- Whatever the size of the bins, the set of atoms found is right. -/
theorem BinList.mem_found (B : BinList) (hB : BinOk B) (c : Vec ℝ) (k : ℕ) :
    k ∈ B.found c ↔
      ∃ a, B.supercell.struct.atoms[k]? = some a ∧ dist3 a.2 c < B.rcut ∧ 1 / 1000 < dist3 a.2 c ^ 2 := by
  constructor
  · intro hk
    obtain ⟨a, ha, h⟩ := B.found_close c k hk
    exact ⟨a, ha, (B.close_iff hB c _).1 h⟩
  · rintro ⟨a, ha, h⟩
    have hcl := (B.close_iff hB c a.2).2 h
    have hin := hB.inside a (List.mem_of_getElem? ha)
    rw [← List.count_pos_iff, B.count_found hB c k a ha, if_pos hcl, List.countP_pos_iff]
    refine ⟨fun p => binIdx B.minLimit B.binSize a.2 p - binIdx B.minLimit B.binSize c p, ?_, ?_⟩
    · rw [mem_cRange3]
      intro p
      have hd : |a.2 p - c p| ≤ B.rcut := le_trans (comp_le_dist3 _ _ _) h.1.le
      have h2 : |(a.2 p - B.minLimit p) / B.binSize p - (c p - B.minLimit p) / B.binSize p|
          ≤ B.rcut / B.binSize p := by
        rw [← sub_div, abs_div, abs_of_pos (hB.size p)]
        apply div_le_div_of_nonneg_right _ (hB.size p).le
        have : a.2 p - B.minLimit p - (c p - B.minLimit p) = a.2 p - c p := by ring
        rw [this]
        exact hd
      have := floor_diff h2
      rw [abs_le] at this
      exact this
    · rw [decide_eq_true_eq]
      intro p
      have : binIdx B.minLimit B.binSize c p +
          (binIdx B.minLimit B.binSize a.2 p - binIdx B.minLimit B.binSize c p)
          = binIdx B.minLimit B.binSize a.2 p := by ring
      rw [this]
      exact wrapBin_self (hin p)

theorem lists_perm (A : ArgSort) (s : CStruct) (rcut : ℝ) (size : Vec ℝ) (pbc : Fin 3 → Bool)
    (sort : Bool)
    (hdet : (Matrix.of s.basis).det ≠ 0) (hne : s.atoms ≠ [])
    (hfrac : ∀ a ∈ s.atoms, InCell s.basis a.2) (hdir : ∀ p, ∃ q, 0 < s.basis q p)
    (hr : 0 < rcut) (hs : ∀ p, 0 < size p) :
    ∃ N, NbrLists.makeWith A s rcut size pbc sort = .ok N ∧ BinOk N.bins ∧
      N.bins.supercell = CSupercell.make s (oddScale s rcut pbc) ∧ N.bins.rcut = rcut ∧
      N.bins.binSize = size ∧ N.bins.pbc = pbc ∧
      (N.bins.numBin = fun p => ⌈(s.makeSupercell (oddScale s rcut pbc)).projected p / size p⌉) ∧
      ∃ K : List (List ℕ), N.lists = K.map (fun ks => ks.map (fun k : ℕ => (k : ℤ))) ∧
        K.length = s.atoms.length ∧
        ∀ (i : ℕ) (c : ℤ × Vec ℝ), s.atoms[i]? = some c → ∃ ks : List ℕ, K[i]? = some ks ∧
          ks.Perm (N.bins.found c.2) := by
  obtain ⟨B, hmk, hB, hsup, hrc, hsz, hpb, hnb⟩ := bins_core s rcut size pbc hdet hne hfrac hdir hr hs
  have hst : B.supercell.struct = s.makeSupercell (oddScale s rcut pbc) := by rw [hsup]; rfl
  have hfound : ∀ c k, k ∈ B.found c → ∃ a, B.supercell.struct.atoms[k]? = some a := fun c k hk =>
    let ⟨a, ha, _⟩ := B.found_close c k hk; ⟨a, ha⟩
  have hpn : B.supercell.primNum = s.atoms.length := by rw [hsup]; rfl
  set F : ℕ → List ℕ := fun i => B.found ((s.atoms[i]?).map (fun c => c.2) |>.getD 0) with hF
  have hcen : ∀ (i : ℕ) (c : ℤ × Vec ℝ), s.atoms[i]? = some c → B.centre i = .ok c.2 := centre_ok s rcut pbc B hsup
  have hFc : ∀ (i : ℕ) (c : ℤ × Vec ℝ), s.atoms[i]? = some c → F i = B.found c.2 := by
    intro i c h; simp only [hF, h, Option.map_some, Option.getD_some]
  have hlists : (List.range B.supercell.primNum).mapM B.neighAtoms
      = .ok ((List.range B.supercell.primNum).map (fun i => (F i).map (fun k : ℕ => (k : ℤ)))) := by
    apply mapM_map_ok
    intro i hi
    rw [List.mem_range, hpn] at hi
    have hg := List.getElem?_eq_getElem hi
    rw [B.neighAtoms_spec hB i _ (by rw [hpn]; exact hi) (hcen i _ hg), hFc i _ hg]
  unfold NbrLists.makeWith
  rw [hmk, ok_bind]
  unfold NbrLists.build
  rw [hlists, ok_bind, hpn]
  cases sort with
  | false =>
    refine ⟨⟨B, (List.range s.atoms.length).map (fun i => (F i).map (fun k : ℕ => (k : ℤ)))⟩, rfl, hB, hsup,
      hrc, hsz, hpb, hnb, (List.range s.atoms.length).map F, by simp, by simp, ?_⟩
    intro i c hc
    obtain ⟨hi, _⟩ := List.getElem?_eq_some_iff.1 hc
    refine ⟨F i, by simp [hi], ?_⟩
    rw [hFc i c hc]
  | true =>
    have hsort : ∀ (i : ℕ) (c : ℤ × Vec ℝ), s.atoms[i]? = some c → ∃ l' : List ℕ,
        sortByDistance A B.supercell.struct.atoms c.2 ((F i).map (fun k : ℕ => (k : ℤ)))
          = .ok (l'.map (fun k : ℕ => (k : ℤ))) ∧ l'.Perm (F i) ∧
        (l'.map (atomDist B.supercell.struct.atoms c.2)).Pairwise (· ≤ ·) := by
      intro i c hc
      apply sortByDistance_spec
      intro k hk
      rw [hFc i c hc] at hk
      obtain ⟨a, ha⟩ := hfound c.2 k hk
      exact (List.getElem?_eq_some_iff.1 ha).1
    have hsort' : ∀ i : ℕ, ∃ l' : List ℕ, ∀ c, s.atoms[i]? = some c →
        sortByDistance A B.supercell.struct.atoms c.2 ((F i).map (fun k : ℕ => (k : ℤ)))
          = .ok (l'.map (fun k : ℕ => (k : ℤ))) ∧ l'.Perm (F i) ∧
        (l'.map (atomDist B.supercell.struct.atoms c.2)).Pairwise (· ≤ ·) := by
      intro i
      cases h : s.atoms[i]? with
      | none => exact ⟨[], by simp⟩
      | some c =>
        obtain ⟨l', h'⟩ := hsort i c h
        exact ⟨l', fun c' hc' => by cases hc'; exact h'⟩
    choose G hG using hsort'
    have hz : ((List.range s.atoms.length).map (fun i => (F i).map (fun k : ℕ => (k : ℤ)))).zipIdx
        = (List.range s.atoms.length).map (fun i => ((F i).map (fun k : ℕ => (k : ℤ)), i)) := by
      apply List.ext_getElem?
      intro i
      rw [List.getElem?_zipIdx, List.getElem?_map, List.getElem?_map]
      by_cases h : i < s.atoms.length
      · simp [h]
      · simp [h]
    have hm : ((List.range s.atoms.length).map (fun i => (F i).map (fun k : ℕ => (k : ℤ)))).zipIdx.mapM
        (fun e => (do
          let c ← B.centre e.2
          sortByDistance A B.supercell.struct.atoms c e.1 : Except CErr (List ℤ)))
        = .ok ((List.range s.atoms.length).map (fun i => (G i).map (fun k : ℕ => (k : ℤ)))) := by
      rw [hz, mapM_eq_ok, List.forall₂_map_left_iff, List.forall₂_map_right_iff, List.forall₂_same]
      intro i hi
      rw [List.mem_range] at hi
      have hg := List.getElem?_eq_getElem hi
      simp only [hcen i _ hg, ok_bind]
      exact (hG i _ hg).1
    refine ⟨⟨B, (List.range s.atoms.length).map (fun i => (G i).map (fun k : ℕ => (k : ℤ)))⟩, ?_, hB, hsup,
      hrc, hsz, hpb, hnb, (List.range s.atoms.length).map G, by simp, by simp, ?_⟩
    · simp only [if_true]
      rw [hm]
      rfl
    · intro i c hc
      obtain ⟨hi, _⟩ := List.getElem?_eq_some_iff.1 hc
      obtain ⟨_, g2, g3⟩ := hG i c hc
      refine ⟨G i, by simp [hi], ?_⟩
      rw [hFc i c hc] at g2
      exact g2

end MaterSDK
