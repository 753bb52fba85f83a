import Verif.Lemmas.BinSizes
import Verif.Lemmas.CellListAux
import Mathlib.Tactic.NormNum

/-! # C83 for bins of any size -/

namespace MaterSDK

open Classical Matrix

/-- C83: which neighbours are found never depends on the bin sizes. For all positive bin sizes the neighbour
list can be made, and two lists with different bin sizes hold the same neighbours of every atom. (They may
hold a neighbour several times, see `C83_multiplicity`.) -/
theorem C83_same_set (A : ArgSort) (L : Fin 3 → Vec ℝ) (atoms : List (ℤ × Vec ℝ))
    (rcut : ℝ) (pbc : Fin 3 → Bool) (sort sort' : Bool) (hok : CellOk L atoms (fun _ => true)) (hr : 0 < rcut)
    (size size' : Vec ℝ) (hs : ∀ p, 0 < size p) (hs' : ∀ p, 0 < size' p) :
    ∃ N N', NbrLists.makeWith A (CStruct.make L atoms true) rcut size pbc sort = .ok N ∧
      NbrLists.makeWith A (CStruct.make L atoms true) rcut size' pbc sort' = .ok N' ∧
      N.lists.length = atoms.length ∧
      List.Forall₂ (fun l l' => ∀ k, k ∈ l ↔ k ∈ l') N.lists N'.lists := by
  set s := CStruct.make L atoms true with hsd
  obtain ⟨N, h1, hB, hsup, hrc, -, -, -, K, h4, h5, h6⟩ := lists_perm A s rcut size pbc sort
    hok.nonsing hok.nonempty hok.inCell hok.dir hr hs
  obtain ⟨N', h1', hB', hsup', hrc', -, -, -, K', h4', h5', h6'⟩ := lists_perm A s rcut size' pbc sort'
    hok.nonsing hok.nonempty hok.inCell hok.dir hr hs'
  refine ⟨N, N', h1, h1', by rw [h4, List.length_map, h5]; rfl, ?_⟩
  rw [h4, h4', List.forall₂_map_left_iff, List.forall₂_map_right_iff, List.forall₂_iff_get]
  refine ⟨by rw [h5, h5'], ?_⟩
  intro i hi hi' k
  have hlt : i < s.atoms.length := by rw [← h5]; exact hi
  obtain ⟨ks, g1, g2⟩ := h6 i _ (List.getElem?_eq_getElem hlt)
  obtain ⟨ks', g1', g2'⟩ := h6' i _ (List.getElem?_eq_getElem hlt)
  rw [List.get_eq_getElem, List.get_eq_getElem, (List.getElem?_eq_some_iff.1 g1).2,
    (List.getElem?_eq_some_iff.1 g1').2]
  have hk : ∀ m : ℕ, m ∈ ks ↔ m ∈ ks' := by
    intro m
    rw [g2.mem_iff, g2'.mem_iff, N.bins.mem_found hB, N'.bins.mem_found hB', hsup, hsup', hrc, hrc']
  simp only [List.mem_map, hk]

/-- C83: bins of any size fine enough. If along the periodic axes the box around the supercell is longer than
twice the cutoff rounded up to whole bins, both for `size` and for `size'`, the two lists hold the same
neighbours, each once. -/
theorem C83_fine_bins (A : ArgSort) (L : Fin 3 → Vec ℝ) (atoms : List (ℤ × Vec ℝ))
    (rcut : ℝ) (pbc : Fin 3 → Bool) (sort sort' : Bool) (hok : CellOk L atoms (fun _ => true)) (hr : 0 < rcut)
    (size size' : Vec ℝ) (hs : ∀ p, 0 < size p) (hs' : ∀ p, 0 < size' p)
    (hf : ∀ p, pbc p = true → 2 * (⌈rcut / size p⌉ * size p) <
      ((CStruct.make L atoms true).makeSupercell (binScaling (CStruct.make L atoms true) rcut pbc)).projected p)
    (hf' : ∀ p, pbc p = true → 2 * (⌈rcut / size' p⌉ * size' p) <
      ((CStruct.make L atoms true).makeSupercell (binScaling (CStruct.make L atoms true) rcut pbc)).projected p) :
    ∃ N N', NbrLists.makeWith A (CStruct.make L atoms true) rcut size pbc sort = .ok N ∧
      NbrLists.makeWith A (CStruct.make L atoms true) rcut size' pbc sort' = .ok N' ∧
      (∀ l ∈ N.lists, l.Nodup) ∧ List.Forall₂ List.Perm N.lists N'.lists := by
  set s := CStruct.make L atoms true with hsd
  rw [binScaling_odd s rcut pbc hr (interplanar_pos s hok.nonsing)] at hf hf'
  have hbins : ∀ size : Vec ℝ, (∀ p, 0 < size p) → (∀ p, pbc p = true → 2 * (⌈rcut / size p⌉ * size p) <
      (s.makeSupercell (oddScale s rcut pbc)).projected p) → ∀ p, pbc p = true → 2 * ⌈rcut / size p⌉ + 1
        ≤ ⌈(s.makeSupercell (oddScale s rcut pbc)).projected p / size p⌉ := by
    intro size hs hf p hp
    have : 2 * ⌈rcut / size p⌉ < ⌈(s.makeSupercell (oddScale s rcut pbc)).projected p / size p⌉ := by
      rw [Int.lt_ceil, lt_div_iff₀ (hs p)]
      push_cast
      have := hf p hp
      linarith
    omega
  obtain ⟨N, h1, _, _, K, h4, h5, h6⟩ := lists_core A s rcut size pbc sort
    hok.nonsing hok.nonempty hok.inCell hok.dir hr hs (hbins size hs hf)
  obtain ⟨N', h1', _, _, K', h4', h5', h6'⟩ := lists_core A s rcut size' pbc sort'
    hok.nonsing hok.nonempty hok.inCell hok.dir hr hs' (hbins size' hs' hf')
  refine ⟨N, N', h1, h1', ?_, ?_⟩
  · intro l hl
    rw [h4] at hl
    obtain ⟨ks, hks, rfl⟩ := List.mem_map.1 hl
    obtain ⟨i, hi, rfl⟩ := List.mem_iff_getElem.1 hks
    obtain ⟨ks, g1, g2, -⟩ := h6 i _ (List.getElem?_eq_getElem (h5 ▸ hi))
    rw [(List.getElem?_eq_some_iff.1 g1).2]
    exact g2.map Nat.cast_injective
  rw [h4, h4', List.forall₂_map_left_iff, List.forall₂_map_right_iff, List.forall₂_iff_get]
  refine ⟨by rw [h5, h5'], ?_⟩
  intro i hi hi'
  have hlt : i < s.atoms.length := by rw [← h5]; exact hi
  obtain ⟨ks, g1, g2, g3, _⟩ := h6 i _ (List.getElem?_eq_getElem hlt)
  obtain ⟨ks', g1', g2', g3', _⟩ := h6' i _ (List.getElem?_eq_getElem hlt)
  rw [List.get_eq_getElem, List.get_eq_getElem, (List.getElem?_eq_some_iff.1 g1).2,
    (List.getElem?_eq_some_iff.1 g1').2]
  exact ((List.perm_ext_iff_of_nodup g2 g2').2 (fun k => by rw [g3, g3'])).map _

/-- C83: how often a neighbour is listed. With `e p` the cutoff in whole bins, `nb p` the number of bins and
`bin x p` the bin of a point, the stored atom `k` occurs in the list of an atom at `c` once for every offset
`o` with `|o p| ≤ e p` whose (wrapped) bin is the bin of atom `k`. -/
theorem C83_multiplicity (A : ArgSort) (L : Fin 3 → Vec ℝ) (atoms : List (ℤ × Vec ℝ))
    (rcut : ℝ) (pbc : Fin 3 → Bool) (sort : Bool) (hok : CellOk L atoms (fun _ => true)) (hr : 0 < rcut)
    (size : Vec ℝ) (hs : ∀ p, 0 < size p) (S : CStruct)
    (hS : S = (CStruct.make L atoms true).makeSupercell (binScaling (CStruct.make L atoms true) rcut pbc))
    (bin : Vec ℝ → Fin 3 → ℤ) (hbin : ∀ x p, bin x p = ⌊(x p - S.minLimit p) / size p⌋)
    (nb : Fin 3 → ℤ) (hnb : ∀ p, nb p = ⌈S.projected p / size p⌉) :
    ∃ N, NbrLists.makeWith A (CStruct.make L atoms true) rcut size pbc sort = .ok N ∧
      ∀ (i k : ℕ) (c a : ℤ × Vec ℝ), atoms[i]? = some c → S.atoms[k]? = some a →
        ∃ l, N.lists[i]? = some l ∧ l.count (k : ℤ) =
          if dist3 a.2 c.2 < rcut ∧ 1 / 1000 < dist3 a.2 c.2 ^ 2 then
            Set.ncard {o : Fin 3 → ℤ | ∀ p, |o p| ≤ ⌈rcut / size p⌉ ∧
              (if pbc p then (bin c.2 p + o p + nb p).tmod (nb p) else bin c.2 p + o p) = bin a.2 p}
          else 0 := by
  set s := CStruct.make L atoms true with hsd
  rw [binScaling_odd s rcut pbc hr (interplanar_pos s hok.nonsing)] at hS
  obtain ⟨N, h1, hB, hsup, hrc, hsz, hpb, hnum, K, h4, h5, h6⟩ := lists_perm A s rcut size pbc sort
    hok.nonsing hok.nonempty hok.inCell hok.dir hr hs
  refine ⟨N, h1, fun i k c a hc ha => ?_⟩
  obtain ⟨ks, g1, g2⟩ := h6 i c hc
  have hst : N.bins.supercell.struct = S := by rw [hsup, hS]; rfl
  refine ⟨ks.map (fun k : ℕ => (k : ℤ)), by rw [h4, List.getElem?_map, g1]; rfl, ?_⟩
  rw [List.count_map_of_injective _ _ Nat.cast_injective, g2.count_eq,
    N.bins.count_found hB c.2 k a (by rw [hst]; exact ha)]
  by_cases hcl : dist3 a.2 c.2 < rcut ∧ 1 / 1000 < dist3 a.2 c.2 ^ 2
  · rw [if_pos hcl, if_pos ((N.bins.close_iff hB _ _).2 (by rw [hrc]; exact hcl)),
      List.countP_eq_length_filter, ← List.toFinset_card_of_nodup ((cRange3_nodup _ _).filter _),
      ← Set.ncard_coe_finset]
    congr 1
    ext o
    rw [List.coe_toFinset, Set.mem_ofPred_eq, Set.mem_ofPred_eq, List.mem_filter, mem_cRange3, decide_eq_true_eq,
      ← forall_and]
    have hb : ∀ x p, binIdx N.bins.minLimit N.bins.binSize x p = bin x p := by
      intro x p
      rw [hbin, hB.lim, hst, hsz]
      rfl
    have hn : ∀ p, N.bins.numBin p = nb p := by
      intro p
      rw [hnum, hnb, hS]
      rfl
    have he : ∀ p, N.bins.ext p = ⌈rcut / size p⌉ := by
      intro p
      unfold BinList.ext
      rw [hrc, hsz]
    refine forall_congr' fun p => ?_
    rw [hb, hb, hn, he, hpb, abs_le]
    unfold wrapBin
    cases pbc p <;> simp
  · rw [if_neg hcl, if_neg (fun h => hcl (by rw [← hrc]; exact (N.bins.close_iff hB _ _).1 h))]

-- Bin sizes to which the theorems apply: neither 7/5 nor 2/3 divides the cutoff 3.
example (A : ArgSort) := C83_same_set A exL exAtoms 3 ![true, true, false] false true
  (exL_ok _ (Or.inl rfl)) (by norm_num) ![7/5, 20, 1] (fun _ => 2/3)
  (by intro p; fin_cases p <;> norm_num) (by intro p; norm_num)

example : ∀ p : Fin 3, 2 * (⌈(3 : ℝ) / (7/5)⌉ * (7/5)) <
    ((CStruct.make (cube 4) [(1, ![0, 0, 0])] true).makeSupercell
      (binScaling (CStruct.make (cube 4) [(1, ![0, 0, 0])] true) 3 (fun _ => true))).projected p := by
  intro p
  have h1 : ⌈(3 : ℝ) / (7/5)⌉ = 3 := by rw [Int.ceil_eq_iff]; norm_num
  have h2 : binScaling (CStruct.make (cube 4) [(1, ![0, 0, 0])] true) 3 (fun _ => true) =
      fun _ => 2 * ((1 : ℕ) : ℤ) + 1 := by
    funext p
    show binScaling (CStruct.mk (cube 4) 0 _) 3 _ p = _
    rw [cube_scaling 4 3 0 _ (by norm_num)]
    have : ⌈(3 : ℝ) / |4|⌉ = 1 := by rw [Int.ceil_eq_iff]; norm_num
    rw [this]; norm_num
  rw [h1, h2]
  have := cube_projected 4 0 [(1, ![0, 0, 0])] 1 p
  refine lt_of_lt_of_eq ?_ this.symm
  norm_num

end MaterSDK
