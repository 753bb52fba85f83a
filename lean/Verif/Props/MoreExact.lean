import Verif.Props.Neigh
import Verif.Props.Trajectory
import Verif.Props.Perturb
import Verif.Props.Kpoints
import Verif.Props.MtpMoment

/-!
# C20, C46, C49, C52, C104: exactly when they hold
-/

namespace MaterSDK

open Matrix

/-! ## C20 -/

/-- C20, exactly when the reported number bounds the neighbour table: no centre may have more atoms at a
distance of at most `r` than some centre has at a distance less than `r` (both counts include the centre). -/
theorem C20_bounds_iff (A : ArgSort) (s S : Struct ℝ) (r : ℝ) (sc : Fin 3 → ℤ) (m : Fin 3 → ℕ)
    (h : ∀ i, sc i = 2 * (m i : ℤ) + 1) (hS : s.makeSupercell sc true = .ok S) (hne : s.sites ≠ []) :
    ∃ (table : List (List NbrEntry)) (M : ℤ), neighborTable A s r sc = .ok table ∧
      maxNumNbrsReal s r sc = .ok M ∧
      ((∀ row ∈ table, (row.length : ℤ) ≤ M + 1) ↔
        ∀ c ∈ s.sites, ∃ c' ∈ s.sites,
          S.sites.countP (fun t => decide (dist3 t.pos c.pos ≤ r))
            ≤ S.sites.countP (fun t => decide (dist3 t.pos c'.pos < r))) := by
  obtain ⟨S', table, W, g1, g2, g3, _, g5, g7, g6⟩ := C17_table_exact A s r sc m h
  rw [hS] at g1
  cases g1
  obtain ⟨M, h1, h2, c', hc', h3⟩ := maxNum_spec s S r sc m h hS hne
  have hwl : ∀ p : Vec ℝ, (within S p r).length = S.sites.countP (fun t => decide (dist3 t.pos p ≤ r)) := by
    intro p
    unfold within
    rw [← List.countP_eq_length_filter]
  refine ⟨table, _, g2, h1, ?_⟩
  constructor
  · intro hb c hc
    refine ⟨c', hc', ?_⟩
    have hlen : 0 < table.length := by rw [g3]; exact List.length_pos_iff.2 hne
    have := hb _ (List.getElem_mem hlen)
    rw [g5 _ (List.getElem_mem hlen)] at this
    have h4 := g7 c hc
    rw [hwl] at h4
    rw [h3]
    omega
  · intro hb row hrow
    obtain ⟨c, hc, hW⟩ := g6 hne
    obtain ⟨d, hd, hcd⟩ := hb c hc
    have := h2 d hd
    rw [g5 row hrow, ← hW, hwl]
    omega

example := fun A => C20_bounds_iff A cubicCell _ 1 ![3, 1, 1] ![1, 0, 0] (by decide) cubic_supercell
  (by simp [cubicCell])

/-! ## C46 -/

/-- C46, what the extractor returns for every text: the words 2 to 4 of the rows after the first FORCE row
(all of them, or as many rows as there are), if these are all readable and every row has equally many of
them; otherwise `3 n` zeros. There is no other outcome. -/
theorem C46_exact (text : Str) (a : ACStr) (ha : acStr text = .ok a) (out : List ℚ) :
    a.getFatoms = out ↔
      (∃ (l k : ℕ) (fs : List (List ℚ)), FirstRow (splitCh '\n' text) (chars% "FORCE") l ∧
        List.Forall₂ (fun row f => ReadsAs (((split row).drop 1).take 3) f) (forceRows a l) fs ∧
        (∀ f ∈ fs, f.length = k) ∧ out = fs.flatten) ∨
      ((¬ ∃ (l k : ℕ) (fs : List (List ℚ)), FirstRow (splitCh '\n' text) (chars% "FORCE") l ∧
        List.Forall₂ (fun row f => ReadsAs (((split row).drop 1).take 3) f) (forceRows a l) fs ∧
        (∀ f ∈ fs, f.length = k)) ∧ out = List.replicate (3 * a.numAtoms) 0) := by
  have hs : a.strs = splitCh '\n' text := by
    unfold acStr at ha
    rw [bind_eq_ok] at ha
    obtain ⟨n, _, h⟩ := ha
    cases h; rfl
  have hb : ∀ l, a.block l = forceRows a l := by
    intro l
    unfold ACStr.block forceRows pySlice
    rw [show l + a.numAtoms + 1 - (l + 1) = a.numAtoms by omega]
  have hrow : ∀ row f, rowCoord row = .ok f ↔ ReadsAs (((split row).drop 1).take 3) f := by
    intro row f
    unfold rowCoord pySlice
    rw [mapM_eq_ok]
    rfl
  have hok : ∀ o, a.fatomsBody = .ok o ↔
      ∃ (l k : ℕ) (fs : List (List ℚ)), FirstRow (splitCh '\n' text) (chars% "FORCE") l ∧
        List.Forall₂ (fun row f => ReadsAs (((split row).drop 1).take 3) f) (forceRows a l) fs ∧
        (∀ f ∈ fs, f.length = k) ∧ o = fs.flatten := by
    intro o
    unfold ACStr.fatomsBody
    rw [hs]
    constructor
    · intro h
      obtain ⟨l, hl, h⟩ := bind_eq_ok.1 h
      obtain ⟨fs, hfs, h⟩ := bind_eq_ok.1 h
      rw [hb, mapM_eq_ok] at hfs
      obtain ⟨h1, h2⟩ := npFlat_eq_ok h
      refine ⟨l, (fs.head?.getD []).length, fs, pyGet_listLocate_zero.1 hl,
        hfs.imp (fun _ _ hr => (hrow _ _).1 hr), ?_, h1⟩
      intro f hf
      cases fs with
      | nil => simp at hf
      | cons g gs => exact h2 _ hf _ (by simp)
    · rintro ⟨l, k, fs, hl, hfs, hk, rfl⟩
      have hm : (a.block l).mapM rowCoord = .ok fs := by
        rw [mapM_eq_ok, hb]
        exact hfs.imp (fun _ _ hr => (hrow _ _).2 hr)
      rw [pyGet_listLocate_zero.2 hl, ok_bind, hm, ok_bind, npFlat_of_uniform hk]
  unfold ACStr.getFatoms
  cases hf : a.fatomsBody with
  | ok o =>
    obtain ⟨l, k, fs, h1, h2, h3, h4⟩ := (hok o).1 hf
    constructor
    · rintro rfl
      exact .inl ⟨l, k, fs, h1, h2, h3, h4⟩
    · rintro (h | ⟨h, _⟩)
      · have := (hok out).2 h
        rw [hf] at this
        exact Except.ok.inj this
      · exact absurd ⟨l, k, fs, h1, h2, h3⟩ h
  | error e =>
    have hno : ¬ ∃ (l k : ℕ) (fs : List (List ℚ)), FirstRow (splitCh '\n' text) (chars% "FORCE") l ∧
        List.Forall₂ (fun row f => ReadsAs (((split row).drop 1).take 3) f) (forceRows a l) fs ∧
        (∀ f ∈ fs, f.length = k) := by
      rintro ⟨l, k, fs, h1, h2, h3⟩
      have := (hok fs.flatten).2 ⟨l, k, fs, h1, h2, h3, rfl⟩
      rw [hf] at this
      cases this
    constructor
    · rintro rfl
      exact .inr ⟨hno, by rw [Nat.mul_comm]⟩
    · rintro (⟨l, k, fs, h1, h2, h3, _⟩ | ⟨_, h⟩)
      · exact absurd ⟨l, k, fs, h1, h2, h3⟩ hno
      · rw [h, Nat.mul_comm]

/-- A frame of two atoms whose force rows both have two numbers. -/
def frameTwoForces : Str :=
  chars% "2 atoms,Iteration\nLattice\n5 0 0\n0 5 0\n0 0 5\nPosition\n14 0 0 0 1 1 1\n8 0 0 0.5 1 1 1\nForce\n14 1 2\n8 4 5\n"

/-- C46 fails: force rows that all lack their third number are returned as an array of `2 n` numbers. -/
theorem C46_short_rows_violated :
    (acStr frameTwoForces).map ACStr.getFatoms = .ok [1, 2, 4, 5] := by decide +kernel

/-! ## C49 -/

theorem pyRound_neg_small (x : ℝ) (h0 : 0 ≤ x) (h1 : x ≤ 1 / 2) : pyRound (-x) = 0 := by
  rcases h0.eq_or_lt with rfl | h0
  · have := pyRound_intCast 0
    simpa using this
  · have hf : ⌊-x⌋ = -1 := by
      rw [Int.floor_eq_iff]
      push_cast
      constructor <;> linarith
    unfold pyRound
    simp only [hf]
    push_cast
    rw [if_neg (by linarith)]
    split
    · rfl
    · decide

/-- C49 for negative densities: there is a mesh; a division is 1 along vacuum directions and where the
reciprocal length is at most half the absolute density (in the units of the code); everywhere else it is
negative, the negative of a nearest integer. So all divisions are positive exactly if every direction
is of the first two kinds. -/
theorem C49_negative_exact (s : Struct ℝ) (b : Matrix (Fin 3) (Fin 3) ℝ) (density : ℝ) (hd : density < 0)
    (hb : IsReciprocal s.lattice b) (hs : s.sites ≠ []) :
    ∃ (m : Fin 3 → ℤ) (v : Fin 3 → Bool), getKmesh s density = .ok [m 0, m 1, m 2] ∧
      s.judgeVacuum = .ok [v 0, v 1, v 2] ∧
      (∀ i, (v i = true ∨ norm3 (b i) / (-density * (2 * Real.pi)) ≤ 1 / 2 → m i = 1) ∧
        (v i = false ∧ 1 / 2 < norm3 (b i) / (-density * (2 * Real.pi)) →
          m i ≤ -1 ∧ |((-m i : ℤ) : ℝ) - norm3 (b i) / (-density * (2 * Real.pi))| ≤ 1 / 2)) ∧
      ((∀ i, 1 ≤ m i) ↔ ∀ i, v i = true ∨ norm3 (b i) / (-density * (2 * Real.pi)) ≤ 1 / 2) := by
  obtain ⟨v, hv, -⟩ := (C70_meaning s).2 hs
  have hB := recip_two_pi hb
  have hdet : s.lattice.det ≠ 0 := by
    have hpi : (2 * Real.pi) ≠ 0 := by positivity
    have h1 : s.lattice * ((2 * Real.pi)⁻¹ • b).transpose = 1 := by
      unfold IsReciprocal at hb
      rw [Matrix.transpose_smul, Matrix.mul_smul, hb, smul_smul, inv_mul_cancel₀ hpi, one_smul]
    exact (recip_unique h1).1
  let k : Fin 3 → ℤ := fun i => pyRound (norm3 (b i) / (density * 2 * Real.pi))
  let m : Fin 3 → ℤ := fun i =>
    if (if v i then 1 else k i) = 0 then 1 else (if v i then 1 else k i)
  have hx : ∀ i, norm3 (b i) / (density * 2 * Real.pi) = -(norm3 (b i) / (-density * (2 * Real.pi))) := by
    intro i
    rw [show -density * (2 * Real.pi) = -(density * 2 * Real.pi) by ring, div_neg, neg_neg]
  have hx0 : ∀ i, 0 ≤ norm3 (b i) / (-density * (2 * Real.pi)) := by
    intro i
    refine div_nonneg (Real.sqrt_nonneg _) ?_
    have := Real.pi_pos
    have : 0 < -density := by linarith
    positivity
  have hm : ∀ i, (v i = true ∨ norm3 (b i) / (-density * (2 * Real.pi)) ≤ 1 / 2 → m i = 1) ∧
        (v i = false ∧ 1 / 2 < norm3 (b i) / (-density * (2 * Real.pi)) →
          m i ≤ -1 ∧ |((-m i : ℤ) : ℝ) - norm3 (b i) / (-density * (2 * Real.pi))| ≤ 1 / 2) := by
    intro i
    have hnear : |(k i : ℝ) - norm3 (b i) / (density * 2 * Real.pi)| ≤ 1 / 2 := pyRound_near _
    rw [hx i] at hnear
    simp only [m]
    cases hvi : v i with
    | true => simp
    | false =>
      simp only [Bool.false_eq_true, if_false, false_or, true_and]
      constructor
      · intro h
        have : k i = 0 := by
          simp only [k]
          rw [hx i]
          exact pyRound_neg_small _ (hx0 i) h
        rw [if_pos this]
      · intro h
        have hk : k i ≤ -1 := by
          have := (abs_le.1 hnear).2
          have h2 : (k i : ℝ) < 0 := by linarith
          have : k i < 0 := by exact_mod_cast h2
          omega
        rw [if_neg (by omega)]
        refine ⟨hk, ?_⟩
        rw [← abs_neg] at hnear
        push_cast
        convert hnear using 2
        ring
  refine ⟨m, v, ?_, hv, hm, ?_⟩
  · unfold getKmesh recipLattice
    rw [if_neg hd.ne, recip_cryst_ok hdet]
    simp only [ok_bind]
    have e1 : (pure ((2 * Real.pi) • s.lattice⁻¹.transpose) :
        Except PyErr (Matrix (Fin 3) (Fin 3) ℝ)) = .ok ((2 * Real.pi) • s.lattice⁻¹.transpose) := rfl
    rw [e1, hB, ok_bind, hv, ok_bind]
    rfl
  · constructor
    · intro h i
      by_contra hc
      push Not at hc
      have := ((hm i).2 ⟨by simpa using hc.1, hc.2⟩).1
      have := h i
      omega
    · intro h i
      rw [(hm i).1 (h i)]

example := C49_negative_exact unitCube ((2 * Real.pi) • 1) (-1 / 10) (by norm_num)
  (by simp [IsReciprocal, unitCube]) (by simp [unitCube])

/-! ## C52 -/

theorem mapM_same_error {α β ε : Type} (f : α → Except ε β) (e : ε) (l : List α)
    (h : ∀ x ∈ l, (∃ y, f x = .ok y) ∨ f x = .error e) (hx : ∃ x ∈ l, f x = .error e) :
    l.mapM f = .error e := by
  induction l with
  | nil => simp at hx
  | cons a l ih =>
    rw [List.mapM_cons]
    rcases h a (by simp) with ⟨y, hy⟩ | hy
    · rw [hy, ok_bind, ih (fun x hx => h x (by simp [hx])) ?_, error_bind]
      obtain ⟨x, hx, hxe⟩ := hx
      rcases List.mem_cons.1 hx with rfl | hx
      · rw [hy] at hxe; cases hxe
      · exact ⟨x, hx, hxe⟩
    · rw [hy, error_bind]

/-- C52, exactly when copies are made, for a structure with atoms, non-negative amplitudes of any size and
strained cells that are not flat: every strained cell must be right-handed, otherwise the call fails. -/
theorem C52_returns_iff (F : QR) (s : Struct ℝ) (hs : s.sites ≠ []) (n : ℤ) (f d : ℝ) (hf : 0 ≤ f)
    (hd : 0 ≤ d) (e0 : ℕ → Fin 6 → ℝ) (es : ℕ → ℕ → Vec ℝ)
    (hflat : ∀ j < n.toNat, ∀ P, cellPerturbMatrix f (e0 j) = .ok P → (s.lattice * P).det ≠ 0) :
    ((∃ l, perturb F s n f d e0 es = .ok l) ↔
      ∀ j < n.toNat, ∀ P, cellPerturbMatrix f (e0 j) = .ok P → 0 < (s.lattice * P).det) ∧
    ((∃ j < n.toNat, ∃ P, cellPerturbMatrix f (e0 j) = .ok P ∧ (s.lattice * P).det < 0) →
      perturb F s n f d e0 es = .error .assertionError) := by
  have hP : ∀ j, ∃ P, cellPerturbMatrix f (e0 j) = .ok P := by
    intro j
    rw [cellPerturbMatrix, if_neg (not_lt.2 hf)]
    exact ⟨_, rfl⟩
  have hpos : ∀ j P, cellPerturbMatrix f (e0 j) = .ok P → 0 < (s.lattice * P).det →
      ∃ t, perturbOne F s f d (e0 j) (es j) = .ok t := by
    intro j P hjP hdet
    rw [perturbOne_eq F s hs f d hd (e0 j) (es j) P hjP]
    obtain ⟨W, _, _, h, _⟩ := rotLower_right F (s.lattice * P) hdet
      ((s.sites.map (fun t => t.pos ᵥ* P)).zipIdx.map
        (fun pk => pk.1 + fun i => d * es j pk.2 i / Real.sqrt 3)) (s.sites.map Site.z)
    exact ⟨_, h⟩
  have hbad : (∃ j < n.toNat, ∃ P, cellPerturbMatrix f (e0 j) = .ok P ∧ (s.lattice * P).det < 0) →
      perturb F s n f d e0 es = .error .assertionError := by
    rintro ⟨j, hj, P, hjP, hdet⟩
    refine mapM_same_error _ _ _ ?_ ⟨j, by simpa using hj,
      perturbOne_left F s hs f d hd (e0 j) (es j) P hjP hdet⟩
    intro i hi
    obtain ⟨Q, hQ⟩ := hP i
    rcases lt_or_gt_of_ne (hflat i (by simpa using hi) Q hQ) with h | h
    · exact .inr (perturbOne_left F s hs f d hd (e0 i) (es i) Q hQ h)
    · exact .inl (hpos i Q hQ h)
  refine ⟨⟨?_, ?_⟩, hbad⟩
  · rintro ⟨l, hl⟩ j hj P hjP
    rcases lt_or_gt_of_ne (hflat j hj P hjP) with h | h
    · rw [hbad ⟨j, hj, P, hjP, h⟩] at hl
      cases hl
    · exact h
  · intro h
    have : ∀ j ∈ List.range n.toNat, ∃ t, perturbOne F s f d (e0 j) (es j) = .ok t := by
      intro j hj
      obtain ⟨P, hjP⟩ := hP j
      exact hpos j P hjP (h j (by simpa using hj) P hjP)
    have hne : Nonempty (Struct ℝ) := ⟨s⟩
    choose! t ht using this
    exact ⟨_, mapM_map_ok ht⟩

/-- The unit cube with one atom, one copy, no strain. -/
example (F : QR) : ∃ l, perturb F unitCube 1 0 0 (fun _ _ => 0) (fun _ _ => 0) = .ok l := by
  have hdet : ∀ P, cellPerturbMatrix 0 (fun _ => 0) = .ok P → (unitCube.lattice * P).det = 1 := by
    intro P hP
    rw [cellPerturbMatrix, if_neg (lt_irrefl _)] at hP
    obtain rfl := Except.ok.inj hP
    simp [unitCube, Matrix.det_fin_three]
  refine (C52_returns_iff F unitCube (by simp [unitCube]) 1 0 0 le_rfl le_rfl (fun _ _ => 0) (fun _ _ => 0)
    (fun j _ P hP => ?_)).1.2 (fun j _ P hP => ?_)
  · rw [hdet P hP]; norm_num
  · rw [hdet P hP]; norm_num

/-! ## C104 -/

/-- The tensor orders of a combination can be cut into consecutive pieces whose first order is the sum of
the others. -/
def CutsUp (ns : List ℕ) : Prop :=
  ∃ gs : List (List ℕ), gs.flatten = ns ∧ ∀ g ∈ gs, ∃ (n : ℕ) (rest : List ℕ), g = n :: rest ∧ rest.sum = n

theorem dimRun_append (d : ℕ) (as bs : List ℕ) :
    dimRun d (as ++ bs) = (dimRun d as).bind (fun e => dimRun e bs) := by
  induction as generalizing d with
  | nil => rfl
  | cons a as ih =>
    rw [List.cons_append, dimRun, dimRun]
    split
    · exact ih _
    · split
      · exact ih _
      · rfl

theorem dimRun_cuts (ns : List ℕ) (h : CutsUp ns) : dimRun 0 ns = some 0 := by
  obtain ⟨gs, rfl, hg⟩ := h
  induction gs with
  | nil => rfl
  | cons g gs ih =>
    obtain ⟨n, rest, rfl, hsum⟩ := hg g (by simp)
    rw [List.flatten_cons, dimRun_append]
    have : dimRun 0 (n :: rest) = some 0 := by
      rw [dimRun]
      have := dimRun_sum rest
      rw [hsum] at this
      split
      · next h => rw [Nat.le_zero.1 h] at this ⊢; exact this
      · rw [if_pos rfl]; exact this
    rw [this]
    exact ih (fun g' hg' => hg g' (by simp [hg']))

theorem cuts_of_dimRun (ns : List ℕ) : ∀ d, dimRun d ns = some 0 →
    ∃ (rest tail : List ℕ), ns = rest ++ tail ∧ rest.sum = d ∧ CutsUp tail := by
  induction ns with
  | nil =>
    intro d h
    rw [dimRun] at h
    cases h
    exact ⟨[], [], rfl, rfl, [], rfl, by simp⟩
  | cons n ns ih =>
    intro d h
    rw [dimRun] at h
    split at h
    · next hle =>
      obtain ⟨rest, tail, rfl, h1, h2⟩ := ih _ h
      exact ⟨n :: rest, tail, rfl, by rw [List.sum_cons, h1]; omega, h2⟩
    · split at h
      · next h0 =>
        obtain ⟨rest, tail, rfl, h1, gs, h2, h3⟩ := ih _ h
        refine ⟨[], _, rfl, by simp [h0], (n :: rest) :: gs, by simp [h2], ?_⟩
        intro g hg
        rcases List.mem_cons.1 hg with rfl | hg
        · exact ⟨n, rest, rfl, h1⟩
        · exact h3 g hg
      · cases h

theorem cutsUp_iff (ns : List ℕ) : CutsUp ns ↔ dimRun 0 ns = some 0 := by
  refine ⟨dimRun_cuts ns, fun h => ?_⟩
  obtain ⟨rest, tail, rfl, h1, gs, h2, h3⟩ := cuts_of_dimRun ns 0 h
  refine ⟨rest.map (fun x => [x]) ++ gs, ?_, ?_⟩
  · simp [h2, ← List.flatMap_def]
  · intro g hg
    rcases List.mem_append.1 hg with hg | hg
    · obtain ⟨x, hx, rfl⟩ := List.mem_map.1 hg
      refine ⟨x, [], rfl, ?_⟩
      have := List.le_sum_of_mem hx
      simp
      omega
    · exact h3 g hg

/-- C104, which combinations the loop of `forward` evaluates (for valid neighbour lists and tables, in any
order of the moments): exactly those whose orders can be cut into consecutive pieces, each with its first
order equal to the sum of the others. Listed are only those of one piece, and those in which every positive
order occurs an even number of times (`C100_combinations_complete`). -/
theorem C104_evaluable_iff (maxLevel : ℤ) (hmax : 2 ≤ maxLevel) (P : MtpParams)
    (hc : P.coeffs.length = (mtpNmus maxLevel).toNat * P.ntypes * P.ntypes) (types : List ℤ)
    (ht : ∀ t ∈ types, 0 ≤ t ∧ t < P.ntypes) (iidx : ℤ) (hi : 0 ≤ iidx ∧ iidx < types.length)
    (ifirst : List ℤ) (hf : ∀ j ∈ ifirst, -1 ≤ j ∧ j < types.length) (rcs : List (Vec ℝ))
    (hlen : ifirst.length = rcs.length) (comb : List (ℕ × ℕ))
    (hl : (((comb.map (fun p : ℕ × ℕ => 2 + 4 * p.1 + p.2)).sum : ℕ) : ℤ) ≤ maxLevel) :
    (∃ v, mtpBasis P iidx ifirst types rcs comb = .ok v) ↔ CutsUp (comb.map Prod.snd) := by
  rw [cutsUp_iff]
  constructor
  · rintro ⟨v, hv⟩
    exact basis_dim hv
  · intro h
    refine basis_ok (S := NuSort.insertion) hmax hc ht hi ?_ hlen.le ?_ h
    · intro j hj
      have := hf j hj
      omega
    · intro c hcm
      have h1 := List.le_sum_of_mem (List.mem_map.2 ⟨c, hcm, rfl⟩ :
        2 + 4 * c.1 + c.2 ∈ comb.map (fun p : ℕ × ℕ => 2 + 4 * p.1 + p.2))
      rw [mtpNmus, Int.tdiv_eq_ediv_of_nonneg (by omega)]
      omega

/-- Two pieces: `2 = 1 + 1` and `1 = 1`. -/
example : CutsUp [2, 1, 1, 1, 1] := ⟨[[2, 1, 1], [1, 1]], rfl, by simp⟩

example := C104_evaluable_iff 8 (by norm_num) exMtp (by simp [exMtp, mtpNmus]) [0] (by simp [exMtp]) 0 (by simp)
  [0, -1] (by simp) [![1, 0, 0], ![0, 0, 0]] rfl [(1, 1), (0, 1)]

/-- C104: of the evaluable combinations with an allowed level, exactly those are missing that are neither
one piece (one order is the sum of all others) nor have every positive order an even number of times. -/
theorem C104_missing_iff (S : NuSort) (maxLevel : ℤ) (comb : List (ℕ × ℕ)) (hne : comb ≠ [])
    (hl : (((comb.map (fun p : ℕ × ℕ => 2 + 4 * p.1 + p.2)).sum : ℕ) : ℤ) ≤ maxLevel) :
    (¬ ∃ c ∈ mtpBuild S maxLevel, c.Perm comb) ↔
      (∀ p ∈ comb, 2 * p.2 ≠ (comb.map Prod.snd).sum) ∧
      ∃ n, n ≠ 0 ∧ Odd (comb.countP (fun r => r.2 == n)) := by
  rw [C100_combinations_complete]
  simp only [hne, ne_eq, not_false_eq_true, hl, true_and, not_or]
  push Not
  simp only [Nat.not_even_iff_odd]

example := C104_missing_iff NuSort.insertion 16 [(0, 2), (0, 1), (0, 1), (0, 1), (0, 1)] (by simp) (by decide)

end MaterSDK
