import Verif.Lemmas.MtpCrystal
import Verif.Props.MtpMoment
import Verif.Props.CrystalCpp

/-! # C181: the basis functions of the moment tensor potentials depend only on the crystal -/

namespace MaterSDK

open Classical

/-- C181: two inputs whose crystals differ by a rigid motion `p ↦ Q p + v` (the identity, rotations and
reflections included), in whatever cells and in whatever order the atoms are stored, with neighbour lists
of whatever cutoffs not below the cutoff of the potential and whatever numbers of slots that hold all
neighbours, give the same basis functions: every atom of one input has a partner in the other, and for
atoms that are images of each other all numbers agree.
Missing: `rcut_smooth` not positive, see `C181_violated_smooth_zero`, and cells the neighbour list does
not handle, see `C180_violated_backward_cell`. -/
theorem C181_same_crystal_partial (A A' : ArgSort) (L L' : Fin 3 → Vec ℝ) (atoms atoms' : List (ℤ × Vec ℝ))
    (Q : Matrix (Fin 3) (Fin 3) ℝ) (v : Vec ℝ) (hQ : Q.transpose * Q = 1) (sort sort' : Bool)
    (hok : CellOk L atoms (fun _ => true)) (hok' : CellOk L' atoms' (fun _ => true))
    (hap : ApartImages L (atoms.map Prod.snd)) (hap' : ApartImages L' (atoms'.map Prod.snd))
    (hcr : ∀ (t : ℤ) (p : Vec ℝ), (t, p) ∈ typedCrystal L atoms ↔ (t, Q.mulVec p + v) ∈ typedCrystal L' atoms')
    (S : NuSort) (maxLevel : ℤ) (hmax : 2 ≤ maxLevel) (P : MtpParams)
    (hc : P.coeffs.length = (mtpNmus maxLevel).toNat * P.ntypes * P.ntypes)
    (hty : ∀ a ∈ atoms, 0 ≤ a.1 ∧ a.1 < P.ntypes) (hrs : 0 < P.rs) (hrc : 0 < P.rcut) (r r' : ℝ)
    (hr : P.rcut ≤ r) (hr' : P.rcut ≤ r') (w w' : ℕ) (hw : CrystalSlots (typedCrystal L atoms) w r)
    (hw' : CrystalSlots (typedCrystal L' atoms') w' r') :
    ∃ N info out N' info' out',
      NbrLists.make A (CStruct.make L atoms true) r (fun _ => true) sort = .ok N ∧
      N.findInfo w = .ok info ∧ mtpOfTables P (mtpBuild S maxLevel) info w = .ok [out] ∧
      out.length = atoms.length ∧
      NbrLists.make A' (CStruct.make L' atoms' true) r' (fun _ => true) sort' = .ok N' ∧
      N'.findInfo w' = .ok info' ∧ mtpOfTables P (mtpBuild S maxLevel) info' w' = .ok [out'] ∧
      out'.length = atoms'.length ∧
      (∀ c ∈ atoms, ∃ c' ∈ atoms', c'.1 = c.1 ∧ ∃ n, Q.mulVec c.2 + v = imagePos L' c'.2 n) ∧
      (∀ c' ∈ atoms', ∃ c ∈ atoms, c'.1 = c.1 ∧ ∃ n, c'.2 = Q.mulVec (imagePos L c.2 n) + v) ∧
      ∀ (i i' : ℕ) (c c' : ℤ × Vec ℝ), atoms[i]? = some c → atoms'[i']? = some c' →
        ((∃ n, Q.mulVec c.2 + v = imagePos L' c'.2 n) ∨ ∃ n, c'.2 = Q.mulVec (imagePos L c.2 n) + v) →
        out'[i']? = out[i]? ∧ ∃ vs : List ℝ, out[i]? = some vs ∧ vs.length = (mtpBuild S maxLevel).length := by
  have hback : ∀ p : Vec ℝ, Q.mulVec (Q.transpose.mulVec (p - v)) + v = p := by
    intro p
    rw [mulVec_forth hQ, sub_add_cancel]
  have hpart1 : ∀ c ∈ atoms, ∃ c' ∈ atoms', c'.1 = c.1 ∧ ∃ n, Q.mulVec c.2 + v = imagePos L' c'.2 n := by
    intro c hc
    have h1 : (c.1, c.2) ∈ typedCrystal L atoms := ⟨c, hc, 0, by simp⟩
    obtain ⟨c', hc', n, hx⟩ := (hcr _ _).1 h1
    rw [Prod.mk.injEq] at hx
    exact ⟨c', hc', hx.1.symm, n, hx.2⟩
  have hpart2 : ∀ c' ∈ atoms', ∃ c ∈ atoms, c'.1 = c.1 ∧ ∃ n, c'.2 = Q.mulVec (imagePos L c.2 n) + v := by
    intro c' hc'
    have h1 : (c'.1, Q.mulVec (Q.transpose.mulVec (c'.2 - v)) + v) ∈ typedCrystal L' atoms' := by
      rw [hback]
      exact ⟨c', hc', 0, by simp⟩
    obtain ⟨c, hc, n, hx⟩ := (hcr _ _).2 h1
    rw [Prod.mk.injEq] at hx
    refine ⟨c, hc, hx.1, n, ?_⟩
    rw [imagePos, ← hx.2, hback]
  have hty' : ∀ a ∈ atoms', 0 ≤ a.1 ∧ a.1 < P.ntypes := by
    intro a ha
    obtain ⟨c, hc, h1, _⟩ := hpart2 a ha
    rw [h1]
    exact hty c hc
  have hmu : ∀ comb ∈ mtpBuild S maxLevel, ∀ c ∈ comb, c.1 < (mtpNmus maxLevel).toNat := by
    intro comb hcomb p hp
    have := ((C102_nmus S maxLevel hmax).2 p.1).1 ⟨comb, hcomb, p, hp, rfl⟩
    omega
  have hdim : ∀ comb ∈ mtpBuild S maxLevel, dimRun 0 (comb.map Prod.snd) = some 0 := by
    intro comb hcomb
    obtain ⟨ii, _, h2, h3⟩ := mem_mtpBuild.1 hcomb
    exact dimRun_kept (schemesAux_sound h2).2.2 h3
  obtain ⟨N, info, out, h1, h2, h3, h4, h5⟩ := mtp_core A L atoms r (by linarith) sort hok hap P _ _ hc hmu hdim
    hty hrs w hw
  obtain ⟨N', info', out', h1', h2', h3', h4', h5'⟩ := mtp_core A' L' atoms' r' (by linarith) sort' hok' hap' P _ _
    hc hmu hdim hty' hrs w' hw'
  refine ⟨N, info, out, N', info', out', h1, h2, h3, h4, h1', h2', h3', h4', hpart1, hpart2, ?_⟩
  intro i i' c c' hci hci' hcc
  obtain ⟨rels, n1, n2, vs, o1, o2⟩ := h5 i c hci
  obtain ⟨rels', n1', n2', vs', o1', o2'⟩ := h5' i' c' hci'
  have hmv : ∀ (t : ℤ) (q : Vec ℝ), (t, c'.2 + Q.mulVec q) ∈ typedCrystal L' atoms' ↔
      (t, c.2 + q) ∈ typedCrystal L atoms := by
    intro t q
    rcases hcc with ⟨n, hn⟩ | ⟨n, hn⟩
    · rw [hcr, ← typedCrystal_shift L' atoms' t (c'.2 + Q.mulVec q) n]
      have e : imagePos L' (c'.2 + Q.mulVec q) n = Q.mulVec (c.2 + q) + v := by
        have : imagePos L' (c'.2 + Q.mulVec q) n = imagePos L' c'.2 n + Q.mulVec q := by
          unfold imagePos; abel
        rw [this, ← hn, Matrix.mulVec_add]
        abel
      rw [e]
    · rw [← typedCrystal_shift L atoms t (c.2 + q) n, hcr]
      have e : Q.mulVec (imagePos L (c.2 + q) n) + v = c'.2 + Q.mulVec q := by
        have : imagePos L (c.2 + q) n = imagePos L c.2 n + q := by
          unfold imagePos; abel
        rw [this, hn, Matrix.mulVec_add]
        abel
      rw [e]
  -- atoms that are images of each other have the same type
  have hself : ∀ (L : Fin 3 → Vec ℝ) (atoms : List (ℤ × Vec ℝ)) (i : ℕ) (c : ℤ × Vec ℝ) (t : ℤ),
      ApartImages L (atoms.map Prod.snd) → atoms[i]? = some c → (t, c.2) ∈ typedCrystal L atoms → t = c.1 := by
    rintro L atoms i c t hap hi ⟨a, ha, n, hx⟩
    rw [Prod.mk.injEq] at hx
    obtain ⟨j, hj⟩ := List.getElem?_of_mem ha
    have e := imagePos_inj L _ hap i j c.2 a.2 0 n (by rw [List.getElem?_map, hi]; rfl)
      (by rw [List.getElem?_map, hj]; rfl) (by rw [imagePos_zero]; exact hx.2)
    rw [Prod.mk.injEq] at e
    rw [← e.1, hi] at hj
    cases hj
    exact hx.1
  have htt : c'.1 = c.1 := by
    refine hself L atoms i c c'.1 hap hci ?_
    have h := hmv c'.1 0
    rw [Matrix.mulVec_zero, add_zero, add_zero] at h
    exact h.1 ⟨c', List.mem_of_getElem? hci', 0, by simp⟩
  have hinj : Function.Injective (fun x : ℤ × Vec ℝ => (x.1, Q.mulVec x.2)) := by
    intro a b h
    rw [Prod.mk.injEq] at h
    refine Prod.ext h.1 ?_
    have := congrArg Q.transpose.mulVec h.2
    rwa [mulVec_back hQ, mulVec_back hQ] at this
  have hperm : (rels'.filter (fun x => decide (dist3 x.2 0 < P.rcut))).Perm
      ((rels.map (fun x => (x.1, Q.mulVec x.2))).filter (fun x => decide (dist3 x.2 0 < P.rcut))) := by
    refine (List.perm_ext_iff_of_nodup (n1'.filter _) ((n1.map hinj).filter _)).2 ?_
    intro x
    rw [List.mem_filter, List.mem_filter, n2', List.mem_map, decide_eq_true_eq]
    constructor
    · rintro ⟨⟨m1, m2, m3⟩, m4⟩
      have hx : Q.mulVec (Q.transpose.mulVec x.2) = x.2 := mulVec_forth hQ _
      refine ⟨⟨(x.1, Q.transpose.mulVec x.2), (n2 _).2 ⟨?_, ?_, ?_⟩, Prod.ext rfl hx⟩, m4⟩
      · rw [← hmv, hx]; exact m1
      · intro h0
        have h0' : Q.transpose.mulVec x.2 = 0 := h0
        rw [h0', Matrix.mulVec_zero] at hx
        exact m2 hx.symm
      · show dist3 (Q.transpose.mulVec x.2) 0 < r
        rw [← mulVec_dist hQ, hx]
        linarith
    · rintro ⟨⟨y, hy, rfl⟩, m4⟩
      obtain ⟨m1, m2, m3⟩ := (n2 y).1 hy
      refine ⟨⟨(hmv _ _).2 m1, ?_, lt_of_lt_of_le m4 hr'⟩, m4⟩
      intro h0
      have := congrArg Q.transpose.mulVec h0
      rw [mulVec_back hQ, Matrix.mulVec_zero] at this
      exact m2 this
  have hrt : ∀ x ∈ rels, 0 ≤ x.1 ∧ x.1 < P.ntypes := by
    intro x hx
    obtain ⟨⟨a, ha, n, hn⟩, _⟩ := (n2 x).1 hx
    rw [Prod.mk.injEq] at hn
    rw [hn.1]
    exact hty a ha
  have hrt' : ∀ x ∈ rels', 0 ≤ x.1 ∧ x.1 < P.ntypes := by
    intro x hx
    obtain ⟨⟨a, ha, n, hn⟩, _⟩ := (n2' x).1 hx
    rw [Prod.mk.injEq] at hn
    rw [hn.1]
    exact hty' a ha
  have hsame : (mtpBuild S maxLevel).mapM (relBasis P c'.1 rels') = (mtpBuild S maxLevel).mapM (relBasis P c.1 rels) := by
    refine mapM_congr_mem ?_
    intro comb hcomb
    rw [htt, relBasis_perm hc (hmu comb hcomb) (hty c (List.mem_of_getElem? hci)) (by
      intro x hx
      obtain ⟨y, hy, rfl⟩ := List.mem_map.1 hx
      exact hrt y hy) hrt' hperm, relBasis_rot hQ]
  rw [o2, o2'] at hsame
  refine ⟨by rw [o1, o1', Except.ok.inj hsame], vs, o1, ?_⟩
  exact ((mapM_eq_ok.1 o2).length_eq).symm

/-! ## An example: `exTyped` and the same crystal with the axes permuted -/

theorem exTyped_slots : CrystalSlots (typedCrystal exL exTyped) 4 3 := by
  intro x hx l hl hall
  have hpart : ∀ t : ℕ, t < 2 → (l.filter (fun y => decide (y.1 = (t : ℤ)))).length ≤ 2 := by
    intro t ht
    rw [← List.length_map (f := Prod.snd)]
    refine exTyped_room x hx t 2 (by interval_cases t <;> rfl) _ ?_ ?_
    · refine (List.nodup_map_iff_inj_on (hl.filter _)).2 ?_
      intro y hy z hz h
      rw [List.mem_filter, decide_eq_true_eq] at hy hz
      exact Prod.ext (hy.2.trans hz.2.symm) h
    · intro p hp
      obtain ⟨y, hy, rfl⟩ := List.mem_map.1 hp
      rw [List.mem_filter, decide_eq_true_eq] at hy
      rw [← hy.2]
      exact hall y hy.1
  have h0 := hpart 0 (by norm_num)
  have h1 := hpart 1 (by norm_num)
  have hsum := List.length_eq_length_filter_add (l := l) (fun y => decide (y.1 = ((0 : ℕ) : ℤ)))
  have he : l.filter (fun y => !decide (y.1 = ((0 : ℕ) : ℤ))) = l.filter (fun y => decide (y.1 = ((1 : ℕ) : ℤ))) := by
    refine List.filter_congr ?_
    intro y hy
    obtain ⟨⟨a, ha, n, hn⟩, _⟩ := hall y hy
    have : y.1 = a.1 := by rw [hn]
    simp only [exTyped, List.mem_cons, List.not_mem_nil, or_false] at ha
    rcases ha with rfl | rfl <;> simp [this]
  rw [he] at hsum
  omega

theorem turn_slots : CrystalSlots (typedCrystal turnL turnTyped) 5 3 := by
  have hback : ∀ p : Vec ℝ, turnQ.mulVec (turnQ.transpose.mulVec (p - ![1, 0, 0])) + ![1, 0, 0] = p := by
    intro p
    rw [mulVec_forth turn_orthogonal, sub_add_cancel]
  intro x hx l hl hall
  have hx1 : (x.1, turnQ.transpose.mulVec (x.2 - ![1, 0, 0])) ∈ typedCrystal exL exTyped := by
    rw [turn_crystal, hback]; exact hx
  have h := exTyped_slots _ hx1 (l.map (fun y => (y.1, turnQ.transpose.mulVec (y.2 - ![1, 0, 0])))) (hl.map ?_) ?_
  · rw [List.length_map] at h; omega
  · intro a b h
    rw [Prod.mk.injEq] at h
    refine Prod.ext h.1 ?_
    have := congrArg (fun y => turnQ.mulVec y + ![1, 0, 0]) h.2
    simpa only [hback] using this
  · intro y hy
    obtain ⟨q, hq, rfl⟩ := List.mem_map.1 hy
    obtain ⟨g1, g2, g3⟩ := hall q hq
    refine ⟨by rw [turn_crystal, hback]; exact g1, ?_, ?_⟩
    · intro h
      have := congrArg (fun y => turnQ.mulVec y + ![1, 0, 0]) h
      simp only [hback] at this
      exact g2 this
    · have e : turnQ.mulVec (turnQ.transpose.mulVec (q.2 - ![1, 0, 0]) - turnQ.transpose.mulVec (x.2 - ![1, 0, 0]))
          = q.2 - x.2 := by
        rw [← Matrix.mulVec_sub, mulVec_forth turn_orthogonal]
        abel
      show dist3 (turnQ.transpose.mulVec (q.2 - ![1, 0, 0])) (turnQ.transpose.mulVec (x.2 - ![1, 0, 0])) < 3
      rw [dist3_rel, ← mulVec_dist turn_orthogonal, e, ← dist3_rel]
      exact g3

/-- Two types, `max_level` 8. -/
noncomputable def exMtp2 : MtpParams where
  size := 2
  ntypes := 2
  rcut := 5 / 2
  rs := 1 / 2
  coeffs := [[1, 2], [3, 4], [5, 6], [7, 8], [9, 10], [11, 12], [13, 14], [15, 16]]

example (A : ArgSort) := C181_same_crystal_partial A A exL turnL exTyped turnTyped turnQ ![1, 0, 0]
  turn_orthogonal true false exTyped_ok turn_ok exL_apart turn_apart turn_crystal NuSort.insertion 8 (by norm_num)
  exMtp2 (by simp [exMtp2, mtpNmus])
  (by
    intro a ha
    simp only [exTyped, List.mem_cons, List.not_mem_nil, or_false] at ha
    rcases ha with rfl | rfl <;> simp [exMtp2])
  (by norm_num [exMtp2]) (by norm_num [exMtp2]) 3 3 (by norm_num [exMtp2]) (by norm_num [exMtp2]) 4 5
  exTyped_slots turn_slots

/-! ## Where it fails -/

/-- `rcut_smooth` is 0. -/
noncomputable def flatMtp : MtpParams where
  size := 1
  ntypes := 2
  rcut := 4
  rs := 0
  coeffs := [[1], [1], [1], [1]]

theorem mtpBuild_two (S : NuSort) : mtpBuild S 2 = [[(0, 0)]] := by
  have h : S.sort [(0, 0)] = [(0, 0)] := List.perm_singleton.1 (S.perm _)
  simp [mtpBuild, contractedCombs, allSchemes, schemesAux, List.range_succ, mtpLevel, h, mtpKept]

/-- C181 fails when `rcut_smooth` is 0: for one atom per cubic cell of edge 4 and cutoff 4, an atom without
neighbours, the first basis function is the number of slots, so tables of different widths for the same
structure give different results. -/
theorem C181_violated_smooth_zero (A : ArgSort) (sort : Bool) (S : NuSort) (w : ℕ) :
    CrystalSlots (typedCrystal (cube 4) [(1, ![0, 0, 0])]) w 4 ∧
    ∃ N info, NbrLists.make A (CStruct.make (cube 4) [(1, ![0, 0, 0])] true) 4 (fun _ => true) sort = .ok N ∧
      N.findInfo w = .ok info ∧ mtpOfTables flatMtp (mtpBuild S 2) info w = .ok [[[(w : ℝ)]]] := by
  have hfar : ∀ n : Fin 3 → ℤ, n ≠ 0 → ¬ dist3 (fun i => 4 * (n i : ℝ)) 0 < 4 := by
    intro n hn h
    have hf := cube_far 4 n hn
    have h0 : (![0, 0, 0] : Vec ℝ) = 0 := by funext i; fin_cases i <;> rfl
    rw [h0] at hf
    have hp0 : 0 ≤ dist3 (fun i => 4 * (n i : ℝ)) 0 := Real.sqrt_nonneg _
    nlinarith
  have hslots : CrystalSlots (typedCrystal (cube 4) [(1, ![0, 0, 0])]) w 4 := by
    rintro ⟨s, x⟩ hx l _ hall
    have hl : l = [] := by
      rw [List.eq_nil_iff_forall_not_mem]
      intro y hy
      obtain ⟨g1, g2, g3⟩ := hall y hy
      obtain ⟨_, n, hn⟩ := (cube_crystal 4 _ _).1 g1
      obtain ⟨_, k, hk⟩ := (cube_crystal 4 _ _).1 hx
      refine hfar (n - k) ?_ ?_
      · intro h
        rw [sub_eq_zero] at h
        subst h
        exact g2 (hn.trans hk.symm)
      · have e : y.2 - x = fun i => 4 * (((n - k) i : ℤ) : ℝ) := by
          rw [hn, hk]
          funext i
          simp only [Pi.sub_apply, Int.cast_sub]
          ring
        rw [← e, ← dist3_rel]
        exact g3
    rw [hl]
    exact Nat.zero_le _
  refine ⟨hslots, ?_⟩
  obtain ⟨N, h1, h2, _, I, h4, h5, _, h6⟩ := nbr_exact A (cube 4) [(1, ![0, 0, 0])] 4 (fun _ => true) sort
    (cube_ok 4 (by norm_num)) (by norm_num)
  obtain ⟨imgs, g1, _, g3, _⟩ := h5 0 (1, ![0, 0, 0]) rfl
  have himgs : imgs = [] := by
    rw [List.eq_nil_iff_forall_not_mem]
    intro e he
    obtain ⟨⟨_, p, hp, hd⟩, hd2⟩ := (g3 e).1 he
    have hd3 := hd2 p hp
    obtain ⟨j, n⟩ := e
    have hj := (List.getElem?_eq_some_iff.1 hp).1
    simp only [List.map_cons, List.map_nil, List.length_cons, List.length_nil] at hj
    obtain rfl : j = 0 := by omega
    simp only [List.map_cons, List.map_nil, List.getElem?_cons_zero, Option.some.injEq] at hp
    subst hp
    have h0 : (![0, 0, 0] : Vec ℝ) = 0 := by funext i; fin_cases i <;> rfl
    have hpos : imagePos (cube 4) ![0, 0, 0] n = fun i => 4 * (n i : ℝ) := by
      rw [imagePos, cube_shift, h0, zero_add]
    simp only [hpos] at hd hd3
    rw [h0] at hd hd3
    refine hfar n ?_ hd
    rintro rfl
    rw [dist3_sq_comp] at hd3
    norm_num at hd3
  subst himgs
  have hIlen : I.length = 1 := by
    rw [← List.length_map (f := List.length) (as := I), ← h4, List.length_map, h2]
    rfl
  have hI : I = [[]] := by
    obtain ⟨a, rfl⟩ := List.length_eq_one_iff.1 hIlen
    simpa using g1
  subst hI
  obtain ⟨info, k1, k2, k3, k4, _, _, k7⟩ := h6 w (by simp)
  obtain ⟨r1, r2⟩ := k7 0 _ [] rfl rfl
  simp only [List.map_nil, List.flatMap_nil, List.nil_append, List.length_nil, Nat.sub_zero] at r1 r2
  refine ⟨N, info, h1, k1, ?_⟩
  have hb : mtpBasis flatMtp 0 (List.replicate w (-1)) [1] (List.replicate w 0) [(0, 0)] = .ok (w : ℝ) := by
    have hrow : mtpMoment flatMtp 0 0 0 (List.replicate w (-1)) [1] (List.replicate w 0)
        = .ok { dim := 0, val := relMoment flatMtp 0 0 1 (List.replicate w (1, 0)) } := by
      have h := moment_items (ι := ℕ) (P := flatMtp) (nmus := 1) (mu := 0) 0 (types := [1]) (i := 0) (zi := 1)
        (items := List.range w) (a := fun _ => -1) (b := fun _ => 0) (g := fun _ => 1) (by simp [flatMtp])
        (by norm_num) (by simp [flatMtp]) rfl (by intro x _; exact ⟨rfl, by simp [flatMtp]⟩)
      simpa using h
    have hval : relMoment flatMtp 0 0 1 (List.replicate w (1, 0)) [] = w := by
      have hw : relWeight flatMtp 0 1 1 0 = 1 := by
        have hd : mtpDist (0 : Vec ℝ) = 0 := by simp [mtpDist]
        unfold relWeight
        rw [hd]
        simp [flatMtp, mtpQ, mtpCheb, mtpSwitch, chebLoop, chebStep, List.range_succ, torchDot]
      simp [relMoment, hw, angularPow]
    unfold mtpBasis mtpBLoop
    simp only
    rw [hrow, ok_bind]
    simp [mtpContract, mtpBLoop, sumIdx, hval, ok_bind]
    rfl
  unfold mtpOfTables mtpForward
  rw [k2, k3, k4, mtpBuild_two]
  have hb' : mtpBasis flatMtp ((0 : ℕ) : ℤ) (flatRow info.firstneigh w 0) [1] (coordRows (flatRow info.rel (w * 3) 0))
      [(0, 0)] = .ok (w : ℝ) := by
    rw [r1, r2, coordRows_zeros]
    exact hb
  have e0 : ∀ {β : Type} (x : β), torchGet [x] ((0 : ℕ) : ℤ) = .ok x := fun x => torchGet_nat (i := 0) (by simp)
  simp only [List.length_cons, List.length_nil, zero_add, List.range_one, List.map_cons, List.map_nil,
    List.zipIdx_cons, List.zipIdx_nil, List.mapM_cons, List.mapM_nil, e0, ok_bind, hb']
  rfl

end MaterSDK
