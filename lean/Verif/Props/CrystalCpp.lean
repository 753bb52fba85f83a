import Verif.Lemmas.CrystalCpp
import Verif.Props.CellList

/-! # C180: the C++ environment matrix depends only on the crystal, up to rigid motions -/

namespace MaterSDK

open Classical

/-- C180: two inputs of the C++ code whose crystals differ by a rigid motion `p ↦ Q p + v` (the identity
included), in whatever cells and in whatever order the atoms are stored, give the same environment
matrix up to the rotation: every atom of one input has a partner in the other, and for atoms that are
images of each other the slots of every type hold the same values and derivatives, rotated, up to the
order of the neighbours. With sorted lists the weights come in the same order.
Missing: cells the neighbour list does not handle, see `C180_violated_backward_cell`. -/
theorem C180_same_crystal_partial (A A' : ArgSort) (L L' : Fin 3 → Vec ℝ) (atoms atoms' : List (ℤ × Vec ℝ))
    (Q : Matrix (Fin 3) (Fin 3) ℝ) (v : Vec ℝ) (hQ : Q.transpose * Q = 1) (rcut rs : ℝ) (hr : 0 < rcut)
    (sort sort' : Bool) (hok : CellOk L atoms (fun _ => true)) (hok' : CellOk L' atoms' (fun _ => true))
    (hap : ApartImages L (atoms.map Prod.snd)) (hap' : ApartImages L' (atoms'.map Prod.snd))
    (hcr : ∀ (t : ℤ) (p : Vec ℝ), (t, p) ∈ typedCrystal L atoms ↔ (t, Q.mulVec p + v) ∈ typedCrystal L' atoms')
    (umax : List ℕ) (hty : ∀ a ∈ atoms, 0 ≤ a.1 ∧ a.1 < umax.length)
    (hroom : CrystalRoom (typedCrystal L atoms) umax rcut) :
    ∃ N info out N' info' out',
      NbrLists.make A (CStruct.make L atoms true) rcut (fun _ => true) sort = .ok N ∧
      N.findInfo umax.sum = .ok info ∧
      envFind ⟨info.inum, info.numneigh.map (fun k : ℕ => (k : ℤ)), info.firstneigh, info.types,
        umax.map (fun m : ℕ => (m : ℤ))⟩ info.rel rcut rs = .ok out ∧
      NbrLists.make A' (CStruct.make L' atoms' true) rcut (fun _ => true) sort' = .ok N' ∧
      N'.findInfo umax.sum = .ok info' ∧
      envFind ⟨info'.inum, info'.numneigh.map (fun k : ℕ => (k : ℤ)), info'.firstneigh, info'.types,
        umax.map (fun m : ℕ => (m : ℤ))⟩ info'.rel rcut rs = .ok out' ∧
      (∀ c ∈ atoms, ∃ c' ∈ atoms', c'.1 = c.1 ∧ ∃ n, Q.mulVec c.2 + v = imagePos L' c'.2 n) ∧
      (∀ c' ∈ atoms', ∃ c ∈ atoms, c'.1 = c.1 ∧ ∃ n, c'.2 = Q.mulVec (imagePos L c.2 n) + v) ∧
      ∀ (i i' : ℕ) (c c' : ℤ × Vec ℝ), atoms[i]? = some c → atoms'[i']? = some c' →
        ((∃ n, Q.mulVec c.2 + v = imagePos L' c'.2 n) ∨ ∃ n, c'.2 = Q.mulVec (imagePos L c.2 n) + v) →
        ∀ (k m : ℕ), umax[k]? = some m →
          (typeSlots umax k (flatRow out' umax.sum i')).Perm
            ((typeSlots umax k (flatRow out umax.sum i)).map (Prod.map (rotateRow Q) (rotateDeriv Q))) ∧
          (sort = true → sort' = true →
            (typeSlots umax k (flatRow out' umax.sum i')).map (fun x => x.1 0) =
              (typeSlots umax k (flatRow out umax.sum i)).map (fun x => x.1 0)) := by
  -- a point of the second crystal comes from the first
  have hback : ∀ p : Vec ℝ, Q.mulVec (Q.transpose.mulVec (p - v)) + v = p := by
    intro p
    rw [mulVec_forth hQ, sub_add_cancel]
  have hpart1 : ∀ c ∈ atoms, ∃ c' ∈ atoms', c'.1 = c.1 ∧ ∃ n, Q.mulVec c.2 + v = imagePos L' c'.2 n := by
    intro c hc
    have h1 : (c.1, c.2) ∈ typedCrystal L atoms := ⟨c, hc, 0, by simp⟩
    obtain ⟨c', hc', n, hx⟩ := (hcr _ _).1 h1
    rw [Prod.mk.injEq] at hx
    exact ⟨c', hc', hx.1.symm, n, hx.2⟩
  have hpart2 : ∀ c' ∈ atoms', ∃ c ∈ atoms, c'.1 = c.1 ∧ ∃ n, c'.2 = Q.mulVec (imagePos L c.2 n) + v := by
    intro c' hc'
    have h1 : (c'.1, Q.mulVec (Q.transpose.mulVec (c'.2 - v)) + v) ∈ typedCrystal L' atoms' := by
      rw [hback]
      exact ⟨c', hc', 0, by simp⟩
    obtain ⟨c, hc, n, hx⟩ := (hcr _ _).2 h1
    rw [Prod.mk.injEq] at hx
    refine ⟨c, hc, hx.1, n, ?_⟩
    rw [imagePos, ← hx.2, hback]
  have hty' : ∀ a ∈ atoms', 0 ≤ a.1 ∧ a.1 < umax.length := by
    intro a ha
    obtain ⟨c, hc, h1, _⟩ := hpart2 a ha
    rw [h1]
    exact hty c hc
  have hroom' : CrystalRoom (typedCrystal L' atoms') umax rcut := by
    intro x hx t m hm l hl hall
    have hx1 : (x.1, Q.transpose.mulVec (x.2 - v)) ∈ typedCrystal L atoms := by
      rw [hcr, hback]; exact hx
    rw [← List.length_map (f := fun p => Q.transpose.mulVec (p - v))]
    refine hroom _ hx1 t m hm _ (hl.map ?_) ?_
    · intro a b h
      have := congrArg (fun y => Q.mulVec y + v) h
      simpa only [hback] using this
    · intro p hp
      obtain ⟨q, hq, rfl⟩ := List.mem_map.1 hp
      obtain ⟨g1, g2, g3⟩ := hall q hq
      refine ⟨by rw [hcr, hback]; exact g1, ?_, ?_⟩
      · intro h
        have := congrArg (fun y => Q.mulVec y + v) h
        simp only [hback] at this
        exact g2 this
      · have e : Q.mulVec (Q.transpose.mulVec (q - v) - Q.transpose.mulVec (x.2 - v)) = q - x.2 := by
          rw [← Matrix.mulVec_sub, mulVec_forth hQ]
          abel
        show dist3 (Q.transpose.mulVec (q - v)) (Q.transpose.mulVec (x.2 - v)) < rcut
        rw [dist3_rel, ← mulVec_dist hQ, e, ← dist3_rel]
        exact g3
  obtain ⟨N, info, out, h1, h2, h3, h4⟩ := env_core A L atoms rcut rs (fun _ => true) sort hok hr hap umax
    hty (crystalRoom_nearBy L atoms rcut hap umax hroom)
  obtain ⟨N', info', out', h1', h2', h3', h4'⟩ := env_core A' L' atoms' rcut rs (fun _ => true) sort' hok' hr
    hap' umax hty' (crystalRoom_nearBy L' atoms' rcut hap' umax hroom')
  refine ⟨N, info, out, N', info', out', h1, h2, h3, h1', h2', h3', hpart1, hpart2, ?_⟩
  intro i i' c c' hc hc' hcc k m hkm
  obtain ⟨imgs, g1, g2, g3, g4, g5⟩ := h4 i c hc
  obtain ⟨imgs', g1', g2', g3', g4', g5'⟩ := h4' i' c' hc'
  obtain ⟨n1, n2⟩ := rels_mem L atoms rcut hap i c hc imgs g1 g2
  obtain ⟨n1', n2'⟩ := rels_mem L' atoms' rcut hap' i' c' hc' imgs' g1' g2'
  have hmv : ∀ (t : ℤ) (q : Vec ℝ), (t, c'.2 + Q.mulVec q) ∈ typedCrystal L' atoms' ↔
      (t, c.2 + q) ∈ typedCrystal L atoms := by
    intro t q
    rcases hcc with ⟨n, hn⟩ | ⟨n, hn⟩
    · rw [hcr, ← typedCrystal_shift L' atoms' t (c'.2 + Q.mulVec q) n]
      have e : imagePos L' (c'.2 + Q.mulVec q) n = Q.mulVec (c.2 + q) + v := by
        have : imagePos L' (c'.2 + Q.mulVec q) n = imagePos L' c'.2 n + Q.mulVec q := by
          unfold imagePos; abel
        rw [this, ← hn, Matrix.mulVec_add]
        abel
      rw [e]
    · rw [← typedCrystal_shift L atoms t (c.2 + q) n, hcr]
      have e : Q.mulVec (imagePos L (c.2 + q) n) + v = c'.2 + Q.mulVec q := by
        have : imagePos L (c.2 + q) n = imagePos L c.2 n + q := by
          unfold imagePos; abel
        rw [this, hn, Matrix.mulVec_add]
        abel
      rw [e]
  have hinj : Function.Injective (fun x : ℤ × Vec ℝ => (x.1, Q.mulVec x.2)) := by
    intro a b h
    rw [Prod.mk.injEq] at h
    refine Prod.ext h.1 ?_
    have := congrArg Q.transpose.mulVec h.2
    rwa [mulVec_back hQ, mulVec_back hQ] at this
  have hperm : (imgs'.map (imageRel L' atoms' c'.2)).Perm
      ((imgs.map (imageRel L atoms c.2)).map (fun x => (x.1, Q.mulVec x.2))) := by
    refine (List.perm_ext_iff_of_nodup n1' (n1.map hinj)).2 ?_
    intro x
    rw [n2', List.mem_map]
    constructor
    · rintro ⟨m1, m2, m3⟩
      have hx : Q.mulVec (Q.transpose.mulVec x.2) = x.2 := mulVec_forth hQ _
      refine ⟨(x.1, Q.transpose.mulVec x.2), (n2 _).2 ⟨?_, ?_, ?_⟩, Prod.ext rfl hx⟩
      · rw [← hmv, hx]; exact m1
      · intro h0
        have h0' : Q.transpose.mulVec x.2 = 0 := h0
        rw [h0', Matrix.mulVec_zero] at hx
        exact m2 hx.symm
      · show dist3 (Q.transpose.mulVec x.2) 0 < rcut
        rw [← mulVec_dist hQ, hx]
        exact m3
    · rintro ⟨y, hy, rfl⟩
      obtain ⟨m1, m2, m3⟩ := (n2 y).1 hy
      refine ⟨(hmv _ _).2 m1, ?_, ?_⟩
      · intro h0
        have := congrArg Q.transpose.mulVec h0
        rw [mulVec_back hQ, Matrix.mulVec_zero] at this
        exact m2 this
      · show dist3 (Q.mulVec y.2) 0 < rcut
        rw [mulVec_dist hQ]; exact m3
  have hboth : ∀ (L : Fin 3 → Vec ℝ) (atoms : List (ℤ × Vec ℝ)) (imgs : List (ℕ × (Fin 3 → ℤ))) (i : ℕ)
      (c : ℤ × Vec ℝ),
      (∀ e, e ∈ imgs ↔ NearBy L (fun _ => true) (atoms.map Prod.snd) rcut c.2 e ∧ e ≠ (i, 0)) →
      imgs.map (imageBoth L atoms rcut rs c.2)
        = (imgs.map (imageRel L atoms c.2)).map (fun x => (x.1, relBoth rcut rs x.2)) := by
    intro L atoms imgs i c g2
    rw [List.map_map]
    refine List.map_congr_left ?_
    intro e he
    obtain ⟨⟨_, p, hp, _⟩, _⟩ := (g2 e).1 he
    rw [List.getElem?_map] at hp
    obtain ⟨a, ha, _⟩ := Option.map_eq_some_iff.1 hp
    simp only [Function.comp, imageBoth, imageRel, ha, relBoth]
  have hsorted : ∀ (L : Fin 3 → Vec ℝ) (atoms : List (ℤ × Vec ℝ)) (imgs : List (ℕ × (Fin 3 → ℤ))) (i : ℕ)
      (c : ℤ × Vec ℝ),
      (∀ e, e ∈ imgs ↔ NearBy L (fun _ => true) (atoms.map Prod.snd) rcut c.2 e ∧ e ≠ (i, 0)) →
      imgs.Pairwise (fun e e' => ∀ p p', (atoms.map Prod.snd)[e.1]? = some p →
          (atoms.map Prod.snd)[e'.1]? = some p' →
          dist3 (imagePos L p e.2) c.2 ≤ dist3 (imagePos L p' e'.2) c.2) →
      (imgs.map (imageRel L atoms c.2)).Pairwise (fun a b => dist3 a.2 0 ≤ dist3 b.2 0) := by
    intro L atoms imgs i c g2 hs
    rw [List.pairwise_map]
    refine hs.imp_of_mem ?_
    intro e e' he he' h
    obtain ⟨⟨_, p, hp, _⟩, _⟩ := (g2 e).1 he
    obtain ⟨⟨_, p', hp', _⟩, _⟩ := (g2 e').1 he'
    have hh := h p p' hp hp'
    rw [List.getElem?_map] at hp hp'
    obtain ⟨a, ha, rfl⟩ := Option.map_eq_some_iff.1 hp
    obtain ⟨a', ha', rfl⟩ := Option.map_eq_some_iff.1 hp'
    simp only [imageRel, ha, ha']
    rw [← dist3_rel, ← dist3_rel]
    exact hh
  have hzero : ((0, 0) : (Fin 4 → ℝ) × Matrix (Fin 4) (Fin 3) ℝ) = 0 := rfl
  rw [hzero] at g4 g4'
  rw [g4, g4', typeSlots_typeBlocks _ _ _ g5 k m hkm, typeSlots_typeBlocks _ _ _ g5' k m hkm,
    hboth L atoms imgs i c g2, hboth L' atoms' imgs' i' c' g2']
  obtain ⟨s1, s2⟩ := slots_rotate hQ rcut rs _ _ m k hperm
  exact ⟨s1, fun hs hs' => s2 (hsorted L atoms imgs i c g2 (g3 hs)) (hsorted L' atoms' imgs' i' c' g2' (g3' hs'))⟩

/-! ## An example: the crystal of `exTyped` with the axes permuted -/

/-- `(x, y, z) ↦ (z, x, y)`. -/
noncomputable def turnQ : Matrix (Fin 3) (Fin 3) ℝ := !![0, 0, 1; 1, 0, 0; 0, 1, 0]

/-- The cell `exL` after the rotation, lattice vectors in another order. -/
noncomputable def turnL : Fin 3 → Vec ℝ := ![![6, 0, 0], ![0, 4, 0], ![0, 1, 5]]

/-- The atoms of `exTyped` after the rotation and a displacement by `(1, 0, 0)`, in another order. -/
noncomputable def turnTyped : List (ℤ × Vec ℝ) := [(1, ![2, 2, 1]), (0, ![1, 0, 0])]

theorem turn_shift (p : Vec ℝ) (n : Fin 3 → ℤ) :
    imagePos turnL (turnQ.mulVec p + ![1, 0, 0]) ![n 2, n 0, n 1] = turnQ.mulVec (imagePos exL p n) + ![1, 0, 0] := by
  funext i
  fin_cases i <;>
    simp [imagePos_apply, turnL, turnQ, exL, Matrix.mulVec, dotProduct, Fin.sum_univ_three] <;> ring

theorem turn_atoms (a : ℤ × Vec ℝ) : a ∈ turnTyped ↔ ∃ b ∈ exTyped, a = (b.1, turnQ.mulVec b.2 + ![1, 0, 0]) := by
  have e0 : turnQ.mulVec ![0, 0, 0] + ![1, 0, 0] = ![1, 0, 0] := by
    funext i; fin_cases i <;> simp [turnQ, Matrix.mulVec, dotProduct, Fin.sum_univ_three]
  have e1 : turnQ.mulVec ![2, 1, 1] + ![1, 0, 0] = ![2, 2, 1] := by
    funext i; fin_cases i <;> simp [turnQ, Matrix.mulVec, dotProduct, Fin.sum_univ_three]; norm_num
  simp only [turnTyped, exTyped, List.mem_cons, List.not_mem_nil, or_false, exists_eq_or_imp, exists_eq_left, e0, e1]
  exact or_comm

theorem turn_orthogonal : turnQ.transpose * turnQ = 1 := by
  ext i j
  rw [Matrix.mul_apply, Fin.sum_univ_three]
  fin_cases i <;> fin_cases j <;> simp [turnQ]

theorem turn_crystal (t : ℤ) (p : Vec ℝ) : (t, p) ∈ typedCrystal exL exTyped ↔
    (t, turnQ.mulVec p + ![1, 0, 0]) ∈ typedCrystal turnL turnTyped := by
  constructor
  · rintro ⟨b, hb, n, hx⟩
    rw [Prod.mk.injEq] at hx
    obtain ⟨rfl, rfl⟩ := hx
    exact ⟨_, (turn_atoms _).2 ⟨b, hb, rfl⟩, ![n 2, n 0, n 1], Prod.ext rfl (turn_shift b.2 n).symm⟩
  · rintro ⟨a, ha, n, hx⟩
    obtain ⟨b, hb, rfl⟩ := (turn_atoms a).1 ha
    rw [Prod.mk.injEq] at hx
    refine ⟨b, hb, ![n 1, n 2, n 0], Prod.ext hx.1 ?_⟩
    have h := turn_shift b.2 ![n 1, n 2, n 0]
    have en : (![(![n 1, n 2, n 0] : Fin 3 → ℤ) 2, (![n 1, n 2, n 0] : Fin 3 → ℤ) 0,
        (![n 1, n 2, n 0] : Fin 3 → ℤ) 1] : Fin 3 → ℤ) = n := by
      funext i; fin_cases i <;> rfl
    rw [en] at h
    have h2 : turnQ.mulVec p + ![1, 0, 0] = turnQ.mulVec (imagePos exL b.2 ![n 1, n 2, n 0]) + ![1, 0, 0] := by
      rw [← h]; exact hx.2
    have h3 := congrArg turnQ.transpose.mulVec (add_right_cancel h2)
    rwa [mulVec_back turn_orthogonal, mulVec_back turn_orthogonal] at h3

theorem turn_ok : CellOk turnL turnTyped (fun _ => true) := by
  refine ⟨by simp [Matrix.det_fin_three, turnL], by simp [turnTyped], ?_, ?_, by simp⟩
  · intro a ha
    simp only [turnTyped, List.mem_cons, List.not_mem_nil, or_false] at ha
    rcases ha with rfl | rfl
    · refine ⟨![1 / 3, 9 / 20, 1 / 5], by intro i; fin_cases i <;> norm_num, ?_⟩
      funext i
      fin_cases i <;> simp [cartOf, turnL, Fin.sum_univ_three] <;> norm_num
    · refine ⟨![1 / 6, 0, 0], by intro i; fin_cases i <;> norm_num, ?_⟩
      funext i
      fin_cases i <;> simp [cartOf, turnL, Fin.sum_univ_three]
  · intro p
    fin_cases p
    · exact ⟨0, by simp [turnL]⟩
    · exact ⟨1, by simp [turnL]⟩
    · exact ⟨2, by simp [turnL]⟩

theorem turn_apart : ApartImages turnL (turnTyped.map Prod.snd) := by
  have key : ∀ (p q : Vec ℝ) (t : Fin 3 → ℤ), dist3 (imagePos turnL (turnQ.mulVec q + ![1, 0, 0]) t)
      (turnQ.mulVec p + ![1, 0, 0]) = dist3 (imagePos exL q ![t 1, t 2, t 0]) p := by
    intro p q t
    have h := turn_shift q ![t 1, t 2, t 0]
    have en : (![(![t 1, t 2, t 0] : Fin 3 → ℤ) 2, (![t 1, t 2, t 0] : Fin 3 → ℤ) 0,
        (![t 1, t 2, t 0] : Fin 3 → ℤ) 1] : Fin 3 → ℤ) = t := by
      funext i; fin_cases i <;> rfl
    rw [en] at h
    rw [h, dist3_rel, add_sub_add_right_eq_sub, ← Matrix.mulVec_sub, mulVec_dist turn_orthogonal, ← dist3_rel]
  have hat : ∀ (i : ℕ) (p : Vec ℝ), (turnTyped.map Prod.snd)[i]? = some p → i < 2 ∧
      ∃ p0, (exTyped.map Prod.snd)[1 - i]? = some p0 ∧ p = turnQ.mulVec p0 + ![1, 0, 0] := by
    intro i p hi
    have hl := (List.getElem?_eq_some_iff.1 hi).1
    simp only [turnTyped, List.map_cons, List.map_nil, List.length_cons, List.length_nil] at hl
    refine ⟨hl, ?_⟩
    interval_cases i <;> simp [turnTyped] at hi <;> subst hi
    · refine ⟨![2, 1, 1], rfl, ?_⟩
      funext i; fin_cases i <;> simp [turnQ, Matrix.mulVec, dotProduct, Fin.sum_univ_three]; norm_num
    · refine ⟨![0, 0, 0], rfl, ?_⟩
      funext i; fin_cases i <;> simp [turnQ, Matrix.mulVec, dotProduct, Fin.sum_univ_three]
  intro i j p q t hi hj hne
  obtain ⟨li, p0, hp0, rfl⟩ := hat i p hi
  obtain ⟨lj, q0, hq0, rfl⟩ := hat j q hj
  rw [key]
  refine exL_apart (1 - i) (1 - j) p0 q0 _ hp0 hq0 ?_
  intro h
  rw [Prod.mk.injEq] at h
  refine hne (Prod.ext (by simp only; omega) ?_)
  funext a
  have h0 := congrFun h.2 0
  have h1 := congrFun h.2 1
  have h2 := congrFun h.2 2
  simp at h0 h1 h2
  fin_cases a
  · exact h2
  · exact h0
  · exact h1

theorem exTyped_room : CrystalRoom (typedCrystal exL exTyped) [2, 2] 3 := by
  refine crystalRoom_of_nearBy exL exTyped 3 [2, 2] ?_
  intro i c hc t m hm l hl h
  have hm2 : m = 2 := by
    rcases t with _ | _ | t <;> simp at hm <;> exact hm.symm
  subst hm2
  exact (hl.subperm (fun e he => exTyped_near i c hc e (h e he).1 (h e he).2.1)).length_le

example (A : ArgSort) := C180_same_crystal_partial A A exL turnL exTyped turnTyped turnQ ![1, 0, 0]
  turn_orthogonal 3 1 (by norm_num) true true exTyped_ok turn_ok exL_apart turn_apart turn_crystal [2, 2]
  (by
    intro a ha
    simp only [exTyped, List.mem_cons, List.not_mem_nil, or_false] at ha
    rcases ha with rfl | rfl <;> simp) exTyped_room

/-! ## One atom in a cube -/

theorem cube_shift (d : ℝ) (n : Fin 3 → ℤ) : ∑ i, (n i : ℝ) • cube d i = fun p => d * n p := by
  funext p
  rw [Fin.sum_univ_three]
  fin_cases p <;> simp [cube] <;> ring

theorem cube_crystal (d : ℝ) (t : ℤ) (p : Vec ℝ) :
    (t, p) ∈ typedCrystal (cube d) [(1, ![0, 0, 0])] ↔ t = 1 ∧ ∃ n : Fin 3 → ℤ, p = fun i => d * n i := by
  have h0 : (![0, 0, 0] : Vec ℝ) = 0 := by funext i; fin_cases i <;> rfl
  constructor
  · rintro ⟨a, ha, n, hx⟩
    rw [List.mem_singleton] at ha
    subst ha
    rw [Prod.mk.injEq, cube_shift, h0, zero_add] at hx
    exact ⟨hx.1, n, hx.2⟩
  · rintro ⟨rfl, n, rfl⟩
    exact ⟨_, List.mem_singleton.2 rfl, n, by rw [cube_shift, h0, zero_add]⟩

theorem cube_ok (d : ℝ) (hd : 0 < d) : CellOk (cube d) [(1, ![0, 0, 0])] (fun _ => true) := by
  refine ⟨by rw [cube_det]; positivity, by simp, ?_, ?_, by simp⟩
  · intro a ha
    rw [List.mem_singleton] at ha
    subst ha
    exact ⟨0, by simp, by funext i; fin_cases i <;> simp [cartOf]⟩
  · intro p
    refine ⟨p, ?_⟩
    fin_cases p <;> simpa [cube] using hd

theorem cube_far (d : ℝ) (n : Fin 3 → ℤ) (h : n ≠ 0) :
    d ^ 2 ≤ dist3 (fun i => d * n i) (![0, 0, 0] : Vec ℝ) ^ 2 := by
  have hn : (1 : ℤ) ≤ n 0 ^ 2 + n 1 ^ 2 + n 2 ^ 2 := by
    by_contra hc
    have h0 := sq_nonneg (n 0)
    have h1 := sq_nonneg (n 1)
    have h2 := sq_nonneg (n 2)
    refine h ?_
    have e0 : n 0 ^ 2 = 0 := by omega
    have e1 : n 1 ^ 2 = 0 := by omega
    have e2 : n 2 ^ 2 = 0 := by omega
    funext i
    fin_cases i
    · exact pow_eq_zero_iff (two_ne_zero) |>.1 e0
    · exact pow_eq_zero_iff (two_ne_zero) |>.1 e1
    · exact pow_eq_zero_iff (two_ne_zero) |>.1 e2
  have hn' : (1 : ℝ) ≤ (n 0 : ℝ) ^ 2 + (n 1 : ℝ) ^ 2 + (n 2 : ℝ) ^ 2 := by exact_mod_cast hn
  rw [dist3_sq_comp]
  simp
  nlinarith [sq_nonneg d]

theorem cube_apart (d : ℝ) (hd : 1 ≤ d) :
    ApartImages (cube d) (([(1, ![0, 0, 0])] : List (ℤ × Vec ℝ)).map Prod.snd) := by
  intro i j p q t hi hj hne
  have hi' := (List.getElem?_eq_some_iff.1 hi).1
  have hj' := (List.getElem?_eq_some_iff.1 hj).1
  simp only [List.map_cons, List.map_nil, List.length_cons, List.length_nil] at hi' hj'
  obtain rfl : i = 0 := by omega
  obtain rfl : j = 0 := by omega
  simp at hi hj
  subst hi; subst hj
  have ht : t ≠ 0 := fun h => hne (by rw [h])
  have := cube_far d t ht
  have h0 : (![0, 0, 0] : Vec ℝ) = 0 := by funext i; fin_cases i <;> rfl
  rw [imagePos, cube_shift]
  rw [h0] at this ⊢
  rw [zero_add]
  nlinarith

theorem cube_room (d : ℝ) (hd : 0 < d) :
    CrystalRoom (typedCrystal (cube d) [(1, ![0, 0, 0])]) [0, 1] d := by
  rintro ⟨s, x⟩ hx t m _ l _ hall
  have hl : l = [] := by
    rw [List.eq_nil_iff_forall_not_mem]
    intro p hp
    obtain ⟨g1, g2, g3⟩ := hall p hp
    obtain ⟨_, n, hn⟩ := (cube_crystal d _ _).1 g1
    obtain ⟨_, k, hk⟩ := (cube_crystal d _ _).1 hx
    have h0 : (![0, 0, 0] : Vec ℝ) = 0 := by funext i; fin_cases i <;> rfl
    have hne : n - k ≠ 0 := by
      intro h
      rw [sub_eq_zero] at h
      subst h
      exact g2 (hn.trans hk.symm)
    have hf := cube_far d (n - k) hne
    have e : p - x = fun i => d * ((n - k) i : ℤ) := by
      rw [hn, hk]
      funext i
      simp only [Pi.sub_apply, Int.cast_sub]
      ring
    simp only at g3
    rw [dist3_rel, e] at g3
    rw [h0] at hf
    have hp0 : 0 ≤ dist3 (fun i => d * (((n - k) i : ℤ) : ℝ)) 0 := Real.sqrt_nonneg _
    nlinarith
  rw [hl]
  exact Nat.zero_le _

/-- C180 fails for cells with lattice vectors pointing backwards: the cubic crystal of edge 4 written with
the lattice vectors `(4,0,0)`, `(0,4,0)`, `(0,0,4)` has an environment matrix, the same crystal written
with the opposite lattice vectors makes the neighbour list read out of bounds. -/
theorem C180_violated_backward_cell (A : ArgSort) (sort : Bool) (rs : ℝ) :
    typedCrystal (cube 4) [(1, ![0, 0, 0])] = typedCrystal (cube (-4)) [(1, ![0, 0, 0])] ∧
    (Matrix.of (cube (-4))).det ≠ 0 ∧ InCell (cube (-4)) ![0, 0, 0] ∧
    (∃ N info out, NbrLists.make A (CStruct.make (cube 4) [(1, ![0, 0, 0])] true) 4 (fun _ => true) sort = .ok N ∧
      N.findInfo 1 = .ok info ∧
      envFind ⟨info.inum, info.numneigh.map (fun k : ℕ => (k : ℤ)), info.firstneigh, info.types, [0, 1]⟩
        info.rel 4 rs = .ok out) ∧
    NbrLists.make A (CStruct.make (cube (-4)) [(1, ![0, 0, 0])] true) 4 (fun _ => true) sort
      = .error .outOfBounds := by
  refine ⟨?_, by rw [cube_det]; norm_num, ⟨0, by simp, by funext i; fin_cases i <;> simp [cartOf]⟩, ?_,
    C82_violated_backward_cell A sort⟩
  · ext ⟨t, p⟩
    rw [cube_crystal, cube_crystal]
    constructor
    · rintro ⟨rfl, n, rfl⟩
      exact ⟨rfl, -n, by funext i; simp⟩
    · rintro ⟨rfl, n, rfl⟩
      exact ⟨rfl, -n, by funext i; simp⟩
  · obtain ⟨N, info, out, h1, h2, h3, _⟩ := env_core A (cube 4) [(1, ![0, 0, 0])] 4 rs (fun _ => true) sort
      (cube_ok 4 (by norm_num)) (by norm_num) (cube_apart 4 (by norm_num)) [0, 1]
      (by intro a ha; rw [List.mem_singleton] at ha; subst ha; simp)
      (crystalRoom_nearBy _ _ _ (cube_apart 4 (by norm_num)) _ (cube_room 4 (by norm_num)))
    exact ⟨N, info, out, h1, h2, h3⟩

end MaterSDK
