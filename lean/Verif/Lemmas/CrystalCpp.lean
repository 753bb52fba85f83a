import Verif.Spec.CrystalCpp
import Verif.Lemmas.Crystal
import Verif.Lemmas.Cross

/-! # Helper lemmas for C180 -/

namespace MaterSDK

open Classical

/-- Type and position relative to `c` of an image. -/
noncomputable def imageRel (L : Fin 3 → Vec ℝ) (atoms : List (ℤ × Vec ℝ)) (c : Vec ℝ)
    (e : ℕ × (Fin 3 → ℤ)) : ℤ × Vec ℝ :=
  match atoms[e.1]? with
  | some a => (a.1, imagePos L a.2 e.2 - c)
  | none => (0, 0)

/-- Both parts of a slot. -/
noncomputable def relBoth (rcut rs : ℝ) (q : Vec ℝ) : (Fin 4 → ℝ) × Matrix (Fin 4) (Fin 3) ℝ :=
  (cEnvRow rcut rs q, cEnvDeriv rcut rs q)

theorem imagePos_sub (L : Fin 3 → Vec ℝ) (p q : Vec ℝ) (n k : Fin 3 → ℤ) (h : imagePos L p n = imagePos L q k) :
    imagePos L p (n - k) = q := by
  funext i
  have := congrFun h i
  rw [imagePos_apply, imagePos_apply] at this
  rw [imagePos_apply]
  simp only [Pi.sub_apply, Int.cast_sub]
  linarith

/-- Different images have different positions. -/
theorem imagePos_inj (L : Fin 3 → Vec ℝ) (ps : List (Vec ℝ)) (hap : ApartImages L ps) (i j : ℕ) (p q : Vec ℝ)
    (n k : Fin 3 → ℤ) (hi : ps[i]? = some p) (hj : ps[j]? = some q) (h : imagePos L p n = imagePos L q k) :
    (i, n) = (j, k) := by
  have h1 := imagePos_sub L p q n k h
  by_contra hne
  have h2 : (i, n - k) ≠ (j, 0) := by
    intro e
    rw [Prod.mk.injEq, sub_eq_zero] at e
    exact hne (Prod.ext e.1 e.2)
  have h3 := hap j i q p (n - k) hj hi h2
  rw [h1, dist3_sq_comp] at h3
  norm_num at h3

theorem typedCrystal_shift (L : Fin 3 → Vec ℝ) (atoms : List (ℤ × Vec ℝ)) (t : ℤ) (p : Vec ℝ) (k : Fin 3 → ℤ) :
    (t, imagePos L p k) ∈ typedCrystal L atoms ↔ (t, p) ∈ typedCrystal L atoms := by
  have key : ∀ (p : Vec ℝ) (k : Fin 3 → ℤ), (t, p) ∈ typedCrystal L atoms →
      (t, imagePos L p k) ∈ typedCrystal L atoms := by
    rintro p k ⟨a, ha, n, hx⟩
    rw [Prod.mk.injEq] at hx
    refine ⟨a, ha, n + k, ?_⟩
    rw [hx.1, hx.2, imagePos]
    simp only [Pi.add_apply, Int.cast_add, add_smul, Finset.sum_add_distrib, add_assoc]
  refine ⟨fun h => ?_, key p k⟩
  have := key _ (-k) h
  have e : imagePos L (imagePos L p k) (-k) = p := by
    funext i
    rw [imagePos_apply, imagePos_apply]
    simp only [Pi.neg_apply, Int.cast_neg]
    ring
  rwa [e] at this

/-- The relative positions of the neighbours of an atom. -/
theorem rels_mem (L : Fin 3 → Vec ℝ) (atoms : List (ℤ × Vec ℝ)) (rcut : ℝ)
    (hap : ApartImages L (atoms.map Prod.snd)) (i : ℕ) (c : ℤ × Vec ℝ) (hc : atoms[i]? = some c)
    (imgs : List (ℕ × (Fin 3 → ℤ))) (hnd : imgs.Nodup)
    (himgs : ∀ e, e ∈ imgs ↔ NearBy L (fun _ => true) (atoms.map Prod.snd) rcut c.2 e ∧ e ≠ (i, 0)) :
    (imgs.map (imageRel L atoms c.2)).Nodup ∧
    ∀ x : ℤ × Vec ℝ, x ∈ imgs.map (imageRel L atoms c.2) ↔
      (x.1, c.2 + x.2) ∈ typedCrystal L atoms ∧ x.2 ≠ 0 ∧ dist3 x.2 0 < rcut := by
  have hci : (atoms.map Prod.snd)[i]? = some c.2 := by rw [List.getElem?_map, hc]; rfl
  have hatom : ∀ e ∈ imgs, ∃ a, atoms[e.1]? = some a ∧ (atoms.map Prod.snd)[e.1]? = some a.2 ∧
      dist3 (imagePos L a.2 e.2) c.2 < rcut ∧ imageRel L atoms c.2 e = (a.1, imagePos L a.2 e.2 - c.2) := by
    intro e he
    obtain ⟨⟨_, p, hp, hd⟩, _⟩ := (himgs e).1 he
    have hp' := hp
    rw [List.getElem?_map] at hp
    obtain ⟨a, ha, rfl⟩ := Option.map_eq_some_iff.1 hp
    refine ⟨a, ha, hp', hd, ?_⟩
    unfold imageRel
    rw [ha]
  constructor
  · refine (List.nodup_map_iff_inj_on hnd).2 ?_
    intro e he e' he' h
    obtain ⟨a, _, ha, _, h1⟩ := hatom e he
    obtain ⟨a', _, ha', _, h1'⟩ := hatom e' he'
    rw [h1, h1', Prod.mk.injEq] at h
    exact imagePos_inj L _ hap e.1 e'.1 a.2 a'.2 e.2 e'.2 ha ha' (sub_left_injective h.2)
  · intro x
    rw [List.mem_map]
    constructor
    · rintro ⟨e, he, rfl⟩
      obtain ⟨a, ha, hp, hd, h1⟩ := hatom e he
      rw [h1]
      refine ⟨⟨a, List.mem_of_getElem? ha, e.2, ?_⟩, ?_, ?_⟩
      · rw [add_sub_cancel]; rfl
      · intro h0
        refine ((himgs e).1 he).2 ?_
        have := sub_eq_zero.1 h0
        refine imagePos_inj L _ hap e.1 i a.2 c.2 e.2 0 hp hci ?_
        rw [imagePos_zero]
        exact this
      · rw [← dist3_rel]; exact hd
    · rintro ⟨⟨a, ha, n, hx⟩, h0, hd⟩
      rw [Prod.mk.injEq] at hx
      obtain ⟨j, hj⟩ := List.getElem?_of_mem ha
      have hrel : imagePos L a.2 n - c.2 = x.2 := by
        rw [imagePos, ← hx.2, add_sub_cancel_left]
      refine ⟨(j, n), (himgs _).2 ⟨⟨by simp, a.2, ?_, ?_⟩, ?_⟩, ?_⟩
      · rw [List.getElem?_map, hj]; rfl
      · rw [dist3_rel, hrel]; exact hd
      · intro he
        rw [Prod.mk.injEq] at he
        obtain ⟨rfl, rfl⟩ := he
        rw [hc] at hj; cases hj
        rw [imagePos_zero, sub_self] at hrel
        exact h0 hrel.symm
      · unfold imageRel
        rw [hj]
        simp only [hrel, ← hx.1]

theorem crystalRoom_nearBy (L : Fin 3 → Vec ℝ) (atoms : List (ℤ × Vec ℝ)) (rcut : ℝ)
    (hap : ApartImages L (atoms.map Prod.snd)) (umax : List ℕ)
    (hroom : CrystalRoom (typedCrystal L atoms) umax rcut) :
    ∀ (i : ℕ) (c : ℤ × Vec ℝ), atoms[i]? = some c → ∀ (t m : ℕ), umax[t]? = some m →
      ∀ l : List (ℕ × (Fin 3 → ℤ)), l.Nodup → (∀ e ∈ l, NearBy L (fun _ => true) (atoms.map Prod.snd) rcut c.2 e ∧
        e ≠ (i, 0) ∧ (atoms[e.1]?).map Prod.fst = some (t : ℤ)) → l.length ≤ m := by
  intro i c hc t m hm l hl hall
  have hci : (atoms.map Prod.snd)[i]? = some c.2 := by rw [List.getElem?_map, hc]; rfl
  have hatom : ∀ e ∈ l, ∃ a, atoms[e.1]? = some a ∧ a.1 = t ∧ (atoms.map Prod.snd)[e.1]? = some a.2 ∧
      dist3 (imagePos L a.2 e.2) c.2 < rcut := by
    intro e he
    obtain ⟨⟨_, p, hp, hd⟩, _, ht⟩ := hall e he
    have hp' := hp
    rw [List.getElem?_map] at hp
    obtain ⟨a, ha, rfl⟩ := Option.map_eq_some_iff.1 hp
    rw [ha] at ht
    exact ⟨a, ha, by simpa using ht, hp', hd⟩
  have hpos : ∀ e ∈ l, ∀ a, atoms[e.1]? = some a → (imageRel L atoms 0 e).2 = imagePos L a.2 e.2 := by
    intro e _ a ha
    unfold imageRel
    rw [ha]
    exact sub_zero _
  rw [← List.length_map (f := fun e => (imageRel L atoms 0 e).2)]
  refine hroom (c.1, c.2) ⟨c, List.mem_of_getElem? hc, 0, by simp⟩ t m hm _ ?_ ?_
  · refine (List.nodup_map_iff_inj_on hl).2 ?_
    intro e he e' he' h
    obtain ⟨a, ha, _, hp, _⟩ := hatom e he
    obtain ⟨a', ha', _, hp', _⟩ := hatom e' he'
    simp only [hpos e he a ha, hpos e' he' a' ha'] at h
    exact imagePos_inj L _ hap e.1 e'.1 a.2 a'.2 e.2 e'.2 hp hp' h
  · intro p hp
    obtain ⟨e, he, rfl⟩ := List.mem_map.1 hp
    obtain ⟨a, ha, hat, hq, hd⟩ := hatom e he
    simp only [hpos e he a ha]
    refine ⟨⟨a, List.mem_of_getElem? ha, e.2, by rw [hat]; rfl⟩, ?_, hd⟩
    intro h0
    refine (hall e he).2.1 (imagePos_inj L _ hap e.1 i a.2 c.2 e.2 0 hq hci ?_)
    rw [imagePos_zero]; exact h0

theorem crystalRoom_of_nearBy (L : Fin 3 → Vec ℝ) (atoms : List (ℤ × Vec ℝ)) (rcut : ℝ) (umax : List ℕ)
    (h : ∀ (i : ℕ) (c : ℤ × Vec ℝ), atoms[i]? = some c → ∀ (t m : ℕ), umax[t]? = some m →
      ∀ l : List (ℕ × (Fin 3 → ℤ)), l.Nodup → (∀ e ∈ l, NearBy L (fun _ => true) (atoms.map Prod.snd) rcut c.2 e ∧
        e ≠ (i, 0) ∧ (atoms[e.1]?).map Prod.fst = some (t : ℤ)) → l.length ≤ m) :
    CrystalRoom (typedCrystal L atoms) umax rcut := by
  rintro x ⟨c, hc, n, rfl⟩ t m hm l hl hall
  obtain ⟨i, hi⟩ := List.getElem?_of_mem hc
  have hex : ∀ p : Vec ℝ, ∃ e : ℕ × (Fin 3 → ℤ), p ∈ l → ∃ a, atoms[e.1]? = some a ∧ a.1 = t ∧
      imagePos L a.2 (e.2 + n) = p := by
    intro p
    by_cases hp : p ∈ l
    · obtain ⟨⟨a, ha, k, hx⟩, _⟩ := hall p hp
      rw [Prod.mk.injEq] at hx
      obtain ⟨j, hj⟩ := List.getElem?_of_mem ha
      refine ⟨(j, k - n), fun _ => ⟨a, hj, hx.1.symm, ?_⟩⟩
      rw [sub_add_cancel]
      exact hx.2.symm
    · exact ⟨(0, 0), fun h => absurd h hp⟩
  choose g hg using hex
  rw [← List.length_map (f := g)]
  refine h i c hi t m hm _ ?_ ?_
  · refine (List.nodup_map_iff_inj_on hl).2 ?_
    intro p hp q hq hpq
    obtain ⟨a, h1, _, h3⟩ := hg p hp
    obtain ⟨b, h1', _, h3'⟩ := hg q hq
    rw [hpq] at h1 h3
    rw [h1] at h1'
    cases h1'
    exact h3.symm.trans h3'
  · intro e he
    obtain ⟨p, hp, rfl⟩ := List.mem_map.1 he
    obtain ⟨a, h1, h2, h3⟩ := hg p hp
    obtain ⟨_, hne, hd⟩ := hall p hp
    have hrel : p - (c.2 + ∑ a, (n a : ℝ) • L a) = imagePos L a.2 (g p).2 - c.2 := by
      generalize (g p).2 = w at h3
      subst h3
      simp only [imagePos, Pi.add_apply, Int.cast_add, add_smul, Finset.sum_add_distrib]
      abel
    refine ⟨⟨by simp, a.2, by rw [List.getElem?_map, h1]; rfl, ?_⟩, ?_, by rw [h1, Option.map_some, h2]⟩
    · rw [dist3_rel, ← hrel, ← dist3_rel]
      exact hd
    · intro h0
      rw [h0] at h1 hrel
      rw [hi] at h1
      cases h1
      rw [imagePos_zero, sub_self, sub_eq_zero] at hrel
      exact hne hrel

/-! ## Rotations -/

variable {Q : Matrix (Fin 3) (Fin 3) ℝ}

theorem mulVec_len (hQ : Q.transpose * Q = 1) (q : Vec ℝ) :
    Q.mulVec q 0 ^ 2 + Q.mulVec q 1 ^ 2 + Q.mulVec q 2 ^ 2 = q 0 ^ 2 + q 1 ^ 2 + q 2 ^ 2 := by
  have key : Q.mulVec q ⬝ᵥ Q.mulVec q = q ⬝ᵥ q := by
    rw [Matrix.dotProduct_mulVec, Matrix.vecMul_mulVec, hQ, Matrix.vecMul_one]
  simp only [dotProduct, Fin.sum_univ_three] at key
  nlinarith [key]

theorem mulVec_dist (hQ : Q.transpose * Q = 1) (q : Vec ℝ) : dist3 (Q.mulVec q) 0 = dist3 q 0 := by
  unfold dist3
  have := mulVec_len hQ q
  simp only [Fin.sum_univ_three, Pi.zero_apply, sub_zero, this]

theorem mulVec_back (hQ : Q.transpose * Q = 1) (q : Vec ℝ) : Q.transpose.mulVec (Q.mulVec q) = q := by
  rw [Matrix.mulVec_mulVec, hQ, Matrix.one_mulVec]

theorem mulVec_forth (hQ : Q.transpose * Q = 1) (q : Vec ℝ) : Q.mulVec (Q.transpose.mulVec q) = q := by
  rw [Matrix.mulVec_mulVec, mul_eq_one_comm.1 hQ, Matrix.one_mulVec]

theorem cEnvRow_rotate (hQ : Q.transpose * Q = 1) (rcut rs : ℝ) (q : Vec ℝ) :
    cEnvRow rcut rs (Q.mulVec q) = rotateRow Q (cEnvRow rcut rs q) := by
  unfold cEnvRow rotateRow
  simp only [mulVec_len hQ q]
  funext i
  fin_cases i <;> simp [Matrix.mulVec, dotProduct, Fin.sum_univ_three] <;> ring

/-- The derivatives in terms of the vector. -/
theorem cEnvDeriv_form (rcut rs : ℝ) (v : Vec ℝ) : ∃ x y z : ℝ,
    ∀ w : Vec ℝ, w 0 ^ 2 + w 1 ^ 2 + w 2 ^ 2 = v 0 ^ 2 + v 1 ^ 2 + v 2 ^ 2 →
      (∀ k, cEnvDeriv rcut rs w 0 k = x * w k) ∧
      ∀ j k : Fin 3, cEnvDeriv rcut rs w j.succ k = y * w j * w k + if j = k then z else 0 := by
  set d := Real.sqrt (v 0 ^ 2 + v 1 ^ 2 + v 2 ^ 2) with hd
  refine ⟨cRecip d ^ 2 * cSwitchDeriv rcut rs d - cRecip d ^ 3 * cSwitch rcut rs d,
    cRecip d ^ 3 * cSwitchDeriv rcut rs d - 2 * cRecip d ^ 4 * cSwitch rcut rs d,
    cRecip d ^ 2 * cSwitch rcut rs d, fun w hw => ⟨?_, ?_⟩⟩
  · intro k
    unfold cEnvDeriv
    simp only [hw, ← hd]
    fin_cases k <;> simp <;> ring
  · intro j k
    unfold cEnvDeriv
    simp only [hw, ← hd]
    fin_cases j <;> fin_cases k <;> simp <;> ring

theorem cEnvDeriv_rotate (hQ : Q.transpose * Q = 1) (rcut rs : ℝ) (q : Vec ℝ) :
    cEnvDeriv rcut rs (Q.mulVec q) = rotateDeriv Q (cEnvDeriv rcut rs q) := by
  obtain ⟨x, y, z, h⟩ := cEnvDeriv_form rcut rs q
  obtain ⟨h0, h1⟩ := h q rfl
  obtain ⟨g0, g1⟩ := h (Q.mulVec q) (mulVec_len hQ q)
  have hort : ∀ j k : Fin 3, Q j 0 * Q k 0 + Q j 1 * Q k 1 + Q j 2 * Q k 2 = if j = k then 1 else 0 := by
    intro j k
    have h' : Q * Q.transpose = 1 := mul_eq_one_comm.1 hQ
    have := congrFun (congrFun h' j) k
    rw [Matrix.mul_apply, Fin.sum_univ_three, Matrix.one_apply] at this
    exact this
  have e1 : cEnvDeriv rcut rs q 1 = cEnvDeriv rcut rs q (Fin.succ 0) := rfl
  have e2 : cEnvDeriv rcut rs q 2 = cEnvDeriv rcut rs q (Fin.succ 1) := rfl
  have e3 : cEnvDeriv rcut rs q 3 = cEnvDeriv rcut rs q (Fin.succ 2) := rfl
  ext i k
  refine Fin.cases ?_ ?_ i
  · rw [g0]
    simp only [rotateDeriv, rotateRow, Matrix.cons_val_zero, Matrix.mul_apply, Fin.sum_univ_three, h0,
      Matrix.transpose_apply, Matrix.mulVec, dotProduct]
    ring
  · intro j
    rw [g1]
    have hr : rotateDeriv Q (cEnvDeriv rcut rs q) j.succ k =
        ∑ a, Q j a * (∑ l, cEnvDeriv rcut rs q a.succ l * Q k l) := by
      simp only [rotateDeriv, rotateRow, Matrix.mul_apply, Fin.sum_univ_three, Matrix.transpose_apply,
        Matrix.mulVec, dotProduct]
      fin_cases j <;> simp [e1, e2, e3]
    rw [hr]
    have ho := hort j k
    simp only [h1, Fin.sum_univ_three, Matrix.mulVec, dotProduct]
    have hz : (if j = k then z else 0) = z * (if j = k then 1 else 0) := by split_ifs <;> ring
    rw [hz, ← ho]
    simp
    ring

theorem relBoth_rotate (hQ : Q.transpose * Q = 1) (rcut rs : ℝ) (q : Vec ℝ) :
    relBoth rcut rs (Q.mulVec q) = Prod.map (rotateRow Q) (rotateDeriv Q) (relBoth rcut rs q) := by
  unfold relBoth
  rw [cEnvRow_rotate hQ, cEnvDeriv_rotate hQ]
  rfl

theorem rotateDeriv_zero : rotateDeriv Q 0 = 0 := by
  ext i k
  unfold rotateDeriv
  rw [Matrix.zero_mul]
  have := congrFun (rotateRow_zero Q) i
  exact this

/-- The slots of one type of a list of neighbours. -/
theorem typeBlock_rel (rcut rs : ℝ) (rels : List (ℤ × Vec ℝ)) (w k : ℕ) :
    typeBlock (0 : (Fin 4 → ℝ) × Matrix (Fin 4) (Fin 3) ℝ) (rels.map (fun x => (x.1, relBoth rcut rs x.2))) (w, k)
      = ((rels.filter (fun x => x.1 = (k : ℤ))).map Prod.snd).map (relBoth rcut rs) ++
        List.replicate (w - ((rels.filter (fun x => x.1 = (k : ℤ))).map Prod.snd).length) 0 := by
  unfold typeBlock
  rw [List.filter_map, List.countP_map, List.map_map, List.map_map, List.length_map,
    ← List.countP_eq_length_filter]
  rfl

/-- Slots of centres whose surroundings are related by a rotation. -/
theorem slots_rotate (hQ : Q.transpose * Q = 1) (rcut rs : ℝ) (rels rels' : List (ℤ × Vec ℝ)) (w k : ℕ)
    (hp : rels'.Perm (rels.map (fun x => (x.1, Q.mulVec x.2)))) :
    (typeBlock (0 : (Fin 4 → ℝ) × Matrix (Fin 4) (Fin 3) ℝ)
        (rels'.map (fun x => (x.1, relBoth rcut rs x.2))) (w, k)).Perm
      ((typeBlock (0 : (Fin 4 → ℝ) × Matrix (Fin 4) (Fin 3) ℝ)
        (rels.map (fun x => (x.1, relBoth rcut rs x.2))) (w, k)).map
          (Prod.map (rotateRow Q) (rotateDeriv Q))) ∧
    (rels.Pairwise (fun a b => dist3 a.2 0 ≤ dist3 b.2 0) →
      rels'.Pairwise (fun a b => dist3 a.2 0 ≤ dist3 b.2 0) →
      (typeBlock (0 : (Fin 4 → ℝ) × Matrix (Fin 4) (Fin 3) ℝ)
        (rels'.map (fun x => (x.1, relBoth rcut rs x.2))) (w, k)).map (fun x => x.1 0) =
      (typeBlock (0 : (Fin 4 → ℝ) × Matrix (Fin 4) (Fin 3) ℝ)
        (rels.map (fun x => (x.1, relBoth rcut rs x.2))) (w, k)).map (fun x => x.1 0)) := by
  rw [typeBlock_rel, typeBlock_rel]
  set l := (rels.filter (fun x => decide (x.1 = (k : ℤ)))).map Prod.snd with hl
  set l' := (rels'.filter (fun x => decide (x.1 = (k : ℤ)))).map Prod.snd with hl'
  have hll : l'.Perm (l.map Q.mulVec) := by
    have := (hp.filter (fun x => decide (x.1 = (k : ℤ)))).map Prod.snd
    rw [List.filter_map, List.map_map] at this
    rw [hl, hl', List.map_map]
    exact this
  have hlen : l'.length = l.length := by rw [hll.length_eq, List.length_map]
  have hs1 : rels.Pairwise (fun a b => dist3 a.2 0 ≤ dist3 b.2 0) →
      (l.map (fun q => dist3 q 0)).Pairwise (· ≤ ·) := by
    intro hs
    rw [hl, List.map_map, List.pairwise_map]
    exact hs.filter _
  have hs2 : rels'.Pairwise (fun a b => dist3 a.2 0 ≤ dist3 b.2 0) →
      (l'.map (fun q => dist3 q 0)).Pairwise (· ≤ ·) := by
    intro hs
    rw [hl', List.map_map, List.pairwise_map]
    exact hs.filter _
  clear_value l l'
  refine ⟨?_, ?_⟩
  · rw [hlen, List.map_append, List.map_replicate, List.map_map]
    have hz : Prod.map (rotateRow Q) (rotateDeriv Q) (0 : (Fin 4 → ℝ) × Matrix (Fin 4) (Fin 3) ℝ) = 0 :=
      Prod.ext (rotateRow_zero Q) rotateDeriv_zero
    rw [hz]
    refine List.Perm.append_right _ ?_
    have e : (Prod.map (rotateRow Q) (rotateDeriv Q) ∘ relBoth rcut rs) = relBoth rcut rs ∘ Q.mulVec := by
      funext q
      exact (relBoth_rotate hQ rcut rs q).symm
    rw [e, ← List.map_map]
    exact hll.map _
  · intro hs hs'
    have hd : l'.map (fun q => dist3 q 0) = l.map (fun q => dist3 q 0) := by
      refine List.Perm.eq_of_pairwise (le := (· ≤ ·)) (fun a b _ _ => le_antisymm) ?_ ?_ ?_
      · exact hs2 hs'
      · exact hs1 hs
      · have := hll.map (fun q => dist3 q 0)
        rw [List.map_map] at this
        refine this.trans (List.Perm.of_eq ?_)
        refine List.map_congr_left ?_
        intro q _
        exact mulVec_dist hQ q
    have hw : ∀ m : List (Vec ℝ), (m.map (relBoth rcut rs)).map (fun x => x.1 0)
        = (m.map (fun q => dist3 q 0)).map (cSmooth rcut rs) := by
      intro m
      rw [List.map_map, List.map_map]
      refine List.map_congr_left ?_
      intro q _
      simp [relBoth, cEnvRow, dist3, Fin.sum_univ_three]
    rw [List.map_append, List.map_append, hw, hw, hd, hlen]

end MaterSDK
