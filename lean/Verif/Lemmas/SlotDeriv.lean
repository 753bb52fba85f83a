import Verif.Spec.EnvForces
import Verif.Lemmas.EnvSmooth
import Verif.Lemmas.MtpSmooth

/-! # Sums over slots as functions of the positions of the atoms -/

namespace MaterSDK

open Classical

theorem atomsAt_get {n : ℕ} (z : Fin n → ℤ) (x : Fin n → Vec ℝ) (i : Fin n) :
    (atomsAt z x)[(i : ℕ)]? = some (z i, x i) := by
  simp [atomsAt]

theorem atomsAt_pos {n : ℕ} (z : Fin n → ℤ) (x : Fin n → Vec ℝ) (i : Fin n) :
    ((atomsAt z x).map Prod.snd)[(i : ℕ)]? = some (x i) := by
  rw [List.getElem?_map, atomsAt_get]; rfl

/-- A list of periodic images around an atom, with the index of the atom as an element of `Fin n`. -/
theorem fin_images (L : Fin 3 → Vec ℝ) {n : ℕ} (z : Fin n → ℤ) (x : Fin n → Vec ℝ) (r : ℝ) (i : Fin n)
    (I : List (ℕ × (Fin 3 → ℤ))) (h1 : I.Nodup)
    (h2 : ∀ e, e ∈ I ↔ NearBy L (fun _ => true) ((atomsAt z x).map Prod.snd) r (x i) e ∧ e ≠ ((i : ℕ), 0)) :
    ∃ J : List (Fin n × (Fin 3 → ℤ)), I = J.map (fun e => ((e.1 : ℕ), e.2)) ∧ J.Nodup ∧
      ∀ e, e ∈ J ↔ dist3 (imagePos L (x e.1) e.2) (x i) < r ∧ e ≠ (i, 0) := by
  have hIn : ∀ e ∈ I, e.1 < n := by
    intro e he
    obtain ⟨⟨_, p, hp, _⟩, _⟩ := (h2 e).1 he
    have := (List.getElem?_eq_some_iff.1 hp).1
    simpa [atomsAt] using this
  have hn : 0 < n := lt_of_le_of_lt (Nat.zero_le _) i.2
  let ix : ℕ × (Fin 3 → ℤ) → Fin n × (Fin 3 → ℤ) := fun e => (if h : e.1 < n then ⟨e.1, h⟩ else ⟨0, hn⟩, e.2)
  have hix : ∀ e ∈ I, ((ix e).1 : ℕ) = e.1 := by
    intro e he
    simp only [ix, dif_pos (hIn e he)]
  refine ⟨I.map ix, ?_, ?_, ?_⟩
  · rw [List.map_map]
    conv_lhs => rw [← List.map_id I]
    refine List.map_congr_left ?_
    intro e he
    exact Prod.ext (hix e he).symm rfl
  · refine (List.nodup_map_iff_inj_on h1).2 ?_
    intro e he e' he' h
    have h2 : (ix e).2 = (ix e').2 := congrArg Prod.snd h
    refine Prod.ext ?_ h2
    rw [← hix e he, ← hix e' he', h]
  · intro e
    rw [List.mem_map]
    constructor
    · rintro ⟨e0, he0, rfl⟩
      obtain ⟨⟨_, p, hp, hd⟩, hne⟩ := (h2 e0).1 he0
      have hp' := atomsAt_pos z x (ix e0).1
      rw [hix e0 he0, hp, Option.some.injEq] at hp'
      subst hp'
      refine ⟨hd, ?_⟩
      intro h
      rw [Prod.mk.injEq] at h
      refine hne (Prod.ext ?_ h.2)
      show e0.1 = (i : ℕ)
      rw [← hix e0 he0]
      exact congrArg Fin.val h.1
    · rintro ⟨h1, h2'⟩
      refine ⟨((e.1 : ℕ), e.2), (h2 _).2 ⟨⟨by simp, x e.1, atomsAt_pos z x e.1, h1⟩, ?_⟩, ?_⟩
      · intro h
        rw [Prod.mk.injEq] at h
        exact h2' (Prod.ext (Fin.ext h.1) h.2)
      · simp only [ix, e.1.2, dif_pos]

/-- The derivative of a sum over slots whose relative positions `r e` depend on a parameter. -/
theorem slots_deriv_gen {X W ι : Type} [NormedAddCommGroup X] [NormedSpace ℝ X] [NormedAddCommGroup W]
    [NormedSpace ℝ W] (S : Set X) (x : X) (hx : x ∈ S) (rcut rs : ℝ) (hlt : rs < rcut)
    (r : ι → X → Vec ℝ) (r' : ι → X →L[ℝ] Vec ℝ) (E : List ι) (hEnd : E.Nodup)
    (hr' : ∀ e ∈ E, HasFDerivAt (r e) (r' e) x) (hne : ∀ e ∈ E, r e x ≠ 0) (m : ℕ)
    (g : (Fin 4 → ℝ) → W) (g' : (Fin 4 → ℝ) → (Fin 4 → ℝ) →L[ℝ] W) (hg : ∀ y, HasFDerivAt g (g' y) y)
    (F : X → W)
    (hF : ∀ᶠ y in nhdsWithin x S, ∃ J : List ι, J.Nodup ∧ (∀ e, e ∈ J ↔ e ∈ E ∧ norm3 (r e y) < rcut) ∧
      J.length ≤ m ∧ F y = (J.map (fun e => g (cEnvRow rcut rs (r e y)))).sum + (m - J.length) • g 0)
    (imgs : List ι) (a1 : imgs.Nodup) (a2 : ∀ e, e ∈ imgs ↔ e ∈ E ∧ norm3 (r e x) < rcut) :
    HasFDerivWithinAt F ((imgs.map (fun e => (g' (cEnvRow rcut rs (r e x))).comp
        ((Matrix.mulVecLin (cEnvDeriv rcut rs (r e x))).toContinuousLinearMap.comp (r' e)))).sum) S x := by
  -- the sum over the close images is the sum over `E`
  have hsum : ∀ (y : X) (J : List ι), J.Nodup → (∀ e, e ∈ J ↔ e ∈ E ∧ norm3 (r e y) < rcut) →
      ∀ (V : Type) [AddCommMonoid V] (f : ι → V),
      (∀ e, rcut ≤ norm3 (r e y) → f e = 0) → (J.map f).sum = (E.map f).sum := by
    intro y J j1 j2 V _ f hf
    have hperm : J.Perm (E.filter (fun e => decide (norm3 (r e y) < rcut))) := by
      refine (List.perm_ext_iff_of_nodup j1 (hEnd.filter _)).2 ?_
      intro e
      rw [List.mem_filter, decide_eq_true_eq, j2]
    rw [(hperm.map f).sum_eq]
    refine sum_filter_zero E _ f ?_
    intro e _ h
    exact hf e (by simpa using h)
  have hfun : ∀ᶠ y in nhdsWithin x S,
      F y = (E.map (fun e => g (cEnvRow rcut rs (r e y)) - g 0)).sum + m • g 0 := by
    filter_upwards [hF] with y hy
    obtain ⟨J, j1, j2, j3, j4⟩ := hy
    rw [← hsum y J j1 j2 W (fun e => g (cEnvRow rcut rs (r e y)) - g 0) (by
      intro e he
      rw [cEnvRow_out hlt he, sub_self])]
    rw [j4]
    clear j1 j2 j4 hF
    obtain ⟨d, rfl⟩ := Nat.exists_eq_add_of_le j3
    rw [Nat.add_sub_cancel_left]
    clear j3
    induction J with
    | nil => simp
    | cons e l ih =>
      simp only [List.map_cons, List.sum_cons, List.length_cons] at ih ⊢
      have e0 : (l.length + 1 + d) • g 0 = g 0 + (l.length + d) • g 0 := by
        rw [show l.length + 1 + d = 1 + (l.length + d) by omega, add_nsmul, one_nsmul]
      rw [e0, add_assoc, ih]
      abel
  have hder : HasFDerivAt (fun y => (E.map (fun e => g (cEnvRow rcut rs (r e y)) - g 0)).sum + m • g 0)
      ((E.map (fun e => (g' (cEnvRow rcut rs (r e x))).comp
        ((Matrix.mulVecLin (cEnvDeriv rcut rs (r e x))).toContinuousLinearMap.comp (r' e)))).sum) x := by
    refine HasFDerivAt.add_const _ (hasFDerivAt_listSum E _ _ x ?_)
    intro e he
    have hrow := (hasFDerivAt_envRow hlt (r e x) (norm3_pos (hne e he))).comp x (hr' e he)
    exact ((hg (cEnvRow rcut rs (r e x))).comp x hrow).sub_const _
  rw [hsum x imgs a1 a2 _ _ (by
    intro e he
    rw [cEnvDeriv_out hlt he]
    ext
    simp)]
  exact hder.hasFDerivWithinAt.congr_of_eventuallyEq hfun (hfun.self_of_nhdsWithin hx)

/-- The derivative of a sum over the slots of a type. -/
theorem slots_deriv {W : Type} [NormedAddCommGroup W] [NormedSpace ℝ W] (A : ArgSort)
    (L : Fin 3 → Vec ℝ) {n : ℕ} (z : Fin n → ℤ) (S : Set (Fin n → Vec ℝ))
    (hS : ∀ y ∈ S, CellOk L (atomsAt z y) (fun _ => true) ∧ ApartImages L ((atomsAt z y).map Prod.snd))
    (rcut rs : ℝ) (hr : 0 < rcut) (hlt : rs < rcut) (i : Fin n) (k m : ℕ)
    (g : (Fin 4 → ℝ) → W) (g' : (Fin 4 → ℝ) → (Fin 4 → ℝ) →L[ℝ] W) (hg : ∀ y, HasFDerivAt g (g' y) y)
    (F : (Fin n → Vec ℝ) → W)
    (hF : ∀ y ∈ S, ∃ J : List (Fin n × (Fin 3 → ℤ)), J.Nodup ∧
      (∀ e, e ∈ J ↔ z e.1 = (k : ℤ) ∧ dist3 (imagePos L (y e.1) e.2) (y i) < rcut ∧ e ≠ (i, 0)) ∧
      J.length ≤ m ∧
      F y = (J.map (fun e => g (cEnvRow rcut rs (imagePos L (y e.1) e.2 - y i)))).sum + (m - J.length) • g 0)
    (x : Fin n → Vec ℝ) (hx : x ∈ S) (imgs : List (Fin n × (Fin 3 → ℤ))) (a1 : imgs.Nodup)
    (a2 : ∀ e, e ∈ imgs ↔ z e.1 = (k : ℤ) ∧ dist3 (imagePos L (x e.1) e.2) (x i) < rcut ∧ e ≠ (i, 0)) :
    HasFDerivWithinAt F ((imgs.map (fun e => (g' (cEnvRow rcut rs (imagePos L (x e.1) e.2 - x i))).comp
        ((Matrix.mulVecLin (cEnvDeriv rcut rs (imagePos L (x e.1) e.2 - x i))).toContinuousLinearMap.comp
          (relMove e.1 i)))).sum) S x := by
  -- the images which can come close
  obtain ⟨E0, e1, e2⟩ := imgs_list A L (atomsAt z x) (rcut + 1) (by linarith) (hS x hx).1 (hS x hx).2 i _ (atomsAt_get z x i)
  obtain ⟨E1, _, hE1d, hE1⟩ := fin_images L z x (rcut + 1) i E0 e1 e2
  obtain ⟨E, hEd⟩ : ∃ E, E = E1.filter (fun e => decide (z e.1 = (k : ℤ))) := ⟨_, rfl⟩
  have hEmem : ∀ e, e ∈ E ↔ z e.1 = (k : ℤ) ∧ dist3 (imagePos L (x e.1) e.2) (x i) < rcut + 1 ∧ e ≠ (i, 0) := by
    intro e
    rw [hEd, List.mem_filter, hE1, decide_eq_true_eq]
    tauto
  have hEnd : E.Nodup := by
    rw [hEd]
    exact hE1d.filter _
  let rr : Fin n × (Fin 3 → ℤ) → (Fin n → Vec ℝ) → Vec ℝ := fun e y => imagePos L (y e.1) e.2 - y i
  have hnorm : ∀ y e, norm3 (rr e y) = dist3 (imagePos L (y e.1) e.2) (y i) := by
    intro y e
    unfold norm3 dist3
    simp [rr, Fin.sum_univ_three]
  have hne0 : ∀ y ∈ S, ∀ e : Fin n × (Fin 3 → ℤ), e ≠ (i, 0) → rr e y ≠ 0 := by
    intro y hy e he h0
    have := imagePos_inj L _ (hS y hy).2 e.1 i (y e.1) (y i) e.2 0 (atomsAt_pos z y _) (atomsAt_pos z y _)
      (by rw [imagePos_zero]; exact sub_eq_zero.1 h0)
    rw [Prod.mk.injEq] at this
    exact he (Prod.ext (Fin.ext this.1) this.2)
  refine slots_deriv_gen S x hx rcut rs hlt rr (fun e => relMove e.1 i) E hEnd ?_
    (fun e he => hne0 x hx e ((hEmem e).1 he).2.2) m g g' hg F ?_ imgs a1 ?_
  · intro e _
    have h1 : HasFDerivAt (fun y : Fin n → Vec ℝ => y e.1)
        (ContinuousLinearMap.proj e.1 : (Fin n → Vec ℝ) →L[ℝ] Vec ℝ) x := hasFDerivAt_apply _ _
    have h2 : HasFDerivAt (fun y : Fin n → Vec ℝ => y i)
        (ContinuousLinearMap.proj i : (Fin n → Vec ℝ) →L[ℝ] Vec ℝ) x := hasFDerivAt_apply _ _
    exact HasFDerivAt.sub (HasFDerivAt.add_const (∑ a, (e.2 a : ℝ) • L a) h1) h2
  · have hclose : ∀ᶠ y in nhdsWithin x S, ∀ j, dist3 (y j) (x j) < 1 / 2 := by
      rw [Filter.eventually_all]
      intro j
      have hcont : Continuous (fun y : Fin n → Vec ℝ => dist3 (y j) (x j)) := by
        unfold dist3
        fun_prop
      have h0 : dist3 (x j) (x j) < 1 / 2 := by rw [dist3_self]; norm_num
      exact nhdsWithin_le_nhds (hcont.continuousAt.eventually_lt continuousAt_const h0)
    filter_upwards [hclose, self_mem_nhdsWithin] with y hyc hy
    obtain ⟨J, j1, j2, j3, j4⟩ := hF y hy
    refine ⟨J, j1, ?_, j3, j4⟩
    intro e
    rw [j2, hEmem, hnorm]
    constructor
    · rintro ⟨b1, b2, b3⟩
      refine ⟨⟨b1, ?_, b3⟩, b2⟩
      have t1 := dist3_triangle (imagePos L (x e.1) e.2) (imagePos L (y e.1) e.2) (x i)
      have t2 := dist3_triangle (imagePos L (y e.1) e.2) (y i) (x i)
      have t3 : dist3 (imagePos L (x e.1) e.2) (imagePos L (y e.1) e.2) = dist3 (y e.1) (x e.1) := by
        rw [dist3_comm (y e.1), imagePos, imagePos, dist3_shift]
      have t5 := hyc e.1
      have t6 := hyc i
      linarith
    · rintro ⟨⟨b1, _, b3⟩, b2⟩
      exact ⟨b1, b2, b3⟩
  · intro e
    rw [a2, hEmem, hnorm]
    constructor
    · rintro ⟨b1, b2, b3⟩
      exact ⟨⟨b1, by linarith, b3⟩, b2⟩
    · rintro ⟨⟨b1, _, b3⟩, b2⟩
      exact ⟨b1, b2, b3⟩

end MaterSDK
