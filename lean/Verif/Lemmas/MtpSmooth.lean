import Verif.Lemmas.MtpCrystal
import Verif.Lemmas.AveragesMsd

/-! # Helper lemmas for C182 -/

namespace MaterSDK

open Classical

section
variable {X : Type} [NormedAddCommGroup X] [NormedSpace ℝ X] {x0 : X}

theorem torchDot_diff (cf : List ℝ) (fs : List (X → ℝ)) (h : ∀ f ∈ fs, DifferentiableAt ℝ f x0) :
    DifferentiableAt ℝ (fun x => torchDot cf (fs.map (fun f => f x))) x0 := by
  induction cf generalizing fs with
  | nil => simp [torchDot]
  | cons c cf ih =>
    match fs, h with
    | [], _ => simp [torchDot]
    | f :: fs, h =>
      have h1 := (h f (by simp)).const_mul c
      have h2 := ih fs (fun g hg => h g (by simp [hg]))
      exact h1.add h2

theorem relWeight_diff (P : MtpParams) (hlt : P.rs < P.rcut) (mu : ℕ) (zi t : ℤ) {r : X → Vec ℝ}
    (hr : DifferentiableAt ℝ r x0) (hv : norm3 (r x0) ≠ P.rs) (h0 : r x0 ≠ 0 ∨ 0 < P.rs) :
    DifferentiableAt ℝ (fun x => relWeight P mu zi t (r x)) x0 := by
  unfold relWeight
  have h := torchDot_diff (x0 := x0)
    (P.coeffs.getD ((mu : ℤ) * P.ntypes * P.ntypes + zi * P.ntypes + t).toNat [])
    ((List.range P.size).map (fun k x => mqVal P.rcut P.rs k (norm3 (r x)))) (by
      intro f hf
      obtain ⟨k, _, rfl⟩ := List.mem_map.1 hf
      exact (hasFDerivAt_mqNorm hlt k hv h0).differentiableAt.comp x0 hr)
  simp only [List.map_map] at h
  simp only [mtpQ_all hlt, mtpDist_eq, List.map_map]
  exact h

theorem angularPow_diff {r : X → Vec ℝ} (hr : DifferentiableAt ℝ r x0) (nu : ℕ) (idx : List (Fin 3)) :
    DifferentiableAt ℝ (fun x => angularPow (r x) nu idx) x0 := by
  have hc : ∀ j, DifferentiableAt ℝ (fun x => r x j) x0 := differentiableAt_pi.1 hr
  induction nu generalizing idx with
  | zero => exact differentiableAt_const _
  | succ n ih =>
    match n with
    | 0 => exact hc _
    | n + 1 => exact (ih (idx.take (n + 1))).mul (hc _)

theorem relMoment_diff {ι : Type} (P : MtpParams) (hlt : P.rs < P.rcut) (mu nu : ℕ) (zi : ℤ) (E : List ι) (g : ι → ℤ)
    (rr : ι → X → Vec ℝ) (hr : ∀ e ∈ E, DifferentiableAt ℝ (rr e) x0) (hv : ∀ e ∈ E, norm3 (rr e x0) ≠ P.rs)
    (h0 : ∀ e ∈ E, rr e x0 ≠ 0 ∨ 0 < P.rs) (idx : List (Fin 3)) :
    DifferentiableAt ℝ (fun x => relMoment P mu nu zi (E.map (fun e => (g e, rr e x))) idx) x0 := by
  unfold relMoment
  induction E with
  | nil => simp
  | cons e E ih =>
    simp only [List.map_cons, List.sum_cons]
    refine DifferentiableAt.add ?_ (ih (fun e he => hr e (by simp [he])) (fun e he => hv e (by simp [he]))
      (fun e he => h0 e (by simp [he])))
    exact (relWeight_diff P hlt mu zi (g e) (hr e (by simp)) (hv e (by simp)) (h0 e (by simp))).mul
      (angularPow_diff (hr e (by simp)) nu idx)

theorem sumIdx_diff (n : ℕ) (f : X → List (Fin 3) → ℝ) (h : ∀ K, DifferentiableAt ℝ (fun x => f x K) x0) :
    DifferentiableAt ℝ (fun x => sumIdx n (f x)) x0 := by
  induction n generalizing f with
  | zero => exact h []
  | succ n ih =>
    simp only [sumIdx]
    exact ((ih _ (fun K => h (0 :: K))).add (ih _ (fun K => h (1 :: K)))).add (ih _ (fun K => h (2 :: K)))

theorem bLoop_diff {P : MtpParams} {i : ℤ} {f types : X → List ℤ} {rcs : X → List (Vec ℝ)} {comb : List (ℕ × ℕ)}
    (m : ℕ × ℕ → X → List (Fin 3) → ℝ)
    (hm : ∀ c ∈ comb, ∀ x, mtpMoment P c.1 c.2 i (f x) (types x) (rcs x) = .ok { dim := c.2, val := m c x })
    (hmd : ∀ c ∈ comb, ∀ idx, DifferentiableAt ℝ (fun x => m c x idx) x0) {d d' : ℕ} (p : X → List (Fin 3) → ℝ)
    (hp : ∀ idx, DifferentiableAt ℝ (fun x => p x idx) x0) (hd : dimRun d (comb.map Prod.snd) = some d') :
    ∃ t : X → List (Fin 3) → ℝ, (∀ x, mtpBLoop P i (f x) (types x) (rcs x) { dim := d, val := p x } comb
        = .ok { dim := d', val := t x }) ∧ ∀ idx, DifferentiableAt ℝ (fun x => t x idx) x0 := by
  induction comb generalizing d p with
  | nil =>
    simp only [List.map_nil, dimRun, Option.some.injEq] at hd
    subst hd
    exact ⟨p, fun x => rfl, hp⟩
  | cons c cs ih =>
    rw [List.map_cons, dimRun] at hd
    have hstep : ∀ x, mtpBLoop P i (f x) (types x) (rcs x) { dim := d, val := p x } (c :: cs)
        = (mtpContract { dim := d, val := p x } { dim := c.2, val := m c x }).bind
          (fun q => mtpBLoop P i (f x) (types x) (rcs x) q cs) := by
      intro x
      rw [mtpBLoop, hm c (by simp) x, ok_bind]
      rfl
    by_cases hle : c.2 ≤ d
    · rw [if_pos hle] at hd
      obtain ⟨t, h1, h2⟩ := ih (fun c hc => hm c (by simp [hc])) (fun c hc => hmd c (by simp [hc]))
        (fun x idx => sumIdx c.2 (fun K => p x (idx ++ K) * m c x K))
        (fun idx => sumIdx_diff c.2 _ (fun K => (hp _).mul (hmd c (by simp) K))) hd
      refine ⟨t, fun x => ?_, h2⟩
      rw [hstep, ← h1 x]
      unfold mtpContract
      simp only
      rw [if_pos hle]
      rfl
    · rw [if_neg hle] at hd
      by_cases h0 : d = 0
      · rw [if_pos h0] at hd
        obtain ⟨t, h1, h2⟩ := ih (fun c hc => hm c (by simp [hc])) (fun c hc => hmd c (by simp [hc]))
          (fun x idx => p x [] * m c x idx) (fun idx => (hp []).mul (hmd c (by simp) idx)) hd
        refine ⟨t, fun x => ?_, h2⟩
        rw [hstep, ← h1 x]
        unfold mtpContract
        simp only
        rw [if_neg hle, if_pos h0]
        rfl
      · rw [if_neg h0] at hd
        cases hd

/-- Basis functions are differentiable functions of the relative positions. -/
theorem relBasis_diff {ι : Type} {P : MtpParams} (hlt : P.rs < P.rcut) {nmus : ℕ} {zi : ℤ} {comb : List (ℕ × ℕ)}
    (hc : P.coeffs.length = nmus * P.ntypes * P.ntypes) (hmu : ∀ c ∈ comb, c.1 < nmus)
    (hdim : dimRun 0 (comb.map Prod.snd) = some 0) (hzi : 0 ≤ zi ∧ zi < P.ntypes) (E : List ι) (g : ι → ℤ)
    (hg : ∀ e ∈ E, 0 ≤ g e ∧ g e < P.ntypes)
    (rr : ι → X → Vec ℝ) (hr : ∀ e ∈ E, DifferentiableAt ℝ (rr e) x0) (hv : ∀ e ∈ E, norm3 (rr e x0) ≠ P.rs)
    (h0 : ∀ e ∈ E, rr e x0 ≠ 0 ∨ 0 < P.rs) :
    ∃ G : X → ℝ, (∀ x, relBasis P zi (E.map (fun e => (g e, rr e x))) comb = .ok (G x)) ∧ DifferentiableAt ℝ G x0 := by
  have hrt : ∀ x, ∀ y ∈ E.map (fun e => (g e, rr e x)), 0 ≤ y.1 ∧ y.1 < P.ntypes := by
    intro x y hy
    obtain ⟨e, he, rfl⟩ := List.mem_map.1 hy
    exact hg e he
  obtain ⟨t, h1, h2⟩ := bLoop_diff (x0 := x0) (P := P) (i := 0)
    (f := fun x => (List.range (E.map (fun e => (g e, rr e x))).length).map (fun k : ℕ => (k : ℤ) + 1))
    (types := fun x => zi :: (E.map (fun e => (g e, rr e x))).map Prod.fst)
    (rcs := fun x => (E.map (fun e => (g e, rr e x))).map Prod.snd) (comb := comb)
    (fun c x idx => relMoment P c.1 c.2 zi (E.map (fun e => (g e, rr e x))) idx)
    (fun c hcm x => relBasis_moment c.2 hc (hmu c hcm) hzi (hrt x))
    (fun c _ idx => relMoment_diff P hlt c.1 c.2 zi E g rr hr hv h0 idx) (d := 0) (d' := 0) (fun _ _ => 1)
    (fun _ => differentiableAt_const _) hdim
  refine ⟨fun x => t x [], fun x => ?_, h2 []⟩
  unfold relBasis mtpBasis
  rw [h1 x, ok_bind]
  rfl

end

/-- The images around an atom up to a distance, as a finite list. -/
theorem imgs_list (A : ArgSort) (L : Fin 3 → Vec ℝ) (atoms : List (ℤ × Vec ℝ)) (rc : ℝ) (hr : 0 < rc)
    (hok : CellOk L atoms (fun _ => true)) (hap : ApartImages L (atoms.map Prod.snd)) (i : ℕ) (c : ℤ × Vec ℝ)
    (hc : atoms[i]? = some c) : ∃ imgs : List (ℕ × (Fin 3 → ℤ)), imgs.Nodup ∧
      ∀ e, e ∈ imgs ↔ NearBy L (fun _ => true) (atoms.map Prod.snd) rc c.2 e ∧ e ≠ (i, 0) := by
  obtain ⟨_, _, _, _, _, _, h5, _⟩ := nbr_exact A L atoms rc (fun _ => true) false hok hr
  obtain ⟨imgs, _, g2, g3, _⟩ := h5 i c hc
  have hci : (atoms.map Prod.snd)[i]? = some c.2 := by rw [List.getElem?_map, hc]; rfl
  refine ⟨imgs, g2, ?_⟩
  intro e
  rw [g3]
  constructor
  · rintro ⟨k1, k2⟩
    refine ⟨k1, ?_⟩
    rintro rfl
    have := k2 c.2 hci
    rw [imagePos_zero, dist3_sq_comp] at this
    norm_num at this
  · rintro ⟨k1, k2⟩
    exact ⟨k1, fun p hp => hap i e.1 c.2 p e.2 hci hp k2⟩

end MaterSDK
