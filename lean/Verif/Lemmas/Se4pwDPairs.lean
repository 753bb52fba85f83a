import Verif.Spec.Se4pwD
import Verif.Lemmas.Se4pwD

/-! # `Se4pw` in doubles beside `Se4pw` in real arithmetic, for C220 -/

namespace MaterSDK

theorem tablePairs_reads (n : ℕ) (ilist numneigh firstneigh types : List ℤ) (umax : List ℕ) (x : List ℝ)
    (P : ℕ → Vec ℝ → Vec ℝ → Prop) (hrel : TablePairs n ilist numneigh firstneigh umax.sum x P) :
    ∀ ii : ℕ, (ii : ℤ) < (n : ℤ) → ∃ c, (cGet ilist (ii : ℤ) >>= fun i => cVec3 x i) = .ok c ∧
      ∀ m, cGet numneigh (ii : ℤ) = .ok m → ∀ jj : ℕ, (jj : ℤ) < m → ∀ nb t,
        cGet firstneigh (ii * (SlotIn.mk n numneigh firstneigh types
          (umax.map (fun m : ℕ => (m : ℤ)))).width + jj) = .ok nb → cGet types nb = .ok t →
        ∃ (q : Vec ℝ) (k : ℕ), ii * (SlotIn.mk n numneigh firstneigh types
          (umax.map (fun m : ℕ => (m : ℤ)))).width + jj = (k : ℤ) ∧ cVec3 x nb = .ok q ∧ P k c q := by
  intro ii hii
  have hw : (SlotIn.mk n numneigh firstneigh types (umax.map (fun m : ℕ => (m : ℤ)))).width = (umax.sum : ℤ) := by
    unfold SlotIn.width
    induction umax with
    | nil => rfl
    | cons a l ih => simp
  obtain ⟨i, c, h1, h2, h3⟩ := hrel ii (by omega)
  refine ⟨c, by rw [cGet_nat h1, ok_bind, cVec3_ok h2], ?_⟩
  intro m hm jj hjj nb t hnb ht
  rw [hw] at hnb ⊢
  obtain ⟨_, hm'⟩ := cGet_ok.1 hm
  obtain ⟨_, hnb'⟩ := cGet_ok.1 hnb
  obtain ⟨hnn, _⟩ := cGet_ok.1 ht
  have ek : ((ii : ℤ) * (umax.sum : ℤ) + (jj : ℤ)) = ((ii * umax.sum + jj : ℕ) : ℤ) := by push_cast; ring
  rw [ek] at hnb'
  obtain ⟨q, g1, g2⟩ := h3 m (by simpa using hm') jj hjj nb.toNat (by
    rw [Int.toNat_natCast] at hnb'
    rw [hnb', Int.toNat_of_nonneg hnn])
  have enb : nb = ((nb.toNat : ℕ) : ℤ) := (Int.toNat_of_nonneg hnn).symm
  exact ⟨q, ii * umax.sum + jj, ek, by rw [enb]; exact cVec3_ok g1, g2⟩

/-- What holds for the rounded and the exact content of a slot. -/
def SlotNear (rcut rs ρ B : ℝ) (u : ((Fin 4 → ℝ) × Matrix (Fin 4) (Fin 3) ℝ × Vec ℝ) ×
    ((Fin 4 → ℝ) × Matrix (Fin 4) (Fin 3) ℝ × Vec ℝ)) : Prop :=
  (∀ a, |u.1.1 a - u.2.1 a| ≤ seTol rcut rs ρ B) ∧
  (∀ a b, |u.1.2.1 a b - u.2.2.1 a b| ≤ seDerivTol rcut rs ρ B) ∧
  ∀ a, |u.1.2.2 a - u.2.2.2 a| ≤ |u.2.2.2 a| / 2 ^ 53

theorem slotNear_val {rcut rs ρ B : ℝ} (hrs : rs < rcut) (hρ : 0 < ρ) (hB : B ≤ 2 ^ 41 * ρ)
    (hB' : B ≤ 2 ^ 41 * (rcut - rs)) (c q : Vec ℝ) (h1 : ρ ≤ dist3 q c) (h2 : dist3 q c ≤ B) :
    SlotNear rcut rs ρ B
      ((envRowD flR rcut rs (fun p => flR (q p - c p)), se4pwDerivD flR rcut rs (fun p => flR (q p - c p)),
        fun p => flR (q p - c p)), (cEnvRow rcut rs (q - c), cSe4pwDeriv rcut rs (q - c), q - c)) := by
  have hd : dist3 q c = norm3 (q - c) := by
    unfold dist3 norm3
    rw [Fin.sum_univ_three]
    rfl
  have hr : ∀ p, |flR (q p - c p) - (q - c) p| ≤ |(q - c) p| * uR := fun p => flR_err _
  have hu : uR = 1 / 2 ^ 53 := by rw [uR_eq]; norm_num
  have hc : CloseVec rcut rs (B / 2 ^ 47) ρ (fun p => flR (q p - c p)) (q - c) := by
    refine ⟨hrs, hρ, by rw [← hd]; exact h1, ?_, ?_, ?_, ?_⟩
    · intro p
      have h3 : |(q - c) p| ≤ norm3 (q - c) := abs_le_norm3 _ p
      refine (hr p).trans ?_
      rw [hu]
      rw [hd] at h2
      have : 0 ≤ B := (norm3_nonneg _).trans h2
      linarith
    · linarith
    · linarith
    · rw [hu, ← hd]
      linarith
  have hB0 : 0 ≤ B := hρ.le.trans (h1.trans h2)
  have hΔ : 0 < rcut - rs := sub_pos.2 hrs
  refine ⟨fun a => ?_, fun a b => ?_, fun a => ?_⟩
  · refine (hc.row a).trans (le_of_eq ?_)
    unfold unitOf seTol
    ring
  · refine (hc.seDeriv a b).trans (le_of_eq ?_)
    unfold unitOf seDerivTol
    ring
  · refine (hr a).trans (le_of_eq ?_)
    rw [hu]
    ring

theorem se4pw_pairs (n : ℕ) (ilist numneigh firstneigh types : List ℤ) (umax : List ℕ) (x : List ℝ)
    (rcut rs ρ B : ℝ) (hrs : rs < rcut) (hρ : 0 < ρ) (hρB : ρ ≤ B) (hB : B ≤ 2 ^ 41 * ρ)
    (hB' : B ≤ 2 ^ 41 * (rcut - rs)) (hpairs : TablePairs n ilist numneigh firstneigh umax.sum x
      (fun _ c q => ρ ≤ dist3 q c ∧ dist3 q c ≤ B)) :
    ∃ comb : Except CErr (List (((Fin 4 → ℝ) × Matrix (Fin 4) (Fin 3) ℝ × Vec ℝ) ×
        ((Fin 4 → ℝ) × Matrix (Fin 4) (Fin 3) ℝ × Vec ℝ))),
      se4pwGenerateD flR ⟨n, numneigh, firstneigh, types, umax.map (fun m : ℕ => (m : ℤ))⟩ ilist x rcut rs
        = comb.map (List.map Prod.fst) ∧
      se4pwGenerate ⟨n, numneigh, firstneigh, types, umax.map (fun m : ℕ => (m : ℤ))⟩ ilist x rcut rs
        = comb.map (List.map Prod.snd) ∧
      ∀ l, comb = .ok l → ∀ u ∈ l, SlotNear rcut rs ρ B u := by
  have key := tablePairs_reads n ilist numneigh firstneigh types umax x _ hpairs
  refine ⟨slotFill ⟨n, numneigh, firstneigh, types, umax.map (fun m : ℕ => (m : ℤ))⟩ ((0, 0, 0), (0, 0, 0))
    (fun ii => cGet ilist (ii : ℤ) >>= fun i => cVec3 x i)
    (fun c _ nb => cVec3 x nb >>= fun q => .ok
      ((envRowD flR rcut rs (fun p => flR (q p - c p)), se4pwDerivD flR rcut rs (fun p => flR (q p - c p)),
        fun p => flR (q p - c p)), (cEnvRow rcut rs (q - c), cSe4pwDeriv rcut rs (q - c), q - c))), ?_, ?_, ?_⟩
  · unfold se4pwGenerateD
    refine slotFill_map _ Prod.fst ((0, 0, 0), (0, 0, 0)) _ _ _ _ ?_
    intro ii hii
    obtain ⟨c, hc, hq⟩ := key ii hii
    refine ⟨c, c, hc, hc, ?_⟩
    intro m hm jj hjj nb t hnb ht
    obtain ⟨q, k, hk, h1, h2⟩ := hq m hm jj hjj nb t hnb ht
    have ev : ![flR (q 0 - c 0), flR (q 1 - c 1), flR (q 2 - c 2)] = fun p => flR (q p - c p) := by
      funext a
      fin_cases a <;> rfl
    rw [h1, ok_bind, ok_bind]
    simp only [ev]
    rfl
  · unfold se4pwGenerate
    refine slotFill_map _ Prod.snd ((0, 0, 0), (0, 0, 0)) _ _ _ _ ?_
    intro ii hii
    obtain ⟨c, hc, hq⟩ := key ii hii
    refine ⟨c, c, hc, hc, ?_⟩
    intro m hm jj hjj nb t hnb ht
    obtain ⟨q, k, hk, h1, h2⟩ := hq m hm jj hjj nb t hnb ht
    have ev : ![q 0 - c 0, q 1 - c 1, q 2 - c 2] = q - c := by
      funext a
      fin_cases a <;> rfl
    rw [h1, ok_bind, ok_bind]
    simp only [ev]
    rfl
  · intro l hl
    have hΔ : 0 < rcut - rs := sub_pos.2 hrs
    have hB0 : 0 ≤ B := hρ.le.trans hρB
    · refine slotFill_forall _ (SlotNear rcut rs ρ B) _ ?_ _ _ ?_ l hl
      · refine ⟨fun a => ?_, fun a b => ?_, fun a => ?_⟩
        · simp only [Pi.zero_apply, sub_zero, abs_zero]
          unfold seTol
          positivity
        · simp only [Matrix.zero_apply, sub_zero, abs_zero]
          unfold seDerivTol
          positivity
        · simp
      · intro ii hii c hc m hm jj hjj nb t hnb ht u hu
        obtain ⟨c', hc', hq⟩ := key ii hii
        rw [hc] at hc'
        cases hc'
        obtain ⟨q, k, hk, h1, h2, h3⟩ := hq m hm jj hjj nb t hnb ht
        rw [h1, ok_bind] at hu
        cases hu
        exact slotNear_val hrs hρ hB hB' c q h2 h3

end MaterSDK
