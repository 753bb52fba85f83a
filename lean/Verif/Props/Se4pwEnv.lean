import Verif.Spec.Se4pwEnv
import Verif.Lemmas.Se4pwEnv

/-! # C219: `Se4pw` and `EnvMatrix` agree on the same tables -/

namespace MaterSDK

/-- C219: on tables that describe the same neighbours, `Se4pw` from positions and `EnvMatrix` from relative
positions fill the same slots with the same rows, and with derivatives of opposite sign.  This includes
the inputs with too few slots, where later neighbours overwrite earlier ones, and those on which the code
fails: then both fail. -/
theorem C219_agree (n : ℕ) (ilist numneigh firstneigh types : List ℤ) (umax : List ℕ) (x rel : List ℝ)
    (rcut rs : ℝ) (hrel : RelOf n ilist numneigh firstneigh umax.sum x rel) :
    envFind ⟨n, numneigh, firstneigh, types, umax.map (fun m : ℕ => (m : ℤ))⟩ rel rcut rs
      = (se4pwGenerate ⟨n, numneigh, firstneigh, types, umax.map (fun m : ℕ => (m : ℤ))⟩ ilist x rcut rs).map
          (List.map (fun e => (e.1, -e.2.1))) := by
  unfold envFind se4pwGenerate
  have e0 : ((0, 0) : (Fin 4 → ℝ) × Matrix (Fin 4) (Fin 3) ℝ)
      = (fun e : (Fin 4 → ℝ) × Matrix (Fin 4) (Fin 3) ℝ × Vec ℝ => (e.1, -e.2.1)) (0, 0, 0) := by simp
  rw [e0]
  refine slotFill_map _ (fun e : (Fin 4 → ℝ) × Matrix (Fin 4) (Fin 3) ℝ × Vec ℝ => (e.1, -e.2.1)) _ _ _ _ _ ?_
  intro ii hii
  have hii' : ii < n := by
    have : (ii : ℤ) < (n : ℤ) := hii
    omega
  obtain ⟨i, c, h1, h2, h3⟩ := hrel ii hii'
  refine ⟨c, (), by rw [cGet_nat h1, ok_bind, cVec3_ok h2], rfl, ?_⟩
  intro m hm jj hjj nb t hnb ht
  have hw : (SlotIn.mk n numneigh firstneigh types (umax.map (fun m : ℕ => (m : ℤ)))).width = (umax.sum : ℤ) := by
    unfold SlotIn.width
    induction umax with
    | nil => rfl
    | cons a l ih => simp
  rw [hw] at hnb ⊢
  have get_inv : ∀ {γ : Type} {l : List γ} {k : ℤ} {v : γ}, cGet l k = .ok v → 0 ≤ k ∧ l[k.toNat]? = some v := by
    intro γ l k v h
    unfold cGet at h
    split_ifs at h with hk
    refine ⟨by omega, ?_⟩
    cases hl : l[k.toNat]? with
    | none => rw [hl] at h; cases h
    | some w => rw [hl] at h; cases h; rfl
  obtain ⟨_, hm'⟩ := get_inv hm
  obtain ⟨_, hnb'⟩ := get_inv hnb
  obtain ⟨hnn, _⟩ := get_inv ht
  have ek : ((ii : ℤ) * (umax.sum : ℤ) + (jj : ℤ)) = ((ii * umax.sum + jj : ℕ) : ℤ) := by push_cast; ring
  rw [ek] at hnb' ⊢
  obtain ⟨q, g1, g2⟩ := h3 m (by simpa using hm') jj hjj nb.toNat (by
    rw [Int.toNat_natCast] at hnb'
    rw [hnb', Int.toNat_of_nonneg hnn])
  have ev : ![q 0 - c 0, q 1 - c 1, q 2 - c 2] = q - c := by
    funext a
    fin_cases a <;> rfl
  have enb : nb = ((nb.toNat : ℕ) : ℤ) := (Int.toNat_of_nonneg hnn).symm
  simp only
  rw [cVec3_ok g2, ok_bind, enb, cVec3_ok g1, ok_bind]
  simp only [ev]
  show Except.ok _ = Except.ok _
  rw [se4pwDeriv_neg]
  simp only [neg_neg]

/-- Two atoms seen from the first one and from each other. -/
example := C219_agree 2 [0, 1] [1, 1] [1, 0] [0, 0] [1] [0, 0, 0, 1, 2, 2] [1, 2, 2, -1, -2, -2] 4 1 (by
  intro ii hii
  have e : ii = 0 ∨ ii = 1 := by omega
  rcases e with rfl | rfl
  · refine ⟨0, 0, rfl, ⟨rfl, rfl, rfl⟩, ?_⟩
    intro m hm jj hjj nb hnb
    have : m = 1 := by simpa using hm.symm
    have : jj = 0 := by omega
    subst this
    have : nb = 1 := by
      have : (1 : ℤ) = nb := by simpa using hnb
      omega
    subst this
    exact ⟨![1, 2, 2], ⟨rfl, rfl, rfl⟩, by simp [StoredAt]⟩
  · refine ⟨1, ![1, 2, 2], rfl, ⟨rfl, rfl, rfl⟩, ?_⟩
    intro m hm jj hjj nb hnb
    have : m = 1 := by simpa using hm.symm
    have : jj = 0 := by omega
    subst this
    have : nb = 0 := by
      have : (0 : ℤ) = nb := by simpa using hnb
      omega
    subst this
    exact ⟨0, ⟨rfl, rfl, rfl⟩, by simp [StoredAt]⟩)

end MaterSDK
