import Verif.Lemmas.CrystalCpp
import Verif.Lemmas.EnvMatrixCalc

/-! # Helper lemmas for C184 -/

namespace MaterSDK

open Classical

theorem cEnvRow_out {rcut rs : ℝ} (h : rs < rcut) {v : Vec ℝ} (hv : rcut ≤ norm3 v) : cEnvRow rcut rs v = 0 := by
  have hs : cSmooth rcut rs (Real.sqrt (v 0 ^ 2 + v 1 ^ 2 + v 2 ^ 2)) = 0 := by
    change rcut ≤ Real.sqrt (v 0 ^ 2 + v 1 ^ 2 + v 2 ^ 2) at hv
    unfold cSmooth
    simp only
    rw [if_neg (by linarith), if_neg (by intro h; linarith [h.2])]
  unfold cEnvRow
  simp only [hs]
  funext i
  fin_cases i <;> simp

theorem cEnvDeriv_out {rcut rs : ℝ} (h : rs < rcut) {v : Vec ℝ} (hv : rcut ≤ norm3 v) :
    cEnvDeriv rcut rs v = 0 := by
  change rcut ≤ Real.sqrt (v 0 ^ 2 + v 1 ^ 2 + v 2 ^ 2) at hv
  have h1 : cSwitch rcut rs (Real.sqrt (v 0 ^ 2 + v 1 ^ 2 + v 2 ^ 2)) = 0 := by
    unfold cSwitch
    simp only
    rw [if_neg (by linarith), if_neg (by intro h; linarith [h.2])]
  have h2 : cSwitchDeriv rcut rs (Real.sqrt (v 0 ^ 2 + v 1 ^ 2 + v 2 ^ 2)) = 0 := by
    unfold cSwitchDeriv
    simp only
    rw [if_neg (by linarith), if_neg (by intro h; linarith [h.2])]
  unfold cEnvDeriv
  simp only [h1, h2]
  ext i k
  fin_cases i <;> fin_cases k <;> simp

/-- Slots summed: padding counts as the value at zero. -/
theorem slots_sum {W : Type} [AddCommGroup W] (g : (Fin 4 → ℝ) → W) (rcut rs : ℝ)
    (rels : List (ℤ × Vec ℝ)) (m k : ℕ) (hm : (rels.filter (fun x => decide (x.1 = (k : ℤ)))).length ≤ m) :
    ((typeBlock (0 : (Fin 4 → ℝ) × Matrix (Fin 4) (Fin 3) ℝ)
        (rels.map (fun x => (x.1, relBoth rcut rs x.2))) (m, k)).map (fun s => g s.1)).sum
      = ((rels.filter (fun x => decide (x.1 = (k : ℤ)))).map (fun x => g (cEnvRow rcut rs x.2) - g 0)).sum
        + m • g 0 := by
  rw [typeBlock_rel]
  set l := rels.filter (fun x => decide (x.1 = (k : ℤ))) with hl
  clear_value l
  rw [List.map_append, List.sum_append, List.map_replicate, List.sum_replicate, List.length_map, List.map_map,
    List.map_map]
  obtain ⟨d, rfl⟩ := Nat.exists_eq_add_of_le hm
  rw [Nat.add_sub_cancel_left]
  clear hm hl
  induction l with
  | nil => simp
  | cons x l ih =>
    simp only [List.map_cons, List.sum_cons, List.length_cons, Function.comp, relBoth, Prod.fst_zero] at ih ⊢
    have e : (l.length + 1 + d) • g 0 = g 0 + (l.length + d) • g 0 := by
      rw [show l.length + 1 + d = 1 + (l.length + d) by omega, add_nsmul, one_nsmul]
    rw [e, add_assoc, ih]
    abel

/-- Sums that agree outside of a set where both vanish. -/
theorem sum_filter_zero {ι W : Type} [AddCommMonoid W] (l : List ι) (p : ι → Bool) (f : ι → W)
    (h : ∀ e ∈ l, p e = false → f e = 0) : ((l.filter p).map f).sum = (l.map f).sum := by
  induction l with
  | nil => rfl
  | cons a l ih =>
    have ih' := ih (fun e he => h e (by simp [he]))
    rw [List.filter_cons]
    cases hp : p a with
    | true => simp [ih']
    | false => simp [ih', h a (by simp) hp]

theorem hasFDerivAt_listSum {ι X W : Type} [NormedAddCommGroup X] [NormedSpace ℝ X] [NormedAddCommGroup W]
    [NormedSpace ℝ W] (l : List ι) (f : ι → X → W) (f' : ι → X →L[ℝ] W) (x0 : X)
    (h : ∀ e ∈ l, HasFDerivAt (f e) (f' e) x0) :
    HasFDerivAt (fun x => (l.map (fun e => f e x)).sum) (l.map f').sum x0 := by
  induction l with
  | nil => simpa using hasFDerivAt_const (0 : W) x0
  | cons a l ih =>
    simp only [List.map_cons, List.sum_cons]
    exact (h a (by simp)).add (ih (fun e he => h e (by simp [he])))

end MaterSDK
