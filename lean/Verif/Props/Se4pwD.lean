import Verif.Spec.Se4pwD
import Verif.Lemmas.Se4pwDPairs

/-! # C220: `Se4pw` in doubles -/

namespace MaterSDK

/-- C220: for every rounding, the rows `Se4pw` computes from positions are exactly, bit for bit, the rows
`EnvMatrix` computes from the rounded relative positions, slot by slot and padding included; where one
fails the other fails. -/
theorem C220_rows (R : ℝ → ℝ) (n : ℕ) (ilist numneigh firstneigh types : List ℤ) (umax : List ℕ) (x rel : List ℝ)
    (rcut rs : ℝ) (hrel : TablePairs n ilist numneigh firstneigh umax.sum x
      (fun k c q => StoredAt rel k (fun p => R (q p - c p)))) :
    (envFindD R ⟨n, numneigh, firstneigh, types, umax.map (fun m : ℕ => (m : ℤ))⟩ rel rcut rs).map
        (List.map (fun e => e.1))
      = (se4pwGenerateD R ⟨n, numneigh, firstneigh, types, umax.map (fun m : ℕ => (m : ℤ))⟩ ilist x rcut rs).map
          (List.map (fun e => e.1)) := by
  unfold envFindD se4pwGenerateD
  have key := tablePairs_reads n ilist numneigh firstneigh types umax x _ hrel
  rw [← slotFill_map (SlotIn.mk n numneigh firstneigh types (umax.map (fun m : ℕ => (m : ℤ))))
    (fun e : (Fin 4 → ℝ) × Matrix (Fin 4) (Fin 3) ℝ => e.1) (0, 0) (fun _ => .ok ()) (fun _ => .ok ())
    (fun _ k _ => do
      let v ← cVec3 rel k
      return (envRowD R rcut rs v, envDerivD R rcut rs v))
    (fun _ k _ => do
      let v ← cVec3 rel k
      return envRowD R rcut rs v)]
  · refine slotFill_map _ (fun e : (Fin 4 → ℝ) × Matrix (Fin 4) (Fin 3) ℝ × Vec ℝ => e.1) (0, 0, 0) _ _ _ _ ?_
    intro ii hii
    obtain ⟨c, hc, hq⟩ := key ii hii
    refine ⟨c, (), hc, rfl, ?_⟩
    intro m hm jj hjj nb t hnb ht
    obtain ⟨q, k, hk, h1, h2⟩ := hq m hm jj hjj nb t hnb ht
    have ev : ![R (q 0 - c 0), R (q 1 - c 1), R (q 2 - c 2)] = fun p => R (q p - c p) := by
      funext a
      fin_cases a <;> rfl
    rw [hk, h1, ok_bind, cVec3_ok h2, ok_bind]
    simp only [ev]
    rfl
  · intro ii hii
    refine ⟨(), (), rfl, rfl, ?_⟩
    intro m hm jj hjj nb t hnb ht
    cases cVec3 rel (ii * (SlotIn.mk n numneigh firstneigh types (umax.map (fun m : ℕ => (m : ℤ)))).width + jj) <;> rfl

/-- C220: in doubles `Se4pw` succeeds and fails exactly as in real arithmetic, and for neighbours between `ρ`
and `B` away every row, derivative block and relative position differs from the exact one by rounding only. -/
theorem C220_accuracy (n : ℕ) (ilist numneigh firstneigh types : List ℤ) (umax : List ℕ) (x : List ℝ)
    (rcut rs ρ B : ℝ) (hrs : rs < rcut) (hρ : 0 < ρ) (hρB : ρ ≤ B) (hB : B ≤ 2 ^ 41 * ρ)
    (hB' : B ≤ 2 ^ 41 * (rcut - rs)) (hpairs : TablePairs n ilist numneigh firstneigh umax.sum x
      (fun _ c q => ρ ≤ dist3 q c ∧ dist3 q c ≤ B)) :
    (∀ e, se4pwGenerateD flR ⟨n, numneigh, firstneigh, types, umax.map (fun m : ℕ => (m : ℤ))⟩ ilist x rcut rs
        = .error e ↔
      se4pwGenerate ⟨n, numneigh, firstneigh, types, umax.map (fun m : ℕ => (m : ℤ))⟩ ilist x rcut rs = .error e) ∧
    ∀ out ex, se4pwGenerateD flR ⟨n, numneigh, firstneigh, types, umax.map (fun m : ℕ => (m : ℤ))⟩ ilist x rcut rs
        = .ok out →
      se4pwGenerate ⟨n, numneigh, firstneigh, types, umax.map (fun m : ℕ => (m : ℤ))⟩ ilist x rcut rs = .ok ex →
      out.length = ex.length ∧ ∀ (k : ℕ) (e f : (Fin 4 → ℝ) × Matrix (Fin 4) (Fin 3) ℝ × Vec ℝ),
        out[k]? = some e → ex[k]? = some f →
        (∀ a, |e.1 a - f.1 a| ≤ seTol rcut rs ρ B) ∧
        (∀ a b, |e.2.1 a b - f.2.1 a b| ≤ seDerivTol rcut rs ρ B) ∧
        ∀ a, |e.2.2 a - f.2.2 a| ≤ |f.2.2 a| / 2 ^ 53 := by
  obtain ⟨comb, h1, h2, h3⟩ := se4pw_pairs n ilist numneigh firstneigh types umax x rcut rs ρ B hrs hρ hρB hB hB'
    hpairs
  rw [h1, h2]
  cases comb with
  | error e => exact ⟨fun e' => Iff.rfl, fun out ex ho => by cases ho⟩
  | ok l =>
    refine ⟨fun e' => ⟨fun h => (by cases h), fun h => (by cases h)⟩, ?_⟩
    intro out ex ho hex
    cases ho
    cases hex
    refine ⟨by simp, ?_⟩
    intro k e f he hf
    rw [List.getElem?_map, Option.map_eq_some_iff] at he hf
    obtain ⟨u, hu, rfl⟩ := he
    obtain ⟨u', hu', rfl⟩ := hf
    obtain rfl : u' = u := by rw [hu] at hu'; exact (Option.some.inj hu').symm
    exact h3 l rfl u' (List.mem_of_getElem? hu)

/-- The table of the examples: two atoms at distance 3, each with the other as neighbour. -/
theorem exPair_table (P : ℕ → Vec ℝ → Vec ℝ → Prop) (h0 : P 0 0 ![1, 2, 2]) (h1 : P 1 ![1, 2, 2] 0) :
    TablePairs 2 [0, 1] [1, 1] [1, 0] [1].sum [0, 0, 0, 1, 2, 2] P := by
  intro ii hii
  have e : ii = 0 ∨ ii = 1 := by omega
  rcases e with rfl | rfl
  · refine ⟨0, 0, rfl, ⟨rfl, rfl, rfl⟩, ?_⟩
    intro m hm jj hjj nb hnb
    have : m = 1 := by simpa using hm.symm
    have : jj = 0 := by omega
    subst this
    have : nb = 1 := by
      have : (1 : ℤ) = nb := by simpa using hnb
      omega
    subst this
    exact ⟨![1, 2, 2], ⟨rfl, rfl, rfl⟩, h0⟩
  · refine ⟨1, ![1, 2, 2], rfl, ⟨rfl, rfl, rfl⟩, ?_⟩
    intro m hm jj hjj nb hnb
    have : m = 1 := by simpa using hm.symm
    have : jj = 0 := by omega
    subst this
    have : nb = 0 := by
      have : (0 : ℤ) = nb := by simpa using hnb
      omega
    subst this
    exact ⟨0, ⟨rfl, rfl, rfl⟩, h1⟩

example (R : ℝ → ℝ) := C220_rows R 2 [0, 1] [1, 1] [1, 0] [0, 0] [1] [0, 0, 0, 1, 2, 2]
  [R 1, R 2, R 2, R (-1), R (-2), R (-2)] 4 1 (exPair_table _ (by simp [StoredAt]) (by simp [StoredAt]))

example := C220_accuracy 2 [0, 1] [1, 1] [1, 0] [0, 0] [1] [0, 0, 0, 1, 2, 2] 4 1 3 3 (by norm_num) (by norm_num)
  le_rfl (by norm_num) (by norm_num) (exPair_table _
    (by
      have : dist3 ![1, 2, 2] 0 = 3 := by
        unfold dist3
        rw [Fin.sum_univ_three, Real.sqrt_eq_iff_mul_self_eq (by simp; norm_num) (by norm_num)]
        simp
        norm_num
      rw [this]
      exact ⟨le_rfl, le_rfl⟩)
    (by
      have : dist3 0 ![1, 2, 2] = 3 := by
        unfold dist3
        rw [Fin.sum_univ_three, Real.sqrt_eq_iff_mul_self_eq (by simp; norm_num) (by norm_num)]
        simp
        norm_num
      rw [this]
      exact ⟨le_rfl, le_rfl⟩))

/-- The tolerances of the example. -/
example : seTol 4 1 3 3 ≤ 1 / 10 ^ 12 ∧ seDerivTol 4 1 3 3 ≤ 1 / 10 ^ 11 := by
  unfold seTol seDerivTol
  norm_num

end MaterSDK
