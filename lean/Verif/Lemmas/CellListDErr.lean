import Verif.Lemmas.CellListDInfo
import Verif.Lemmas.FloatR
import Verif.Spec.CellListD
import Mathlib.Tactic.Linarith
import Mathlib.Tactic.FinCases

/-! # Rounding errors of supercell, limits and bins -/

namespace MaterSDK

open Classical Matrix

/-- Half a unit in the last place of 1. -/
noncomputable def uR : ℝ := 2 ^ (-53 : ℤ)

theorem uR_pos : 0 < uR := by unfold uR; positivity

theorem uR_eq : uR = 1 / 9007199254740992 := by unfold uR; norm_num

theorem flR_err (x : ℝ) : |flR x - x| ≤ |x| * uR := flR_error x

/-- `y` is off `z` by at most `k` roundings of size `S`. -/
def NearR (S k y z : ℝ) : Prop := |y - z| ≤ k * (uR * S)

theorem nearR_self {S z : ℝ} : NearR S 0 z z := by simp [NearR]

theorem NearR.add {S k k' y y' z z' : ℝ} (h : NearR S k y z) (h' : NearR S k' y' z') :
    NearR S (k + k') (y + y') (z + z') := by
  unfold NearR at *
  rw [abs_le] at *
  constructor <;> linarith [h.1, h.2, h'.1, h'.2]

theorem NearR.sub {S k k' y y' z z' : ℝ} (h : NearR S k y z) (h' : NearR S k' y' z') :
    NearR S (k + k') (y - y') (z - z') := by
  unfold NearR at *
  rw [abs_le] at *
  constructor <;> linarith [h.1, h.2, h'.1, h'.2]

theorem NearR.mono {S k k' y z : ℝ} (h : NearR S k y z) (hS : 0 ≤ S) (hk : k ≤ k') :
    NearR S k' y z := by
  unfold NearR at *
  exact h.trans (mul_le_mul_of_nonneg_right hk (mul_nonneg uR_pos.le hS))

theorem NearR.wider {S S' k y z : ℝ} (h : NearR S k y z) (hk : 0 ≤ k) (hS : S ≤ S') :
    NearR S' k y z := by
  unfold NearR at *
  exact h.trans (mul_le_mul_of_nonneg_left (mul_le_mul_of_nonneg_left hS uR_pos.le) hk)

theorem NearR.abs {S k y z : ℝ} (h : NearR S k y z) : NearR S k |y| |z| := by
  unfold NearR at *
  exact (abs_abs_sub_abs_le _ _).trans h

/-- Rounding an exact number. -/
theorem nearR_round {S z : ℝ} (hz : |z| ≤ S) : NearR S 1 (flR z) z := by
  unfold NearR
  refine (flR_err z).trans ?_
  rw [one_mul, mul_comm]
  exact mul_le_mul_of_nonneg_left hz uR_pos.le

/-- Rounding a number that carries an error. -/
theorem NearR.round {S k y z : ℝ} (h : NearR S k y z) (hz : |z| ≤ S) (hk : k ≤ 1000) :
    NearR S (k + 2) (flR y) z := by
  have hS : 0 ≤ S := (abs_nonneg z).trans hz
  unfold NearR at *
  have hu := uR_pos
  have hp : 0 ≤ uR * S := mul_nonneg hu.le hS
  have h1 : |y| ≤ 2 * S := by
    have h2 : k * (uR * S) ≤ S := by
      have : k * (uR * S) ≤ 1000 * (uR * S) := mul_le_mul_of_nonneg_right hk hp
      have h3 : 1000 * (uR * S) ≤ S := by rw [uR_eq]; linarith
      linarith
    have : |y| ≤ |y - z| + |z| := by
      have := abs_add_le (y - z) z
      simpa using this
    linarith
  have h2 := flR_err y
  have h3 : |y| * uR ≤ 2 * (uR * S) := by nlinarith
  have h4 : |flR y - z| ≤ |flR y - y| + |y - z| := abs_sub_le _ _ _
  linarith

/-! ## One Cartesian axis -/

section Axis

variable (B : Fin 3 → ℝ) (m : Fin 3 → ℕ)

/-- Length of the supercell along the axis. -/
def axisLen : ℝ := ∑ i, |B i| * (2 * (m i : ℝ) + 1)

theorem axisLen_nonneg : 0 ≤ axisLen B m :=
  Finset.sum_nonneg fun i _ => mul_nonneg (abs_nonneg _) (by positivity)

theorem axisTerm_le (i : Fin 3) : |B i| * (2 * (m i : ℝ) + 1) ≤ axisLen B m :=
  Finset.single_le_sum (f := fun i => |B i| * (2 * (m i : ℝ) + 1))
    (fun i _ => mul_nonneg (abs_nonneg _) (by positivity)) (Finset.mem_univ i)

theorem abs_mul_le {b k n : ℝ} (h : |k| ≤ n) : |b * k| ≤ |b| * n := by
  rw [abs_mul]; exact mul_le_mul_of_nonneg_left h (abs_nonneg _)

theorem abs_cast_le {t : ℤ} {m : ℕ} (h : |t| ≤ m) : |(t : ℝ)| ≤ m := by
  have : ((|t| : ℤ) : ℝ) ≤ ((m : ℤ) : ℝ) := Int.cast_le.2 h
  rw [Int.cast_abs] at this
  exact this

/-- The computed position of an image. -/
theorem axis_image (x : ℝ) (hx : |x| ≤ |B 0| + |B 1| + |B 2|) (t : Fin 3 → ℤ) (ht : ∀ i, |t i| ≤ m i) :
    NearR (axisLen B m) 9
      (flR (flR (flR (x + flR (B 0 * t 0)) + flR (B 1 * t 1)) + flR (B 2 * t 2)))
      (x + B 0 * t 0 + B 1 * t 1 + B 2 * t 2) := by
  have e : axisLen B m = |B 0| * (2 * (m 0 : ℝ) + 1) + |B 1| * (2 * (m 1 : ℝ) + 1) +
      |B 2| * (2 * (m 2 : ℝ) + 1) := Fin.sum_univ_three _
  have hb : ∀ i, |B i * t i| ≤ |B i| * m i := fun i => abs_mul_le (abs_cast_le (ht i))
  have hn : ∀ i, 0 ≤ |B i| * (m i : ℝ) := fun i => mul_nonneg (abs_nonneg _) (Nat.cast_nonneg _)
  have h0 := hb 0
  have h1 := hb 1
  have h2 := hb 2
  have n0 := hn 0
  have n1 := hn 1
  have n2 := hn 2
  have a0 := abs_nonneg (B 0)
  have a1 := abs_nonneg (B 1)
  have a2 := abs_nonneg (B 2)
  have s1 := abs_add_le x (B 0 * t 0)
  have s2 := abs_add_le (x + B 0 * t 0) (B 1 * t 1)
  have s3 := abs_add_le (x + B 0 * t 0 + B 1 * t 1) (B 2 * t 2)
  have q0 : NearR (axisLen B m) 1 (flR (B 0 * t 0)) (B 0 * t 0) := nearR_round (by rw [e]; linarith)
  have q1 : NearR (axisLen B m) 1 (flR (B 1 * t 1)) (B 1 * t 1) := nearR_round (by rw [e]; linarith)
  have q2 : NearR (axisLen B m) 1 (flR (B 2 * t 2)) (B 2 * t 2) := nearR_round (by rw [e]; linarith)
  have r1 := (nearR_self.add q0 : NearR _ _ (x + _) _).round (by rw [e]; linarith) (by norm_num)
  have r2 := (r1.add q1).round (by rw [e]; linarith) (by norm_num)
  have r3 := (r2.add q2).round (by rw [e]; linarith) (by norm_num)
  exact r3.mono (axisLen_nonneg B m) (by norm_num)

/-- The computed origin of the supercell. -/
theorem axis_origin : NearR (axisLen B m) 7
      (flR (flR (flR (((-(m 0 : ℤ) : ℤ) : ℝ) * B 0) + flR (((-(m 1 : ℤ) : ℤ) : ℝ) * B 1)) +
        flR (((-(m 2 : ℤ) : ℤ) : ℝ) * B 2)))
      (-(m 0 : ℝ) * B 0 + -(m 1 : ℝ) * B 1 + -(m 2 : ℝ) * B 2) := by
  have e : axisLen B m = |B 0| * (2 * (m 0 : ℝ) + 1) + |B 1| * (2 * (m 1 : ℝ) + 1) +
      |B 2| * (2 * (m 2 : ℝ) + 1) := Fin.sum_univ_three _
  push_cast
  have hb : ∀ i, |-(m i : ℝ) * B i| = |B i| * m i := by
    intro i
    rw [abs_mul, abs_neg, Nat.abs_cast, mul_comm]
  have hn : ∀ i, 0 ≤ |B i| * (m i : ℝ) := fun i => mul_nonneg (abs_nonneg _) (Nat.cast_nonneg _)
  have h0 := hb 0
  have h1 := hb 1
  have h2 := hb 2
  have n0 := hn 0
  have n1 := hn 1
  have n2 := hn 2
  have a0 := abs_nonneg (B 0)
  have a1 := abs_nonneg (B 1)
  have a2 := abs_nonneg (B 2)
  have s2 := abs_add_le (-(m 0 : ℝ) * B 0) (-(m 1 : ℝ) * B 1)
  have s3 := abs_add_le (-(m 0 : ℝ) * B 0 + -(m 1 : ℝ) * B 1) (-(m 2 : ℝ) * B 2)
  have q0 : NearR (axisLen B m) 1 (flR (-(m 0 : ℝ) * B 0)) _ := nearR_round (by rw [e]; linarith)
  have q1 : NearR (axisLen B m) 1 (flR (-(m 1 : ℝ) * B 1)) _ := nearR_round (by rw [e]; linarith)
  have q2 : NearR (axisLen B m) 1 (flR (-(m 2 : ℝ) * B 2)) _ := nearR_round (by rw [e]; linarith)
  have r2 := (q0.add q1).round (by rw [e]; linarith) (by norm_num)
  have r3 := (r2.add q2).round (by rw [e]; linarith) (by norm_num)
  exact r3.mono (axisLen_nonneg B m) (by norm_num)

/-- The computed length of a supercell vector. -/
theorem axis_basis (i : Fin 3) : NearR (axisLen B m) 1
    (flR (B i * ((2 * (m i : ℤ) + 1 : ℤ) : ℝ))) (B i * (2 * (m i : ℝ) + 1)) := by
  push_cast
  apply nearR_round
  rw [abs_mul, abs_of_nonneg (by positivity : (0 : ℝ) ≤ 2 * (m i : ℝ) + 1)]
  exact axisTerm_le B m i

/-- The computed projected length. -/
theorem axis_projected : NearR (axisLen B m) 7
    (flR (flR (|flR (B 0 * ((2 * (m 0 : ℤ) + 1 : ℤ) : ℝ))| + |flR (B 1 * ((2 * (m 1 : ℤ) + 1 : ℤ) : ℝ))|) +
      |flR (B 2 * ((2 * (m 2 : ℤ) + 1 : ℤ) : ℝ))|)) (axisLen B m) := by
  have e : axisLen B m = |B 0| * (2 * (m 0 : ℝ) + 1) + |B 1| * (2 * (m 1 : ℝ) + 1) +
      |B 2| * (2 * (m 2 : ℝ) + 1) := Fin.sum_univ_three _
  have q : ∀ i, NearR (axisLen B m) 1 |flR (B i * ((2 * (m i : ℤ) + 1 : ℤ) : ℝ))|
      (|B i| * (2 * (m i : ℝ) + 1)) := by
    intro i
    have := (axis_basis B m i).abs
    rwa [abs_mul (B i), abs_of_nonneg (by positivity : (0 : ℝ) ≤ 2 * (m i : ℝ) + 1)] at this
  have hn : ∀ i, 0 ≤ |B i| * (2 * (m i : ℝ) + 1) := fun i => mul_nonneg (abs_nonneg _) (by positivity)
  have n0 := hn 0
  have n1 := hn 1
  have n2 := hn 2
  have r2 := ((q 0).add (q 1)).round (by rw [abs_of_nonneg (by linarith), e]; linarith) (by norm_num)
  have r3 := (r2.add (q 2)).round (by rw [abs_of_nonneg (by linarith), e]) (by norm_num)
  rw [← e] at r3
  exact r3.mono (axisLen_nonneg B m) (by norm_num)

/-- A computed vertex. -/
theorem axis_vertex (o : ℝ) (ho : NearR (axisLen B m) 7 o
      (-(m 0 : ℝ) * B 0 + -(m 1 : ℝ) * B 1 + -(m 2 : ℝ) * B 2))
    (b : Fin 3 → ℝ) (hb : ∀ i, NearR (axisLen B m) 1 (b i) (B i * (2 * (m i : ℝ) + 1)))
    (t : Fin 3 → ℤ) (ht : ∀ i, 0 ≤ t i ∧ t i ≤ 1) :
    NearR (axisLen B m) 22
      (flR (o + flR (flR (flR (t 0 * b 0) + flR (t 1 * b 1)) + flR (t 2 * b 2))))
      ((-(m 0 : ℝ) * B 0 + -(m 1 : ℝ) * B 1 + -(m 2 : ℝ) * B 2) +
        (t 0 * (B 0 * (2 * (m 0 : ℝ) + 1)) + t 1 * (B 1 * (2 * (m 1 : ℝ) + 1)) +
          t 2 * (B 2 * (2 * (m 2 : ℝ) + 1)))) := by
  have e : axisLen B m = |B 0| * (2 * (m 0 : ℝ) + 1) + |B 1| * (2 * (m 1 : ℝ) + 1) +
      |B 2| * (2 * (m 2 : ℝ) + 1) := Fin.sum_univ_three _
  have hS := axisLen_nonneg B m
  have hn : ∀ i, 0 ≤ |B i| * (m i : ℝ) := fun i => mul_nonneg (abs_nonneg _) (Nat.cast_nonneg _)
  have n0 := hn 0
  have n1 := hn 1
  have n2 := hn 2
  have a0 := abs_nonneg (B 0)
  have a1 := abs_nonneg (B 1)
  have a2 := abs_nonneg (B 2)
  have hz : ∀ i, |(t i : ℝ) * (B i * (2 * (m i : ℝ) + 1))| ≤ |B i| * (2 * (m i : ℝ) + 1) ∧
      |-(m i : ℝ) * B i + (t i : ℝ) * (B i * (2 * (m i : ℝ) + 1))| ≤ |B i| * (2 * (m i : ℝ) + 1) := by
    intro i
    obtain ⟨h1, h2⟩ := ht i
    have hm : (0 : ℝ) ≤ m i := Nat.cast_nonneg _
    have hti : t i = 0 ∨ t i = 1 := by omega
    rcases hti with h | h <;> rw [h]
    · refine ⟨by simp; positivity, ?_⟩
      have e2 : -(m i : ℝ) * B i + ((0 : ℤ) : ℝ) * (B i * (2 * (m i : ℝ) + 1)) = B i * -(m i : ℝ) := by
        push_cast; ring
      rw [e2]
      apply abs_mul_le
      rw [abs_neg, abs_of_nonneg hm]; linarith
    · constructor
      · have e2 : ((1 : ℤ) : ℝ) * (B i * (2 * (m i : ℝ) + 1)) = B i * (2 * (m i : ℝ) + 1) := by
          push_cast; ring
        rw [e2]
        apply abs_mul_le
        rw [abs_of_nonneg (by positivity)]
      · have e2 : -(m i : ℝ) * B i + ((1 : ℤ) : ℝ) * (B i * (2 * (m i : ℝ) + 1)) = B i * ((m i : ℝ) + 1) := by
          push_cast; ring
        rw [e2]
        apply abs_mul_le
        rw [abs_of_nonneg (by positivity)]; linarith
  have hq : ∀ i, NearR (axisLen B m) 3 (flR (t i * b i)) (t i * (B i * (2 * (m i : ℝ) + 1))) := by
    intro i
    have h1 : NearR (axisLen B m) 1 ((t i : ℝ) * b i) (t i * (B i * (2 * (m i : ℝ) + 1))) := by
      obtain ⟨h1, h2⟩ := ht i
      have hti : t i = 0 ∨ t i = 1 := by omega
      rcases hti with h | h <;> rw [h]
      · push_cast
        rw [zero_mul, zero_mul]
        exact nearR_self.mono hS (by norm_num)
      · push_cast
        rw [one_mul, one_mul]
        exact hb i
    exact (h1.round ((hz i).1.trans (axisTerm_le B m i)) (by norm_num)).mono hS (by norm_num)
  have z0 := hz 0
  have z1 := hz 1
  have z2 := hz 2
  have s1 := abs_add_le ((t 0 : ℝ) * (B 0 * (2 * (m 0 : ℝ) + 1))) ((t 1 : ℝ) * (B 1 * (2 * (m 1 : ℝ) + 1)))
  have s2 := abs_add_le ((t 0 : ℝ) * (B 0 * (2 * (m 0 : ℝ) + 1)) + (t 1 : ℝ) * (B 1 * (2 * (m 1 : ℝ) + 1)))
    ((t 2 : ℝ) * (B 2 * (2 * (m 2 : ℝ) + 1)))
  have r2 := ((hq 0).add (hq 1)).round (by rw [e]; linarith) (by norm_num)
  have r3 := (r2.add (hq 2)).round (by rw [e]; linarith) (by norm_num)
  have hsum : |(-(m 0 : ℝ) * B 0 + -(m 1 : ℝ) * B 1 + -(m 2 : ℝ) * B 2) +
        (t 0 * (B 0 * (2 * (m 0 : ℝ) + 1)) + t 1 * (B 1 * (2 * (m 1 : ℝ) + 1)) +
          t 2 * (B 2 * (2 * (m 2 : ℝ) + 1)))| ≤ axisLen B m := by
    have e3 : (-(m 0 : ℝ) * B 0 + -(m 1 : ℝ) * B 1 + -(m 2 : ℝ) * B 2) +
        (t 0 * (B 0 * (2 * (m 0 : ℝ) + 1)) + t 1 * (B 1 * (2 * (m 1 : ℝ) + 1)) +
          t 2 * (B 2 * (2 * (m 2 : ℝ) + 1)))
        = (-(m 0 : ℝ) * B 0 + (t 0 : ℝ) * (B 0 * (2 * (m 0 : ℝ) + 1))) +
          (-(m 1 : ℝ) * B 1 + (t 1 : ℝ) * (B 1 * (2 * (m 1 : ℝ) + 1))) +
          (-(m 2 : ℝ) * B 2 + (t 2 : ℝ) * (B 2 * (2 * (m 2 : ℝ) + 1))) := by ring
    rw [e3, e]
    refine (abs_add_le _ _).trans ?_
    have := abs_add_le (-(m 0 : ℝ) * B 0 + (t 0 : ℝ) * (B 0 * (2 * (m 0 : ℝ) + 1)))
      (-(m 1 : ℝ) * B 1 + (t 1 : ℝ) * (B 1 * (2 * (m 1 : ℝ) + 1)))
    linarith [z0.2, z1.2, z2.2]
  have r4 := (ho.add r3).round hsum (by norm_num)
  exact r4.mono hS (by norm_num)

end Axis

/-! ## The rounded supercell -/

/-- Components of the lattice vectors along one axis. -/
def axisOf (L : Fin 3 → Vec ℝ) (p : Fin 3) : Fin 3 → ℝ := fun i => L i p

/-- Exact lower limit of the supercell along an axis. -/
noncomputable def axisMin (B : Fin 3 → ℝ) (m : Fin 3 → ℕ) : ℝ :=
  (-(m 0 : ℝ) * B 0 + -(m 1 : ℝ) * B 1 + -(m 2 : ℝ) * B 2) +
    (min 0 (B 0) * (2 * (m 0 : ℝ) + 1) + min 0 (B 1) * (2 * (m 1 : ℝ) + 1) +
      min 0 (B 2) * (2 * (m 2 : ℝ) + 1))

theorem vertexesD_ne_nil (R : ℝ → ℝ) (s : CStruct) : s.vertexesD R ≠ [] := by
  intro h
  have := congrArg List.length h
  simp [CStruct.vertexesD, cRange3_length] at this

theorem minLimitD_spec (R : ℝ → ℝ) (s : CStruct) (p : Fin 3) :
    (∀ w ∈ s.vertexesD R, s.minLimitD R p ≤ w p) ∧ ∃ w ∈ s.vertexesD R, s.minLimitD R p = w p := by
  unfold CStruct.minLimitD
  cases h : s.vertexesD R with
  | nil => exact absurd h (vertexesD_ne_nil R s)
  | cons v vs =>
    obtain ⟨h1, h2, h3⟩ := foldl_minLt_spec (fun w : Vec ℝ => w p) vs (v p)
    refine ⟨?_, ?_⟩
    · intro w hw
      rcases List.mem_cons.1 hw with rfl | hw
      · exact h1
      · exact h2 w hw
    · rcases h3 with h3 | ⟨w, hw, h3⟩
      · exact ⟨v, by simp, h3⟩
      · exact ⟨w, by simp [hw], h3⟩

theorem superOriginD (s : CStruct) (m : Fin 3 → ℕ) (p : Fin 3) :
    (s.makeSupercellD flR (oddOf m)).origin p =
      flR (flR (flR (((-(m 0 : ℤ) : ℤ) : ℝ) * s.basis 0 p) + flR (((-(m 1 : ℤ) : ℤ) : ℝ) * s.basis 1 p)) +
        flR (((-(m 2 : ℤ) : ℤ) : ℝ) * s.basis 2 p)) := by
  simp only [CStruct.makeSupercellD, oddOf, superLo_odd]

theorem near_vertexD (s : CStruct) (m : Fin 3 → ℕ) (p : Fin 3) (t : Fin 3 → ℤ)
    (ht : ∀ i, 0 ≤ t i ∧ t i ≤ 1) :
    NearR (axisLen (axisOf s.basis p) m) 22
      (flR ((s.makeSupercellD flR (oddOf m)).origin p +
        flR (flR (flR (t 0 * (s.makeSupercellD flR (oddOf m)).basis 0 p) +
          flR (t 1 * (s.makeSupercellD flR (oddOf m)).basis 1 p)) +
          flR (t 2 * (s.makeSupercellD flR (oddOf m)).basis 2 p))))
      ((-(m 0 : ℝ) * s.basis 0 p + -(m 1 : ℝ) * s.basis 1 p + -(m 2 : ℝ) * s.basis 2 p) +
        (t 0 * (s.basis 0 p * (2 * (m 0 : ℝ) + 1)) + t 1 * (s.basis 1 p * (2 * (m 1 : ℝ) + 1)) +
          t 2 * (s.basis 2 p * (2 * (m 2 : ℝ) + 1)))) := by
  rw [superOriginD]
  exact axis_vertex (axisOf s.basis p) m _ (axis_origin (axisOf s.basis p) m)
    (fun i => (s.makeSupercellD flR (oddOf m)).basis i p) (axis_basis (axisOf s.basis p) m) t ht

theorem near_minLimitD (s : CStruct) (m : Fin 3 → ℕ) (p : Fin 3) :
    NearR (axisLen (axisOf s.basis p) m) 22 ((s.makeSupercellD flR (oddOf m)).minLimitD flR p)
      (axisMin (axisOf s.basis p) m) := by
  obtain ⟨h1, w, hw, h2⟩ := minLimitD_spec flR (s.makeSupercellD flR (oddOf m)) p
  have hpos : ∀ i, (0 : ℝ) < 2 * (m i : ℝ) + 1 := fun i => by positivity
  have key : ∀ x : ℝ, ((if x < 0 then 1 else 0 : ℤ) : ℝ) * x = min 0 x := by
    intro x
    by_cases hx : x < 0
    · simp [hx, le_of_lt hx]
    · simp [hx, not_lt.1 hx]
  unfold NearR
  rw [abs_le]
  constructor
  · rw [h2]
    unfold CStruct.vertexesD at hw
    obtain ⟨t, ht, rfl⟩ := List.mem_map.1 hw
    rw [mem_cRange3] at ht
    have hv := near_vertexD s m p t ht
    unfold NearR at hv
    rw [abs_le] at hv
    have kk : ∀ i, min 0 (s.basis i p) * (2 * (m i : ℝ) + 1) ≤
        (t i : ℝ) * (s.basis i p * (2 * (m i : ℝ) + 1)) := by
      intro i
      obtain ⟨a, b⟩ := ht i
      have hti : t i = 0 ∨ t i = 1 := by omega
      rcases hti with e | e <;> rw [e]
      · push_cast
        rw [zero_mul]
        exact mul_nonpos_of_nonpos_of_nonneg (min_le_left _ _) (hpos i).le
      · push_cast
        rw [one_mul]
        exact mul_le_mul_of_nonneg_right (min_le_right _ _) (hpos i).le
    have k0 := kk 0
    have k1 := kk 1
    have k2 := kk 2
    unfold axisMin axisOf at *
    linarith [hv.1]
  · set t : Fin 3 → ℤ := ![if s.basis 0 p < 0 then 1 else 0, if s.basis 1 p < 0 then 1 else 0,
        if s.basis 2 p < 0 then 1 else 0] with htd
    have ht : ∀ i, 0 ≤ t i ∧ t i ≤ 1 := by
      intro i
      rw [htd]
      fin_cases i <;> simp <;> split_ifs <;> simp
    have hv := near_vertexD s m p t ht
    have hmem : (fun q => flR ((s.makeSupercellD flR (oddOf m)).origin q +
        flR (flR (flR (t 0 * (s.makeSupercellD flR (oddOf m)).basis 0 q) +
          flR (t 1 * (s.makeSupercellD flR (oddOf m)).basis 1 q)) +
          flR (t 2 * (s.makeSupercellD flR (oddOf m)).basis 2 q))))
        ∈ (s.makeSupercellD flR (oddOf m)).vertexesD flR := by
      unfold CStruct.vertexesD
      exact List.mem_map.2 ⟨t, mem_cRange3.2 ht, rfl⟩
    have hle := h1 _ hmem
    unfold NearR at hv
    rw [abs_le] at hv
    have t0 : (t 0 : ℝ) * s.basis 0 p = min 0 (s.basis 0 p) := key _
    have t1 : (t 1 : ℝ) * s.basis 1 p = min 0 (s.basis 1 p) := key _
    have t2 : (t 2 : ℝ) * s.basis 2 p = min 0 (s.basis 2 p) := key _
    have hvv := hv.2
    have e3 : ∀ i, (t i : ℝ) * (s.basis i p * (2 * (m i : ℝ) + 1))
        = (t i : ℝ) * s.basis i p * (2 * (m i : ℝ) + 1) := fun i => by ring
    rw [e3, e3, e3, t0, t1, t2] at hvv
    unfold axisMin axisOf at *
    linarith

/-- Between the exact limits of the supercell. -/
theorem axis_between (B : Fin 3 → ℝ) (m : Fin 3 → ℕ) (x : ℝ) (t : Fin 3 → ℤ) (ht : ∀ i, |t i| ≤ m i) :
    x - (min 0 (B 0) + min 0 (B 1) + min 0 (B 2)) ≤ x + B 0 * t 0 + B 1 * t 1 + B 2 * t 2 - axisMin B m ∧
    x + B 0 * t 0 + B 1 * t 1 + B 2 * t 2 - axisMin B m
      ≤ axisLen B m - ((max 0 (B 0) + max 0 (B 1) + max 0 (B 2)) - x) := by
  have e : axisLen B m = |B 0| * (2 * (m 0 : ℝ) + 1) + |B 1| * (2 * (m 1 : ℝ) + 1) +
      |B 2| * (2 * (m 2 : ℝ) + 1) := Fin.sum_univ_three _
  have key : ∀ i, -(min 0 (B i)) ≤ B i * t i + m i * B i - min 0 (B i) * (2 * (m i : ℝ) + 1) ∧
      B i * t i + m i * B i - min 0 (B i) * (2 * (m i : ℝ) + 1) ≤ |B i| * (2 * (m i : ℝ) + 1) - max 0 (B i) := by
    intro i
    have h := abs_le.1 (abs_cast_le (ht i))
    rcases le_or_gt 0 (B i) with hb | hb
    · rw [min_eq_left hb, max_eq_right hb, abs_of_nonneg hb]
      constructor <;> nlinarith [h.1, h.2]
    · rw [min_eq_right hb.le, max_eq_left hb.le, abs_of_neg hb]
      constructor <;> nlinarith [h.1, h.2]
  have k0 := key 0
  have k1 := key 1
  have k2 := key 2
  rw [e]
  unfold axisMin
  constructor <;> linarith [k0.1, k1.1, k2.1, k0.2, k1.2, k2.2]

/-! ## Bins -/

theorem imagePosD_apply (s : CStruct) (x : Vec ℝ) (t : Fin 3 → ℤ) (p : Fin 3) :
    imagePosD flR s.basis x t p =
      flR (flR (flR (x p + flR (s.basis 0 p * t 0)) + flR (s.basis 1 p * t 1)) + flR (s.basis 2 p * t 2)) := rfl

theorem roomy_abs {L : Fin 3 → Vec ℝ} {δ : ℝ} (hδ : 0 ≤ δ) {x : Vec ℝ} (h : RoomyIn L δ x) (p : Fin 3) :
    |x p| ≤ |L 0 p| + |L 1 p| + |L 2 p| := by
  obtain ⟨h1, h2⟩ := h p
  rw [Fin.sum_univ_three] at h1 h2
  have a : ∀ i, max 0 (L i p) ≤ |L i p| := fun i => max_le (abs_nonneg _) (le_abs_self _)
  have b : ∀ i, -|L i p| ≤ min 0 (L i p) := fun i =>
    le_min (by linarith [abs_nonneg (L i p)]) (neg_abs_le _)
  rw [abs_le]
  constructor
  · rcases h2 with h2 | ⟨_, h2⟩
    · linarith [b 0, b 1, b 2]
    · linarith [abs_nonneg (L 0 p), abs_nonneg (L 1 p), abs_nonneg (L 2 p)]
  · linarith [a 0, a 1, a 2]

theorem near_imagePosD (s : CStruct) (m : Fin 3 → ℕ) (x : Vec ℝ) {δ : ℝ} (hδ : 0 ≤ δ)
    (hx : RoomyIn s.basis δ x) (t : Fin 3 → ℤ) (ht : ∀ i, |t i| ≤ m i) (p : Fin 3) :
    NearR (axisLen (axisOf s.basis p) m) 9 (imagePosD flR s.basis x t p) (imagePos s.basis x t p) := by
  rw [imagePos_apply]
  exact axis_image (axisOf s.basis p) m (x p) (roomy_abs hδ hx p) t ht

/-- The computed distance from the lower limit. -/
theorem near_offsetD (s : CStruct) (m : Fin 3 → ℕ) (x : Vec ℝ) {δ : ℝ} (hδ : 0 ≤ δ)
    (hx : RoomyIn s.basis δ x) (t : Fin 3 → ℤ) (ht : ∀ i, |t i| ≤ m i) (p : Fin 3) :
    NearR (axisLen (axisOf s.basis p) m) 33
      (flR (imagePosD flR s.basis x t p - (s.makeSupercellD flR (oddOf m)).minLimitD flR p))
      (imagePos s.basis x t p - axisMin (axisOf s.basis p) m) ∧
    0 ≤ imagePos s.basis x t p - axisMin (axisOf s.basis p) m ∧
    imagePos s.basis x t p - axisMin (axisOf s.basis p) m ≤ axisLen (axisOf s.basis p) m - δ := by
  obtain ⟨h1, h2⟩ := axis_between (axisOf s.basis p) m (x p) t ht
  have e : imagePos s.basis x t p = x p + axisOf s.basis p 0 * t 0 + axisOf s.basis p 1 * t 1 +
      axisOf s.basis p 2 * t 2 := imagePos_apply _ _ _ _
  obtain ⟨r1, r2⟩ := hx p
  rw [Fin.sum_univ_three] at r1 r2
  have h0 : 0 ≤ imagePos s.basis x t p - axisMin (axisOf s.basis p) m := by
    rw [e]
    refine le_trans ?_ h1
    have a0 := min_le_left (0 : ℝ) (axisOf s.basis p 0)
    have a1 := min_le_left (0 : ℝ) (axisOf s.basis p 1)
    have a2 := min_le_left (0 : ℝ) (axisOf s.basis p 2)
    rcases r2 with r2 | ⟨_, r2⟩
    · unfold axisOf at *; linarith
    · linarith
  have hM : imagePos s.basis x t p - axisMin (axisOf s.basis p) m ≤ axisLen (axisOf s.basis p) m - δ := by
    rw [e]
    refine le_trans h2 ?_
    unfold axisOf at *
    linarith
  refine ⟨?_, h0, hM⟩
  have h := ((near_imagePosD s m x hδ hx t ht p).sub (near_minLimitD s m p)).round
    (by rw [abs_of_nonneg h0]; linarith) (by norm_num)
  exact h.mono (axisLen_nonneg _ _) (by norm_num)

/-- The computed bin quotient. -/
theorem near_quotD (s : CStruct) (m : Fin 3 → ℕ) (x : Vec ℝ) {δ : ℝ} (hδ : 0 ≤ δ)
    (hx : RoomyIn s.basis δ x) (t : Fin 3 → ℤ) (ht : ∀ i, |t i| ≤ m i) (p : Fin 3) {w : ℝ} (hw : 0 < w) :
    |flR (flR (imagePosD flR s.basis x t p - (s.makeSupercellD flR (oddOf m)).minLimitD flR p) / w) -
      (imagePos s.basis x t p - axisMin (axisOf s.basis p) m) / w|
      ≤ 35 * (uR * axisLen (axisOf s.basis p) m) / w := by
  obtain ⟨h1, h2, h3⟩ := near_offsetD s m x hδ hx t ht p
  set M := axisLen (axisOf s.basis p) m with hM
  set d := imagePos s.basis x t p - axisMin (axisOf s.basis p) m
  set y := flR (imagePosD flR s.basis x t p - (s.makeSupercellD flR (oddOf m)).minLimitD flR p)
  have hM0 : 0 ≤ M := axisLen_nonneg _ _
  clear_value M d y
  unfold NearR at h1
  have hu := uR_pos
  have hy : |y| ≤ 2 * M := by
    have : |y| ≤ |y - d| + |d| := by simpa using abs_add_le (y - d) d
    rw [abs_of_nonneg h2] at this
    have h4 : 33 * (uR * M) ≤ M := by rw [uR_eq]; linarith
    linarith
  have e1 := flR_err (y / w)
  have e2 : |y / w| * uR ≤ 2 * (uR * M) / w := by
    rw [abs_div, abs_of_pos hw, div_mul_eq_mul_div]
    apply div_le_div_of_nonneg_right _ hw.le
    nlinarith
  have e3 : |y / w - d / w| ≤ 33 * (uR * M) / w := by
    rw [← sub_div, abs_div, abs_of_pos hw]
    exact div_le_div_of_nonneg_right h1 hw.le
  have e4 := abs_sub_le (flR (y / w)) (y / w) (d / w)
  have e5 : 35 * (uR * M) / w = 2 * (uR * M) / w + 33 * (uR * M) / w := by ring
  rw [e5]
  linarith

/-- Cells with non-negative components along an axis: nothing lies below the computed limit. -/
theorem above_minLimitD (s : CStruct) (m : Fin 3 → ℕ) (x : Vec ℝ) (t : Fin 3 → ℤ) (ht : ∀ i, |t i| ≤ m i)
    (p : Fin 3) (hL : ∀ i, 0 ≤ s.basis i p) (hx : 0 ≤ x p) :
    (s.makeSupercellD flR (oddOf m)).minLimitD flR p ≤ imagePosD flR s.basis x t p := by
  obtain ⟨h1, _⟩ := minLimitD_spec flR (s.makeSupercellD flR (oddOf m)) p
  have hmem : (fun q => flR ((s.makeSupercellD flR (oddOf m)).origin q +
        flR (flR (flR (((0 : ℤ) : ℝ) * (s.makeSupercellD flR (oddOf m)).basis 0 q) +
          flR (((0 : ℤ) : ℝ) * (s.makeSupercellD flR (oddOf m)).basis 1 q)) +
          flR (((0 : ℤ) : ℝ) * (s.makeSupercellD flR (oddOf m)).basis 2 q))))
        ∈ (s.makeSupercellD flR (oddOf m)).vertexesD flR := by
    unfold CStruct.vertexesD
    exact List.mem_map.2 ⟨fun _ => 0, mem_cRange3.2 (fun _ => ⟨le_refl _, by norm_num⟩), rfl⟩
  refine (h1 _ hmem).trans ?_
  simp only [Int.cast_zero, zero_mul, flR_zero, add_zero]
  rw [superOriginD, flR_flR, imagePosD_apply]
  have hb : ∀ i, flR (((-(m i : ℤ) : ℤ) : ℝ) * s.basis i p) ≤ flR (s.basis i p * t i) := by
    intro i
    apply flR_mono
    have := (abs_le.1 (abs_cast_le (ht i))).1
    push_cast
    nlinarith [hL i]
  apply flR_mono
  refine add_le_add ?_ (hb 2)
  apply flR_mono
  refine add_le_add ?_ (hb 1)
  rw [← flR_flR]
  apply flR_mono
  linarith [hb 0]

/-- Atoms away from the upper faces are filed into existing bins. -/
theorem binD_in_range (s : CStruct) (m : Fin 3 → ℕ) (x : Vec ℝ) {δ : ℝ}
    (hx : RoomyIn s.basis δ x) (t : Fin 3 → ℤ) (ht : ∀ i, |t i| ≤ m i) (p : Fin 3) {w : ℝ} (hw : 0 < w)
    (hδ : 64 * (uR * axisLen (axisOf s.basis p) m) ≤ δ) (hM : 0 < axisLen (axisOf s.basis p) m) :
    0 ≤ ⌊flR (flR (imagePosD flR s.basis x t p - (s.makeSupercellD flR (oddOf m)).minLimitD flR p) / w)⌋ ∧
    ⌊flR (flR (imagePosD flR s.basis x t p - (s.makeSupercellD flR (oddOf m)).minLimitD flR p) / w)⌋
      < ⌈flR ((s.makeSupercellD flR (oddOf m)).projectedD flR p / w)⌉ := by
  have hu := uR_pos
  have hδ0 : 0 ≤ δ := le_trans (by positivity) hδ
  obtain ⟨h1, h2, h3⟩ := near_offsetD s m x hδ0 hx t ht p
  have hP : NearR (axisLen (axisOf s.basis p) m) 7 ((s.makeSupercellD flR (oddOf m)).projectedD flR p)
    (axisLen (axisOf s.basis p) m) := axis_projected (axisOf s.basis p) m
  set P := (s.makeSupercellD flR (oddOf m)).projectedD flR p
  set y := flR (imagePosD flR s.basis x t p - (s.makeSupercellD flR (oddOf m)).minLimitD flR p) with hy
  set M := axisLen (axisOf s.basis p) m
  have hlow : 0 ≤ y := by
    obtain ⟨_, r2⟩ := hx p
    rcases r2 with r2 | ⟨ra, rb⟩
    · have hb := (axis_between (axisOf s.basis p) m (x p) t ht).1
      have e : imagePos s.basis x t p = x p + axisOf s.basis p 0 * t 0 + axisOf s.basis p 1 * t 1 +
        axisOf s.basis p 2 * t 2 := imagePos_apply _ _ _ _
      rw [← e] at hb
      rw [Fin.sum_univ_three] at r2
      unfold NearR at h1
      rw [abs_le] at h1
      have hb' : δ ≤ imagePos s.basis x t p - axisMin (axisOf s.basis p) m := by
        refine le_trans ?_ hb
        unfold axisOf
        linarith
      have : 0 ≤ uR * M := by positivity
      linarith [h1.1]
    · rw [hy]
      apply flR_nonneg
      linarith [above_minLimitD s m x t ht p ra rb]
  clear_value P y M
  constructor
  · exact Int.floor_nonneg.2 (flR_nonneg (div_nonneg hlow hw.le))
  · rw [Int.lt_ceil]
    refine lt_of_le_of_lt (Int.floor_le _) ?_
    unfold NearR at h1 hP
    rw [abs_le] at h1 hP
    have e1 := (abs_le.1 (flR_err (y / w))).2
    have e2 := (abs_le.1 (flR_err (P / w))).1
    have hP0 : 0 ≤ P := by
      have : 7 * (uR * M) ≤ M := by rw [uR_eq]; linarith
      linarith [hP.1]
    rw [abs_of_nonneg (div_nonneg hlow hw.le)] at e1
    rw [abs_of_nonneg (div_nonneg hP0 hw.le)] at e2
    have hyM : y ≤ M := by linarith [h1.2, mul_pos hu hM]
    have hPM : P ≤ 2 * M := by
      have : 7 * (uR * M) ≤ M := by rw [uR_eq]; linarith
      linarith [hP.2]
    have hgap : y * (1 + uR) < P * (1 - uR) := by
      have a1 : y * uR ≤ M * uR := mul_le_mul_of_nonneg_right hyM hu.le
      have a2 : P * uR ≤ 2 * M * uR := mul_le_mul_of_nonneg_right hPM hu.le
      have := mul_pos hu hM
      nlinarith [h1.2, hP.1]
    have hgap' : y / w * (1 + uR) < P / w * (1 - uR) := by
      rw [div_mul_eq_mul_div, div_mul_eq_mul_div]
      exact div_lt_div_of_pos_right hgap hw
    linarith

end MaterSDK
