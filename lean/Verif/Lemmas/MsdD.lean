import Verif.Model.MsdD
import Verif.Lemmas.NormStatsD
import Verif.Lemmas.AveragesMsd

/-! # Errors of mean-square displacements -/

namespace MaterSDK

theorem sumSq_flR (l : List ℝ) :
    |((l.map flR).map (fun x => x * x)).sum - (l.map (fun x => x * x)).sum| ≤ 3 * uR * (l.map (fun x => x * x)).sum := by
  have hu := uR_pos
  have hu1 : uR ≤ 1 / 1000 := by rw [uR_eq]; norm_num
  induction l with
  | nil => simp
  | cons y l ih =>
    simp only [List.map_cons, List.sum_cons] at ih ⊢
    obtain ⟨d, hd, e⟩ := flR_rel y
    have h1 : |flR y * flR y - y * y| ≤ 3 * uR * (y * y) := by
      have e' : flR y * flR y - y * y = y * y * (2 * d + d * d) := by rw [e]; ring
      rw [e', abs_mul, abs_of_nonneg (mul_self_nonneg y)]
      have h2 : |2 * d + d * d| ≤ 3 * uR := by
        refine (abs_add_le _ _).trans ?_
        rw [abs_mul, abs_mul, abs_of_pos (by norm_num : (0 : ℝ) < 2)]
        have := mul_le_mul hd (hd.trans hu1) (abs_nonneg _) hu.le
        linarith
      have := mul_le_mul_of_nonneg_left h2 (mul_self_nonneg y)
      linarith
    have e2 : flR y * flR y + ((l.map flR).map (fun x => x * x)).sum - (y * y + (l.map (fun x => x * x)).sum) =
        (flR y * flR y - y * y) + (((l.map flR).map (fun x => x * x)).sum - (l.map (fun x => x * x)).sum) := by ring
    rw [e2]
    refine (abs_add_le _ _).trans ?_
    linarith

/-- The entries of a list of vectors. -/
def entries (rel : List (Vec ℝ)) : List ℝ := rel.flatMap (fun v => [v 0, v 1, v 2])

theorem entries_length (rel : List (Vec ℝ)) : (entries rel).length = 3 * rel.length := by
  induction rel with
  | nil => rfl
  | cons a l ih =>
    have : entries (a :: l) = [a 0, a 1, a 2] ++ entries l := rfl
    rw [this, List.length_append, ih, List.length_cons]
    simp
    omega

theorem entries_sum (rel : List (Vec ℝ)) :
    ((entries rel).map (fun x => x * x)).sum = (rel.map (fun v => v 0 ^ 2 + v 1 ^ 2 + v 2 ^ 2)).sum := by
  induction rel with
  | nil => rfl
  | cons a l ih =>
    have : entries (a :: l) = [a 0, a 1, a 2] ++ entries l := rfl
    rw [this, List.map_append, List.sum_append, ih]
    simp
    ring

theorem entries_round (rel : List (Vec ℝ)) :
    (rel.map (fun (v : Vec ℝ) (j : Fin 3) => flR (v j))).flatMap
      (fun v => [flR (v 0 * v 0), flR (v 1 * v 1), flR (v 2 * v 2)]) =
      ((entries rel).map flR).map (fun x => flR (x * x)) := by
  induction rel with
  | nil => rfl
  | cons a l ih =>
    have : entries (a :: l) = [a 0, a 1, a 2] ++ entries l := rfl
    rw [this, List.map_cons, List.flatMap_cons, ih, List.map_append, List.map_append]
    rfl

theorem meanSquareD_err (A : NpSum flR) (rel : List (Vec ℝ)) (hne : rel ≠ []) (hlen : rel.length ≤ 2 ^ 45) :
    ∃ y x, meanSquareD flR A (rel.map (fun (v : Vec ℝ) (j : Fin 3) => flR (v j))) = some y ∧
      meanSquare rel = some x ∧ |y - x| ≤ 17 * (rel.length * uR) * x := by
  have hn0 : rel.length ≠ 0 := fun h => hne (List.length_eq_zero_iff.1 h)
  have hs := small_u hlen
  have hun := u_le_mul hn0
  have hu := uR_pos
  have hu1 : uR ≤ 1 / 1000 := by rw [uR_eq]; norm_num
  refine ⟨_, _, by rw [meanSquareD, if_neg (by simpa using hne)], by rw [meanSquare, if_neg hne], ?_⟩
  rw [entries_round, ← entries_sum, List.length_map]
  have e3 : ((3 * rel.length : ℕ) : ℝ) * uR = 3 * (rel.length * uR) := by push_cast; ring
  obtain ⟨g, -⟩ := list_sums A ((entries rel).map flR) (m := 3 * rel.length)
    (by rw [List.length_map, entries_length]) (by omega) (by rw [e3]; linarith)
  rw [e3] at g
  have p := sumSq_flR (entries rel)
  have Q0 := sumSq_nonneg (entries rel)
  set Q := ((entries rel).map (fun x => x * x)).sum
  set P := (((entries rel).map flR).map (fun x => x * x)).sum
  set s := A.run (((entries rel).map flR).map (fun x => flR (x * x)))
  have hn1 : (0 : ℝ) < rel.length := by exact_mod_cast Nat.pos_of_ne_zero hn0
  set n : ℝ := (rel.length : ℝ)
  set t := n * uR with ht
  have t0 : 0 < t := mul_pos hn1 hu
  have hQu : uR * Q ≤ 1 / 1000 * Q := mul_le_mul_of_nonneg_right hu1 Q0
  have hP : P ≤ 1003 / 1000 * Q := by linarith [(abs_le.1 p).2]
  have h1 : |s - Q| ≤ 151 / 10 * t * Q := by
    have e : s - Q = (s - P) + (P - Q) := by ring
    rw [e]
    refine (abs_add_le _ _).trans ?_
    have a1 : 4 * (3 * t) * P ≤ 4 * (3 * t) * (1003 / 1000 * Q) := mul_le_mul_of_nonneg_left hP (by positivity)
    have a2 : uR * Q ≤ t * Q := mul_le_mul_of_nonneg_right hun Q0
    have a3 : 0 ≤ t * Q := by positivity
    linarith
  have hsQ : |s| ≤ 11 / 10 * Q := by
    have e : s = (s - Q) + Q := by ring
    rw [e]
    refine (abs_add_le _ _).trans ?_
    rw [abs_of_nonneg Q0]
    have := mul_le_mul_of_nonneg_right hs Q0
    linarith
  have r := flR_err (s / n)
  have e : flR (s / n) - Q / n = (flR (s / n) - s / n) + (s - Q) / n := by ring
  rw [e]
  refine (abs_add_le _ _).trans ?_
  rw [abs_div (s - Q), abs_of_pos hn1]
  rw [abs_div s, abs_of_pos hn1] at r
  have b1 : |s| / n * uR ≤ 11 / 10 * (t * (Q / n)) := by
    have c1 : |s| / n ≤ 11 / 10 * (Q / n) := by
      rw [← mul_div_assoc]
      exact div_le_div_of_nonneg_right hsQ hn1.le
    have c2 := mul_le_mul c1 hun hu.le (by positivity)
    linarith
  have b2 : |s - Q| / n ≤ 151 / 10 * (t * (Q / n)) := by
    have := div_le_div_of_nonneg_right h1 hn1.le
    have e' : 151 / 10 * t * Q / n = 151 / 10 * (t * (Q / n)) := by ring
    linarith
  have b3 : 0 ≤ t * (Q / n) := by positivity
  linarith

theorem zip_dist_zero : ∀ (a b : List (Site ℝ)), a.length = b.length →
    0 ≤ (List.zipWith (fun t u : Site ℝ => dist3 u.pos t.pos ^ 2) a b).sum ∧
    ((List.zipWith (fun t u : Site ℝ => dist3 u.pos t.pos ^ 2) a b).sum = 0 ↔ a.map Site.pos = b.map Site.pos)
  | [], [], _ => by simp
  | [], _ :: _, h => by simp at h
  | _ :: _, [], h => by simp at h
  | t :: a, u :: b, h => by
    obtain ⟨i0, i1⟩ := zip_dist_zero a b (by simpa using h)
    have hp : 0 ≤ dist3 u.pos t.pos ^ 2 := sq_nonneg _
    simp only [List.zipWith_cons_cons, List.sum_cons, List.map_cons, List.cons.injEq]
    refine ⟨by linarith, ?_⟩
    rw [add_eq_zero_iff_of_nonneg hp i0, i1]
    refine and_congr_left' ?_
    rw [dist3_sq]
    constructor
    · intro e
      have e0 := sq_nonneg ((u.pos - t.pos) 0)
      have e1 := sq_nonneg ((u.pos - t.pos) 1)
      have e2 := sq_nonneg ((u.pos - t.pos) 2)
      funext j
      have : (u.pos - t.pos) j = 0 := by
        refine pow_eq_zero_iff (two_ne_zero) |>.1 ?_
        fin_cases j
        · change (u.pos - t.pos) 0 ^ 2 = 0
          linarith
        · change (u.pos - t.pos) 1 ^ 2 = 0
          linarith
        · change (u.pos - t.pos) 2 ^ 2 = 0
          linarith
      simp only [Pi.sub_apply] at this
      linarith
    · intro e
      rw [e]
      simp

theorem mapM_error_congr {α β γ : Type} {f : α → Except PyErr β} {g : α → Except PyErr γ}
    (h : ∀ x e, f x = .error e ↔ g x = .error e) (e : PyErr) : ∀ l : List α,
    (l.mapM f = .error e ↔ l.mapM g = .error e)
  | [] => by simp [pure, Except.pure]
  | a :: l => by
    have ih := mapM_error_congr h e l
    rw [List.mapM_cons, List.mapM_cons]
    cases hf : f a with
    | error e' =>
      rw [(h a e').1 hf]
      exact ⟨fun x => by cases x; rfl, fun x => by cases x; rfl⟩
    | ok b =>
      cases hg : g a with
      | error e' => rw [(h a e').2 hg] at hf; cases hf
      | ok c =>
        simp only [ok_bind]
        cases hl : l.mapM f with
        | error e' =>
          rw [hl] at ih
          cases hm : l.mapM g with
          | error e'' =>
            rw [hm] at ih
            constructor
            · intro x
              cases x
              rw [(ih.1 rfl)]
              rfl
            · intro x
              cases x
              rw [(ih.2 rfl)]
              rfl
          | ok d =>
            rw [hm] at ih
            constructor
            · intro x
              cases x
              cases ih.1 rfl
            · intro x; cases x
        | ok d =>
          cases hm : l.mapM g with
          | error e'' =>
            rw [hl, hm] at ih
            constructor
            · intro x; cases x
            · intro x
              cases x
              cases ih.2 rfl
          | ok d' =>
            constructor
            · intro x; cases x
            · intro x; cases x

theorem calcMsdSD_error (R : ℝ → ℝ) (A : NpSum R) (s1 s2 : Struct ℝ) (e : PyErr) :
    calcMsdSD R A s1 s2 = .error e ↔ calcMsdS s1 s2 = .error e := by
  unfold calcMsdSD calcMsdS
  split
  · rfl
  · cases npSubRows (s2.sites.map Site.pos) (s1.sites.map Site.pos) with
    | error e' => exact Iff.rfl
    | ok rel =>
      constructor
      · intro x; cases x
      · intro x; cases x

end MaterSDK
