import Verif.Model.MtpMoment
import Verif.Lemmas.MtpRadial
import Verif.Lemmas.MtpLevel
import Verif.Lemmas.Except
import Mathlib.LinearAlgebra.Matrix.ToLin
import Mathlib.Data.Matrix.Mul
import Mathlib.Tactic.LinearCombination

/-! # Helper lemmas: moments and contractions -/

namespace MaterSDK

/-! ### Sums over index lists -/

theorem sumIdx_congr {n : ℕ} {f g : List (Fin 3) → ℝ} (h : ∀ K : List (Fin 3), K.length = n → f K = g K) :
    sumIdx n f = sumIdx n g := by
  induction n generalizing f g with
  | zero => exact h [] rfl
  | succ n ih =>
    unfold sumIdx
    rw [ih (fun K hK => h (0 :: K) (by simp [hK])), ih (fun K hK => h (1 :: K) (by simp [hK])),
      ih (fun K hK => h (2 :: K) (by simp [hK]))]

theorem sumIdx_add (n : ℕ) (f g : List (Fin 3) → ℝ) :
    sumIdx n (fun K => f K + g K) = sumIdx n f + sumIdx n g := by
  induction n generalizing f g with
  | zero => rfl
  | succ n ih =>
    simp only [sumIdx, ih]
    ring

theorem sumIdx_mul (n : ℕ) (c : ℝ) (f : List (Fin 3) → ℝ) :
    sumIdx n (fun K => c * f K) = c * sumIdx n f := by
  induction n generalizing f with
  | zero => rfl
  | succ n ih =>
    simp only [sumIdx, ih]
    ring

/-! ### Rotated tensors -/

/-- The components of a tensor after the change of basis `R`. -/
def rotT (R : Matrix (Fin 3) (Fin 3) ℝ) : (List (Fin 3) → ℝ) → List (Fin 3) → ℝ
  | f, [] => f []
  | f, a :: idx => R a 0 * rotT R (fun K => f (0 :: K)) idx + R a 1 * rotT R (fun K => f (1 :: K)) idx
      + R a 2 * rotT R (fun K => f (2 :: K)) idx

theorem rotT_congr (R : Matrix (Fin 3) (Fin 3) ℝ) {f g : List (Fin 3) → ℝ} {idx : List (Fin 3)}
    (h : ∀ K : List (Fin 3), K.length = idx.length → f K = g K) : rotT R f idx = rotT R g idx := by
  induction idx generalizing f g with
  | nil => exact h [] rfl
  | cons a idx ih =>
    unfold rotT
    rw [ih (fun K hK => h (0 :: K) (by simp [hK])), ih (fun K hK => h (1 :: K) (by simp [hK])),
      ih (fun K hK => h (2 :: K) (by simp [hK]))]

theorem rotT_add (R : Matrix (Fin 3) (Fin 3) ℝ) (f g : List (Fin 3) → ℝ) (idx : List (Fin 3)) :
    rotT R (fun K => f K + g K) idx = rotT R f idx + rotT R g idx := by
  induction idx generalizing f g with
  | nil => rfl
  | cons a idx ih =>
    simp only [rotT, ih]
    ring

theorem rotT_mul (R : Matrix (Fin 3) (Fin 3) ℝ) (c : ℝ) (f : List (Fin 3) → ℝ) (idx : List (Fin 3)) :
    rotT R (fun K => c * f K) idx = c * rotT R f idx := by
  induction idx generalizing f with
  | nil => rfl
  | cons a idx ih =>
    simp only [rotT, ih]
    ring

theorem rotT_zero (R : Matrix (Fin 3) (Fin 3) ℝ) (idx : List (Fin 3)) : rotT R (fun _ => 0) idx = 0 := by
  have := rotT_mul R 0 (fun _ => 0) idx
  simpa using this

theorem rotT_append (R : Matrix (Fin 3) (Fin 3) ℝ) (f : List (Fin 3) → ℝ) (idx jdx : List (Fin 3)) :
    rotT R f (idx ++ jdx) = rotT R (fun I => rotT R (fun J => f (I ++ J)) jdx) idx := by
  induction idx generalizing f with
  | nil => rfl
  | cons a idx ih =>
    simp only [List.cons_append, rotT, ih]

theorem rotT_sumIdx (R : Matrix (Fin 3) (Fin 3) ℝ) (n : ℕ) (f : List (Fin 3) → List (Fin 3) → ℝ)
    (idx : List (Fin 3)) :
    sumIdx n (fun K => rotT R (fun I => f I K) idx) = rotT R (fun I => sumIdx n (fun K => f I K)) idx := by
  induction n generalizing f with
  | zero => rfl
  | succ n ih =>
    simp only [sumIdx, ih, ← rotT_add]

theorem rotT_contract {R : Matrix (Fin 3) (Fin 3) ℝ} (hR : R.transpose * R = 1) (n : ℕ)
    (f g : List (Fin 3) → ℝ) :
    sumIdx n (fun K => rotT R f K * rotT R g K) = sumIdx n (fun K => f K * g K) := by
  have ho : ∀ b c : Fin 3, R 0 b * R 0 c + R 1 b * R 1 c + R 2 b * R 2 c = if b = c then 1 else 0 := by
    intro b c
    have := congrFun (congrFun hR b) c
    rw [Matrix.mul_apply, Fin.sum_univ_three] at this
    simpa [Matrix.one_apply] using this
  induction n generalizing f g with
  | zero => rfl
  | succ n ih =>
    have key : ∀ a : Fin 3, sumIdx n (fun K => rotT R f (a :: K) * rotT R g (a :: K))
        = R a 0 * R a 0 * sumIdx n (fun K => f (0 :: K) * g (0 :: K))
        + R a 0 * R a 1 * sumIdx n (fun K => f (0 :: K) * g (1 :: K))
        + R a 0 * R a 2 * sumIdx n (fun K => f (0 :: K) * g (2 :: K))
        + R a 1 * R a 0 * sumIdx n (fun K => f (1 :: K) * g (0 :: K))
        + R a 1 * R a 1 * sumIdx n (fun K => f (1 :: K) * g (1 :: K))
        + R a 1 * R a 2 * sumIdx n (fun K => f (1 :: K) * g (2 :: K))
        + R a 2 * R a 0 * sumIdx n (fun K => f (2 :: K) * g (0 :: K))
        + R a 2 * R a 1 * sumIdx n (fun K => f (2 :: K) * g (1 :: K))
        + R a 2 * R a 2 * sumIdx n (fun K => f (2 :: K) * g (2 :: K)) := by
      intro a
      simp only [← ih (fun K => f (_ :: K)) (fun K => g (_ :: K)), ← sumIdx_mul, ← sumIdx_add]
      refine sumIdx_congr ?_
      intro K _
      simp only [rotT]
      ring
    simp only [sumIdx]
    rw [key 0, key 1, key 2]
    have h00 := ho 0 0
    have h01 := ho 0 1
    have h02 := ho 0 2
    have h10 := ho 1 0
    have h11 := ho 1 1
    have h12 := ho 1 2
    have h20 := ho 2 0
    have h21 := ho 2 1
    have h22 := ho 2 2
    simp only [if_true, Fin.reduceEq, if_false] at h00 h01 h02 h10 h11 h12 h20 h21 h22
    linear_combination (sumIdx n (fun K => f (0 :: K) * g (0 :: K))) * h00
      + (sumIdx n (fun K => f (0 :: K) * g (1 :: K))) * h01
      + (sumIdx n (fun K => f (0 :: K) * g (2 :: K))) * h02
      + (sumIdx n (fun K => f (1 :: K) * g (0 :: K))) * h10
      + (sumIdx n (fun K => f (1 :: K) * g (1 :: K))) * h11
      + (sumIdx n (fun K => f (1 :: K) * g (2 :: K))) * h12
      + (sumIdx n (fun K => f (2 :: K) * g (0 :: K))) * h20
      + (sumIdx n (fun K => f (2 :: K) * g (1 :: K))) * h21
      + (sumIdx n (fun K => f (2 :: K) * g (2 :: K))) * h22

/-! ### Angular part -/

theorem angularPow_eq (r : Vec ℝ) (n : ℕ) (idx : List (Fin 3)) (h : idx.length = n) :
    angularPow r n idx = (idx.map r).prod := by
  induction n using Nat.strong_induction_on generalizing idx with
  | _ n ih =>
    match n, ih with
    | 0, _ =>
      rw [List.length_eq_zero_iff.1 h]
      rfl
    | 1, _ =>
      obtain ⟨a, rfl⟩ := List.length_eq_one_iff.1 h
      simp [angularPow]
    | n + 2, ih =>
      have hlt : n + 1 < idx.length := by omega
      rw [angularPow]
      beta_reduce
      rw [ih (n + 1) (by omega) (idx.take (n + 1)) (by rw [List.length_take]; omega)]
      have e : idx = idx.take (n + 1) ++ [idx[n + 1]] := by
        conv_lhs => rw [← List.take_append_drop (n + 1) idx]
        rw [List.drop_eq_getElem_cons hlt, List.drop_eq_nil_of_le (by omega)]
      have e2 : idx.getD (n + 1) 0 = idx[n + 1] := by simp [List.getD, hlt]
      rw [e2]
      conv_rhs => rw [e]
      rw [List.map_append, List.prod_append]
      simp

theorem prod_rot (R : Matrix (Fin 3) (Fin 3) ℝ) (r : Vec ℝ) (idx : List (Fin 3)) :
    (idx.map (R.mulVec r)).prod = rotT R (fun K => (K.map r).prod) idx := by
  induction idx with
  | nil => rfl
  | cons a idx ih =>
    rw [List.map_cons, List.prod_cons, ih]
    simp only [rotT, List.map_cons, List.prod_cons, rotT_mul]
    have : R.mulVec r a = R a 0 * r 0 + R a 1 * r 1 + R a 2 * r 2 := by
      simp [Matrix.mulVec, dotProduct, Fin.sum_univ_three]
    rw [this]
    ring

theorem norm3_rot {R : Matrix (Fin 3) (Fin 3) ℝ} (hR : R.transpose * R = 1) (r : Vec ℝ) :
    mtpDist (R.mulVec r) = mtpDist r := by
  have ho : ∀ b c : Fin 3, R 0 b * R 0 c + R 1 b * R 1 c + R 2 b * R 2 c = if b = c then 1 else 0 := by
    intro b c
    have := congrFun (congrFun hR b) c
    rw [Matrix.mul_apply, Fin.sum_univ_three] at this
    simpa [Matrix.one_apply] using this
  have hm : ∀ a, R.mulVec r a = R a 0 * r 0 + R a 1 * r 1 + R a 2 * r 2 := by
    intro a
    simp [Matrix.mulVec, dotProduct, Fin.sum_univ_three]
  unfold mtpDist
  rw [hm, hm, hm]
  congr 1
  have h00 := ho 0 0
  have h01 := ho 0 1
  have h02 := ho 0 2
  have h11 := ho 1 1
  have h12 := ho 1 2
  have h22 := ho 2 2
  simp only [if_true, Fin.reduceEq, if_false] at h00 h01 h02 h11 h12 h22
  linear_combination (r 0) ^ 2 * h00 + (r 1) ^ 2 * h11 + (r 2) ^ 2 * h22 + 2 * r 0 * r 1 * h01
    + 2 * r 0 * r 2 * h02 + 2 * r 1 * r 2 * h12

/-- The weighted sum of outer powers, rotated. -/
theorem moment_rot (R : Matrix (Fin 3) (Fin 3) ℝ) (rows : List (ℝ × Vec ℝ)) (idx : List (Fin 3)) :
    (rows.map (fun w => w.1 * (idx.map (R.mulVec w.2)).prod)).sum
      = rotT R (fun K => (rows.map (fun w => w.1 * (K.map w.2).prod)).sum) idx := by
  induction rows with
  | nil => simp [rotT_zero]
  | cons w rows ih =>
    simp only [List.map_cons, List.sum_cons]
    rw [ih, rotT_add, rotT_mul, prod_rot]

/-- `t'` has the components of `t` in the rotated basis. -/
def RotRel (R : Matrix (Fin 3) (Fin 3) ℝ) (t' t : Tens) : Prop :=
  t'.dim = t.dim ∧ ∀ idx : List (Fin 3), idx.length = t.dim → t'.val idx = rotT R t.val idx

/-- Two results: both the same error, or both values in relation. -/
def ExRel {α β : Type} (Q : α → β → Prop) : Except CErr α → Except CErr β → Prop
  | .ok a, .ok b => Q a b
  | .error e, .error e' => e = e'
  | _, _ => False

theorem ExRel.bind {α β γ δ : Type} {Q : α → β → Prop} {Q' : γ → δ → Prop} {x : Except CErr α}
    {y : Except CErr β} {f : α → Except CErr γ} {g : β → Except CErr δ} (h : ExRel Q x y)
    (hf : ∀ a b, Q a b → ExRel Q' (f a) (g b)) : ExRel Q' (x >>= f) (y >>= g) := by
  match x, y, h with
  | .ok a, .ok b, h => exact hf a b h
  | .error e, .error e', h => exact h

theorem ExRel.eq {α : Type} {x y : Except CErr α} (h : ExRel (fun a b => a = b) x y) : x = y := by
  match x, y, h with
  | .ok a, .ok b, h => exact congrArg _ h
  | .error e, .error e', h => exact congrArg _ h

theorem ExRel.of_eq {α : Type} {x y : Except CErr α} (h : x = y) : ExRel (fun a b => a = b) x y := by
  subst h
  match x with
  | .ok a => rfl
  | .error e => rfl

theorem mapM_exRel {α β γ δ : Type} {Q : γ → δ → Prop} {f : α → Except CErr γ} {g : β → Except CErr δ}
    {P : α → β → Prop} {l : List α} {k : List β} (hl : List.Forall₂ P l k)
    (h : ∀ a b, P a b → ExRel Q (f a) (g b)) : ExRel (List.Forall₂ Q) (l.mapM f) (k.mapM g) := by
  induction hl with
  | nil => exact List.Forall₂.nil
  | cons hab _ ih =>
    rw [List.mapM_cons, List.mapM_cons]
    refine (h _ _ hab).bind (fun a b hq => ih.bind (fun as bs hqs => ?_))
    exact List.Forall₂.cons hq hqs

theorem contract_rot {R : Matrix (Fin 3) (Fin 3) ℝ} (hR : R.transpose * R = 1) {p' p m' m : Tens}
    (hp : RotRel R p' p) (hm : RotRel R m' m) : ExRel (RotRel R) (mtpContract p' m') (mtpContract p m) := by
  obtain ⟨hp1, hp2⟩ := hp
  obtain ⟨hm1, hm2⟩ := hm
  unfold mtpContract
  rw [hp1, hm1]
  by_cases h : m.dim ≤ p.dim
  · rw [if_pos h, if_pos h]
    refine ⟨rfl, ?_⟩
    intro idx hidx
    simp only at hidx ⊢
    have e1 : sumIdx m.dim (fun K => p'.val (idx ++ K) * m'.val K)
        = sumIdx m.dim (fun K => rotT R (fun I => rotT R (fun J => p.val (I ++ J)) K * rotT R m.val K) idx) := by
      refine sumIdx_congr ?_
      intro K hK
      rw [hp2 _ (by rw [List.length_append]; omega), hm2 _ hK, rotT_append]
      have : (fun I => rotT R (fun J => p.val (I ++ J)) K * rotT R m.val K)
          = fun I => rotT R m.val K * rotT R (fun J => p.val (I ++ J)) K := by funext I; ring
      rw [this, rotT_mul]
      ring
    rw [e1, rotT_sumIdx R m.dim (fun I K => rotT R (fun J => p.val (I ++ J)) K * rotT R m.val K) idx]
    refine rotT_congr R ?_
    intro I _
    exact rotT_contract hR m.dim (fun J => p.val (I ++ J)) m.val
  · rw [if_neg h, if_neg h]
    by_cases h0 : p.dim = 0
    · rw [if_pos h0, if_pos h0]
      refine ⟨rfl, ?_⟩
      intro idx hidx
      simp only at hidx ⊢
      rw [hp2 [] (by simp [h0]), hm2 idx hidx, rotT_mul]
      rfl
    · rw [if_neg h0, if_neg h0]
      rfl

theorem moment_rotRel {R : Matrix (Fin 3) (Fin 3) ℝ} (hR : R.transpose * R = 1) (P : MtpParams) (mu nu : ℕ)
    (iidx : ℤ) (ifirst types : List ℤ) (rcs : List (Vec ℝ)) :
    ExRel (RotRel R) (mtpMoment P mu nu iidx ifirst types (rcs.map R.mulVec))
      (mtpMoment P mu nu iidx ifirst types rcs) := by
  unfold mtpMoment
  refine (ExRel.of_eq rfl).bind ?_
  rintro zi _ rfl
  rw [List.length_map]
  by_cases h : rcs.length < ifirst.length
  · rw [if_pos h, if_pos h]; rfl
  · rw [if_neg h, if_neg h]
    have hz : List.Forall₂ (fun a b : ℤ × Vec ℝ => a.1 = b.1 ∧ a.2 = R.mulVec b.2)
        (List.zip ifirst (rcs.map R.mulVec)) (List.zip ifirst rcs) := by
      rw [List.zip_map_right]
      rw [List.forall₂_map_left_iff]
      exact List.forall₂_same.2 (fun e _ => ⟨rfl, rfl⟩)
    have hr := mapM_exRel (Q := fun a b : ℝ × Vec ℝ => a.1 = b.1 ∧ a.2 = R.mulVec b.2)
      (f := momentRow P mu types zi) (g := momentRow P mu types zi) hz (by
        rintro ⟨j, v'⟩ ⟨j', v⟩ ⟨h1, h2⟩
        simp only at h1 h2
        subst h1 h2
        unfold momentRow
        refine (ExRel.of_eq rfl).bind ?_
        rintro zj _ rfl
        refine (ExRel.of_eq rfl).bind ?_
        rintro cf _ rfl
        refine ⟨?_, rfl⟩
        simp only [norm3_rot hR])
    refine hr.bind ?_
    intro rows' rows hrows
    refine ⟨rfl, ?_⟩
    intro idx hidx
    simp only at hidx ⊢
    have e1 : (rows'.map (fun w => w.1 * angularPow w.2 nu idx))
        = rows.map (fun w => w.1 * (idx.map (R.mulVec w.2)).prod) := by
      induction hrows with
      | nil => rfl
      | cons hab _ ih =>
        rw [List.map_cons, List.map_cons, ih, angularPow_eq _ _ _ hidx, hab.1, hab.2]
    rw [e1, moment_rot]
    refine rotT_congr R ?_
    intro K hK
    refine congrArg List.sum (List.map_congr_left ?_)
    intro w _
    rw [angularPow_eq _ _ _ (hK.trans hidx)]

theorem bLoop_rot {R : Matrix (Fin 3) (Fin 3) ℝ} (hR : R.transpose * R = 1) (P : MtpParams) (iidx : ℤ)
    (ifirst types : List ℤ) (rcs : List (Vec ℝ)) (comb : List (ℕ × ℕ)) (p' p : Tens) (hp : RotRel R p' p) :
    ExRel (RotRel R) (mtpBLoop P iidx ifirst types (rcs.map R.mulVec) p' comb)
      (mtpBLoop P iidx ifirst types rcs p comb) := by
  induction comb generalizing p' p with
  | nil => exact hp
  | cons c cs ih =>
    unfold mtpBLoop
    refine (moment_rotRel hR P c.1 c.2 iidx ifirst types rcs).bind ?_
    intro m' m hm
    refine (contract_rot hR hp hm).bind ?_
    intro q' q hq
    exact ih q' q hq

theorem basis_rot {R : Matrix (Fin 3) (Fin 3) ℝ} (hR : R.transpose * R = 1) (P : MtpParams) (iidx : ℤ)
    (ifirst types : List ℤ) (rcs : List (Vec ℝ)) (comb : List (ℕ × ℕ)) :
    mtpBasis P iidx ifirst types (rcs.map R.mulVec) comb = mtpBasis P iidx ifirst types rcs comb := by
  unfold mtpBasis
  refine ExRel.eq ?_
  refine (bLoop_rot hR P iidx ifirst types rcs comb _ { dim := 0, val := fun _ => 1 } ⟨rfl, ?_⟩).bind ?_
  · intro idx hidx
    rw [List.length_eq_zero_iff.1 hidx]
    rfl
  · rintro t' t ⟨h1, h2⟩
    rw [h1]
    by_cases h0 : t.dim = 0
    · rw [if_pos h0, if_pos h0]
      exact h2 [] (by simp [h0])
    · rw [if_neg h0, if_neg h0]
      rfl

end MaterSDK
