import Verif.Model.Perturb
import Verif.Lemmas.Except
import Mathlib.Analysis.InnerProductSpace.GramSchmidtOrtho
import Mathlib.Analysis.InnerProductSpace.PiL2
import Mathlib.Tactic.Ring
import Mathlib.Tactic.Linarith
import Mathlib.Tactic.FinCases
import Mathlib.Tactic.Positivity
import Mathlib.Tactic.NormNum

/-! # Lemmas on perturbations -/

namespace MaterSDK

open Matrix Classical

/-! ## The contract of `np.linalg.qr` can be met -/

/-- The columns of a matrix as vectors of a Euclidean space. -/
noncomputable def colVec (M : Matrix (Fin 3) (Fin 3) ℝ) (j : Fin 3) : EuclideanSpace ℝ (Fin 3) :=
  WithLp.toLp 2 (fun i => M i j)

/-- Orthonormal basis from the columns by Gram-Schmidt. -/
noncomputable def gsBasis (M : Matrix (Fin 3) (Fin 3) ℝ) :
    OrthonormalBasis (Fin 3) ℝ (EuclideanSpace ℝ (Fin 3)) :=
  InnerProductSpace.gramSchmidtOrthonormalBasis (by simp) (colVec M)

/-- A function with the contract of `np.linalg.qr`. -/
noncomputable def gramSchmidtQR : QR where
  q M := Matrix.of (fun i j => gsBasis M j i)
  r M := Matrix.of (fun i j => inner ℝ (gsBasis M i) (colVec M j))
  orthogonal M := by
    ext i j
    have h := (gsBasis M).orthonormal
    rw [orthonormal_iff_ite] at h
    have h' := h i j
    rw [PiLp.inner_apply] at h'
    simp only [Matrix.mul_apply, Matrix.transpose_apply, Matrix.of_apply, Matrix.one_apply]
    rw [← h']
    refine Finset.sum_congr rfl (fun k _ => ?_)
    simp [mul_comm]
  upper M i j h := by
    simp only [Matrix.of_apply]
    exact InnerProductSpace.gramSchmidtOrthonormalBasis_inv_triangular _ _ h
  product M := by
    ext i j
    have h := (gsBasis M).sum_repr' (colVec M j)
    have h' := congrArg (fun v : EuclideanSpace ℝ (Fin 3) => v i) h
    simp only [Matrix.mul_apply, Matrix.of_apply]
    have e : M i j = colVec M j i := rfl
    rw [e, ← h']
    simp only [WithLp.ofLp_sum, Finset.sum_apply, smul_eq_mul, WithLp.ofLp_smul, Pi.smul_apply]
    refine Finset.sum_congr rfl (fun k _ => ?_)
    ring

/-! ## Rotation to lower triangular form -/

theorem flipSign_mul (x : ℝ) : flipSign x * x = |x| := by
  unfold flipSign
  split
  · rename_i h; rw [abs_of_neg h]; ring
  · rename_i h; rw [abs_of_nonneg (not_lt.1 h)]; ring

theorem flipSign_cases (x : ℝ) : flipSign x = 1 ∨ flipSign x = -1 := by
  unfold flipSign
  split
  · exact .inr rfl
  · exact .inl rfl

theorem flipSign_sq (x : ℝ) : flipSign x * flipSign x = 1 := by
  rcases flipSign_cases x with h | h <;> rw [h] <;> norm_num

theorem det_lower (B : Matrix (Fin 3) (Fin 3) ℝ) (h : ∀ i j, i < j → B i j = 0) :
    B.det = B 0 0 * B 1 1 * B 2 2 := by
  rw [det_fin_three, h 0 1 (by decide), h 0 2 (by decide), h 1 2 (by decide)]
  ring

theorem det_flip (d : Fin 3 → ℝ) : (Matrix.diagonal d).det = d 0 * d 1 * d 2 := by
  rw [det_diagonal, Fin.prod_univ_three]

theorem flip_prod (a b c : ℝ) :
    (0 < a * b * c → flipSign a * flipSign b * flipSign c = 1) ∧
    (a * b * c < 0 → flipSign a * flipSign b * flipSign c = -1) := by
  have key : flipSign a * flipSign b * flipSign c * (a * b * c) = |a| * |b| * |c| := by
    rw [← flipSign_mul, ← flipSign_mul, ← flipSign_mul]; ring
  have hnn : 0 ≤ |a| * |b| * |c| := by positivity
  have hc : flipSign a * flipSign b * flipSign c = 1 ∨ flipSign a * flipSign b * flipSign c = -1 := by
    rcases flipSign_cases a with h1 | h1 <;> rcases flipSign_cases b with h2 | h2 <;>
      rcases flipSign_cases c with h3 | h3 <;> rw [h1, h2, h3] <;> norm_num
  constructor
  · intro h
    rcases hc with hc | hc
    · exact hc
    · rw [hc] at key; linarith
  · intro h
    rcases hc with hc | hc
    · rw [hc] at key; linarith
    · exact hc

/-- The sign-corrected orthogonal factor. -/
noncomputable def qFactor (F : QR) (C : Matrix (Fin 3) (Fin 3) ℝ) : Matrix (Fin 3) (Fin 3) ℝ :=
  if (F.q Cᵀ).det < 0 then -F.q Cᵀ else F.q Cᵀ

theorem qFactor_spec (F : QR) (C : Matrix (Fin 3) (Fin 3) ℝ) :
    (qFactor F C)ᵀ * qFactor F C = 1 ∧ (qFactor F C).det = 1 ∧
      ∀ i j, i < j → (C * qFactor F C) i j = 0 := by
  have ho := F.orthogonal Cᵀ
  have hdet : (F.q Cᵀ).det * (F.q Cᵀ).det = 1 := by
    have := congrArg Matrix.det ho
    rwa [det_mul, det_transpose, det_one] at this
  have hlow : ∀ i j, i < j → (C * F.q Cᵀ) i j = 0 := by
    have e : C * F.q Cᵀ = (F.r Cᵀ)ᵀ := by
      have h1 : C = (F.r Cᵀ)ᵀ * (F.q Cᵀ)ᵀ := by
        rw [← transpose_mul, F.product, transpose_transpose]
      calc C * F.q Cᵀ = ((F.r Cᵀ)ᵀ * (F.q Cᵀ)ᵀ) * F.q Cᵀ := by rw [← h1]
        _ = (F.r Cᵀ)ᵀ := by rw [Matrix.mul_assoc, ho, Matrix.mul_one]
    intro i j hij
    rw [e, transpose_apply]
    exact F.upper _ _ _ hij
  unfold qFactor
  split
  · rename_i h
    refine ⟨?_, ?_, ?_⟩
    · rw [transpose_neg, neg_mul_neg, ho]
    · rw [det_neg, Fintype.card_fin]
      have : (F.q Cᵀ).det = -1 := by
        rcases mul_self_eq_one_iff.1 hdet with h' | h'
        · linarith
        · exact h'
      rw [this]
      norm_num
    · intro i j hij
      rw [Matrix.mul_neg, neg_apply, hlow i j hij, neg_zero]
  · rename_i h
    refine ⟨ho, ?_, hlow⟩
    rcases mul_self_eq_one_iff.1 hdet with h' | h'
    · exact h'
    · rw [h'] at h; norm_num at h

theorem rotLower_eq (F : QR) (C : Matrix (Fin 3) (Fin 3) ℝ) (coords : List (Vec ℝ))
    (species : List ℕ) : rotLowerTriangular F C coords species =
      if flipSign ((C * qFactor F C) 0 0) * flipSign ((C * qFactor F C) 1 1)
          * flipSign ((C * qFactor F C) 2 2) ≠ 1 then .error .assertionError
      else .ok ⟨C * (qFactor F C * Matrix.diagonal (fun i => flipSign ((C * qFactor F C) i i))),
        List.zipWith (fun z p => ⟨z, p ᵥ* (qFactor F C * Matrix.diagonal
          (fun i => flipSign ((C * qFactor F C) i i))), none⟩) species coords⟩ := by
  unfold rotLowerTriangular
  simp only [det_flip]
  change (if flipSign ((C * qFactor F C) 0 0) * flipSign ((C * qFactor F C) 1 1)
          * flipSign ((C * qFactor F C) 2 2) ≠ 1 then _ else _) = _
  split
  · rfl
  · congr 2
    · exact Matrix.mul_assoc _ _ _
    · rw [List.zipWith_map_right]
      simp only [vecMul_vecMul]
      rfl

/-- A right-handed cell is rotated to lower triangular form with positive diagonal. -/
theorem rotLower_right (F : QR) (C : Matrix (Fin 3) (Fin 3) ℝ) (hC : 0 < C.det)
    (coords : List (Vec ℝ)) (species : List ℕ) :
    ∃ W : Matrix (Fin 3) (Fin 3) ℝ, W * Wᵀ = 1 ∧ W.det = 1 ∧
      rotLowerTriangular F C coords species
        = .ok ⟨C * W, List.zipWith (fun z p => ⟨z, p ᵥ* W, none⟩) species coords⟩ ∧
      (∀ i j, i < j → (C * W) i j = 0) ∧ ∀ i, 0 < (C * W) i i := by
  obtain ⟨h1, h2, h3⟩ := qFactor_spec F C
  set Q := qFactor F C with hQ
  have hB : (C * Q).det = C.det := by rw [det_mul, h2, mul_one]
  have hp : 0 < (C * Q) 0 0 * (C * Q) 1 1 * (C * Q) 2 2 := by rw [← det_lower _ h3, hB]; exact hC
  have hflip := (flip_prod _ _ _).1 hp
  set d : Fin 3 → ℝ := fun i => flipSign ((C * Q) i i) with hd
  have hdd : Matrix.diagonal d * Matrix.diagonal d = 1 := by
    rw [diagonal_mul_diagonal, ← diagonal_one]
    congr 1
    funext i
    exact flipSign_sq _
  have hCW : ∀ i j, (C * (Q * Matrix.diagonal d)) i j = (C * Q) i j * d j := by
    intro i j
    rw [← Matrix.mul_assoc, mul_diagonal]
  refine ⟨Q * Matrix.diagonal d, ?_, ?_, ?_, ?_, ?_⟩
  · have h1' : Q * Qᵀ = 1 := mul_eq_one_comm.1 h1
    rw [transpose_mul, diagonal_transpose, Matrix.mul_assoc, ← Matrix.mul_assoc (Matrix.diagonal d), hdd,
      Matrix.one_mul, h1']
  · rw [det_mul, h2, det_flip, one_mul]
    exact hflip
  · rw [rotLower_eq, if_neg]
    rw [not_not]
    exact hflip
  · intro i j hij
    rw [hCW, h3 i j hij, zero_mul]
  · intro i
    rw [hCW, mul_comm, hd, flipSign_mul, abs_pos]
    intro h0
    have : (C * Q) 0 0 * (C * Q) 1 1 * (C * Q) 2 2 = 0 := by
      fin_cases i <;> simp at h0 <;> rw [h0] <;> ring
    linarith

/-- A left-handed cell makes the assertion fail. -/
theorem rotLower_left (F : QR) (C : Matrix (Fin 3) (Fin 3) ℝ) (hC : C.det < 0)
    (coords : List (Vec ℝ)) (species : List ℕ) :
    rotLowerTriangular F C coords species = .error .assertionError := by
  obtain ⟨_, h2, h3⟩ := qFactor_spec F C
  have hp : (C * qFactor F C) 0 0 * (C * qFactor F C) 1 1 * (C * qFactor F C) 2 2 < 0 := by
    rw [← det_lower _ h3, det_mul, h2, mul_one]; exact hC
  rw [rotLower_eq, if_pos]
  rw [(flip_prod _ _ _).2 hp]
  norm_num

/-! ## Strain -/

/-- A symmetric matrix with diagonal at least `m` and other entries at most `m/2` in absolute value has a
positive determinant. -/
theorem dominant_det_pos (a b c x y z m : ℝ) (hm : 0 < m) (ha : m ≤ a) (hb : m ≤ b) (hc : m ≤ c)
    (hx : |x| < m / 2) (hy : |y| < m / 2) (hz : |z| < m / 2) :
    0 < a * b * c + 2 * x * y * z - a * x ^ 2 - b * y ^ 2 - c * z ^ 2 := by
  have ha0 : 0 < a := by linarith
  have hb0 : 0 < b := by linarith
  have hc0 : 0 < c := by linarith
  have sq : ∀ w : ℝ, |w| < m / 2 → w ^ 2 < m ^ 2 / 4 := by
    intro w hw
    have := pow_lt_pow_left₀ hw (abs_nonneg w) (n := 2) (by norm_num)
    rw [sq_abs] at this
    linarith [this, show (m / 2) ^ 2 = m ^ 2 / 4 by ring]
  have hbc : m ^ 2 ≤ b * c := by nlinarith
  have hac : m ^ 2 ≤ a * c := by nlinarith
  have hab : m ^ 2 ≤ a * b := by nlinarith
  have e1 : a * x ^ 2 < a * b * c / 4 := by
    have := mul_lt_mul_of_pos_left (lt_of_lt_of_le (sq x hx) (by linarith : m ^ 2 / 4 ≤ b * c / 4)) ha0
    linarith [this, show a * (b * c / 4) = a * b * c / 4 by ring]
  have e2 : b * y ^ 2 < a * b * c / 4 := by
    have := mul_lt_mul_of_pos_left (lt_of_lt_of_le (sq y hy) (by linarith : m ^ 2 / 4 ≤ a * c / 4)) hb0
    linarith [this, show b * (a * c / 4) = a * b * c / 4 by ring]
  have e3 : c * z ^ 2 < a * b * c / 4 := by
    have := mul_lt_mul_of_pos_left (lt_of_lt_of_le (sq z hz) (by linarith : m ^ 2 / 4 ≤ a * b / 4)) hc0
    linarith [this, show c * (a * b / 4) = a * b * c / 4 by ring]
  have e4 : |x * y * z| ≤ m ^ 3 / 8 := by
    rw [abs_mul, abs_mul]
    have h1 : |x| * |y| ≤ m / 2 * (m / 2) := mul_le_mul hx.le hy.le (abs_nonneg y) (by linarith)
    have h2 : |x| * |y| * |z| ≤ m / 2 * (m / 2) * (m / 2) :=
      mul_le_mul h1 hz.le (abs_nonneg z) (by positivity)
    linarith [h2, show m / 2 * (m / 2) * (m / 2) = m ^ 3 / 8 by ring]
  have e5 : m ^ 3 ≤ a * b * c := by
    have := mul_le_mul hab hc hm.le (by positivity)
    linarith [this, show m ^ 2 * m = m ^ 3 by ring]
  have e6 := (abs_le.1 e4).1
  nlinarith

theorem strain_bounds (f : ℝ) (hf : 0 ≤ f) (e : ℝ) (h0 : 0 ≤ e) (h1 : e < 1) :
    -f ≤ (e * 2 - 1) * f ∧ (e * 2 - 1) * f ≤ f := by
  constructor <;> nlinarith

theorem strain_det_pos (f : ℝ) (hf : 0 ≤ f) (hf2 : f < 1 / 2) (e0 : Fin 6 → ℝ)
    (he : ∀ i, 0 ≤ e0 i ∧ e0 i < 1) (P : Matrix (Fin 3) (Fin 3) ℝ)
    (hP : cellPerturbMatrix f e0 = .ok P) : 0 < P.det := by
  rw [cellPerturbMatrix, if_neg (not_lt.2 hf)] at hP
  obtain rfl := Except.ok.inj hP
  have hb := fun i => strain_bounds f hf (e0 i) (he i).1 (he i).2
  have hm : 0 < 1 - f := by linarith
  have hoff : ∀ i, |0.5 * ((e0 i * 2 - 1) * f)| < (1 - f) / 2 := by
    intro i
    rw [abs_lt]
    have := hb i
    constructor <;> norm_num <;> linarith
  have := dominant_det_pos (1 + (e0 0 * 2 - 1) * f) (1 + (e0 1 * 2 - 1) * f) (1 + (e0 2 * 2 - 1) * f)
    (0.5 * ((e0 3 * 2 - 1) * f)) (0.5 * ((e0 4 * 2 - 1) * f)) (0.5 * ((e0 5 * 2 - 1) * f)) (1 - f) hm
    (by linarith [(hb 0).1]) (by linarith [(hb 1).1]) (by linarith [(hb 2).1]) (hoff 3) (hoff 4) (hoff 5)
  rw [det_fin_three]
  simp
  linarith

theorem perturb_coords (dist : ℝ) (hd : 0 ≤ dist) (es : ℕ → Vec ℝ) (coords : List (Vec ℝ)) (k : ℕ) :
    (coords.zipIdx k).mapM (fun (pk : Vec ℝ × ℕ) => (do
      let v ← atomPerturbVector dist (es pk.2)
      return pk.1 + v : Except PyErr (Vec ℝ)))
    = .ok ((coords.zipIdx k).map (fun pk => pk.1 + fun i => dist * es pk.2 i / Real.sqrt 3)) := by
  refine mapM_map_ok ?_
  intro pk _
  rw [atomPerturbVector, if_neg (not_lt.2 hd), ok_bind]
  rfl

theorem zipWith_fst {α β : Type} {as : List α} {bs : List β} (h : as.length = bs.length) :
    List.zipWith (fun a _ => a) as bs = as := by
  induction as generalizing bs with
  | nil => simp
  | cons a as ih =>
    cases bs with
    | nil => simp at h
    | cons b bs => simp only [List.zipWith_cons_cons]; rw [ih (by simpa using h)]

theorem mulVec_vecMul_transpose {W : Matrix (Fin 3) (Fin 3) ℝ} (h : W * Wᵀ = 1) (v : Vec ℝ) :
    v ⬝ᵥ (W *ᵥ (v ᵥ* W)) = v ⬝ᵥ v := by
  have : v ᵥ* W = Wᵀ *ᵥ v := (mulVec_transpose W v).symm
  rw [this, mulVec_mulVec, h, one_mulVec]

theorem forall₂_exists_right {α β : Type} {R : α → β → Prop} {as : List α} {bs : List β}
    (h : List.Forall₂ R as bs) (b : β) (hb : b ∈ bs) : ∃ a ∈ as, R a b := by
  induction h with
  | nil => simp at hb
  | cons h1 _ ih =>
    rcases List.mem_cons.1 hb with rfl | hb
    · exact ⟨_, List.mem_cons_self, h1⟩
    · obtain ⟨a, ha, hr⟩ := ih hb
      exact ⟨a, List.mem_cons_of_mem _ ha, hr⟩

theorem perturbOne_eq (F : QR) (s : Struct ℝ) (hs : s.sites ≠ []) (f d : ℝ) (hd : 0 ≤ d) (e0 : Fin 6 → ℝ)
    (es : ℕ → Vec ℝ) (P : Matrix (Fin 3) (Fin 3) ℝ) (hP : cellPerturbMatrix f e0 = .ok P) :
    perturbOne F s f d e0 es = rotLowerTriangular F (s.lattice * P)
      ((s.sites.map (fun t => t.pos ᵥ* P)).zipIdx.map
        (fun pk => pk.1 + fun i => d * es pk.2 i / Real.sqrt 3)) (s.sites.map Site.z) := by
  unfold perturbOne
  rw [hP, ok_bind]
  simp only [if_neg hs]
  rw [perturb_coords d hd, ok_bind]

theorem perturbOne_left (F : QR) (s : Struct ℝ) (hs : s.sites ≠ []) (f d : ℝ) (hd : 0 ≤ d)
    (e0 : Fin 6 → ℝ) (es : ℕ → Vec ℝ) (P : Matrix (Fin 3) (Fin 3) ℝ)
    (hP : cellPerturbMatrix f e0 = .ok P) (hdet : (s.lattice * P).det < 0) :
    perturbOne F s f d e0 es = .error .assertionError := by
  rw [perturbOne_eq F s hs f d hd e0 es P hP, rotLower_left F _ hdet]

theorem perturb_sites (s : Struct ℝ) (d : ℝ) (es : ℕ → Vec ℝ) (P W : Matrix (Fin 3) (Fin 3) ℝ)
    (sites : List (Site ℝ)) (hsites : sites = List.zipWith (fun z p => ⟨z, p ᵥ* W, none⟩) (s.sites.map Site.z)
      ((s.sites.map (fun t => t.pos ᵥ* P)).zipIdx.map
        (fun pk => pk.1 + fun i => d * es pk.2 i / Real.sqrt 3))) :
    sites.map Site.z = s.sites.map Site.z ∧
    ∀ k (hk : k < s.sites.length) (hk' : k < sites.length),
      (sites[k]).pos = ((s.sites[k]).pos ᵥ* P + fun i => d * es k i / Real.sqrt 3) ᵥ* W := by
  subst hsites
  constructor
  · rw [List.map_zipWith]
    exact zipWith_fst (by simp)
  · intro k hk hk'
    simp

theorem perturbOne_ok {F : QR} {s t : Struct ℝ} {f d : ℝ} {e0 : Fin 6 → ℝ} {es : ℕ → Vec ℝ}
    (h : perturbOne F s f d e0 es = .ok t) : ∃ P W : Matrix (Fin 3) (Fin 3) ℝ,
      cellPerturbMatrix f e0 = .ok P ∧ t.lattice = s.lattice * P * W ∧
      t.sites.map Site.z = s.sites.map Site.z ∧
      ∀ k (hk : k < s.sites.length) (hk' : k < t.sites.length),
        (t.sites[k]).pos = ((s.sites[k]).pos ᵥ* P + fun i => d * es k i / Real.sqrt 3) ᵥ* W := by
  have h' := h
  unfold perturbOne at h
  obtain ⟨P, hP, h⟩ := bind_eq_ok.1 h
  have hs : s.sites ≠ [] := by
    intro hs
    simp only [if_pos hs] at h
    cases h
  have hd : 0 ≤ d := by
    by_contra hd
    simp only [if_neg hs] at h
    obtain ⟨q, rest, ht⟩ := List.exists_cons_of_ne_nil hs
    rw [ht] at h
    simp only [List.map_cons, List.zipIdx_cons, List.mapM_cons, atomPerturbVector,
      if_pos (not_le.1 hd), error_bind] at h
    cases h
  rw [perturbOne_eq F s hs f d hd e0 es P hP, rotLower_eq] at h'
  split at h'
  · cases h'
  · obtain rfl := Except.ok.inj h'
    refine ⟨P, _, hP, rfl, ?_⟩
    exact perturb_sites s d es P _ _ rfl

theorem perturbOne_right (F : QR) (s : Struct ℝ) (hs : s.sites ≠ []) (hL : 0 < s.lattice.det)
    (f d : ℝ) (hf : 0 ≤ f) (hf2 : f < 1 / 2) (hd : 0 ≤ d) (e0 : Fin 6 → ℝ)
    (he : ∀ i, 0 ≤ e0 i ∧ e0 i < 1) (es : ℕ → Vec ℝ) :
    ∃ t, perturbOne F s f d e0 es = .ok t ∧ ∃ P W : Matrix (Fin 3) (Fin 3) ℝ,
        cellPerturbMatrix f e0 = .ok P ∧ W * Wᵀ = 1 ∧ W.det = 1 ∧
        t.lattice = s.lattice * P * W ∧
        t.sites.map Site.z = s.sites.map Site.z ∧
        (∀ k (hk : k < s.sites.length) (hk' : k < t.sites.length),
          (t.sites[k]).pos = ((s.sites[k]).pos ᵥ* P + fun i => d * es k i / Real.sqrt 3) ᵥ* W) ∧
        (∀ a b, a < b → t.lattice a b = 0) ∧ ∀ a, 0 < t.lattice a a := by
  obtain ⟨P, hP⟩ : ∃ P, cellPerturbMatrix f e0 = .ok P := by
    rw [cellPerturbMatrix, if_neg (not_lt.2 hf)]; exact ⟨_, rfl⟩
  have hdet : 0 < (s.lattice * P).det := by
    rw [det_mul]; exact mul_pos hL (strain_det_pos f hf hf2 e0 he P hP)
  obtain ⟨W, h1, h2, h3, h4, h5⟩ := rotLower_right F _ hdet
    ((s.sites.map (fun t => t.pos ᵥ* P)).zipIdx.map
        (fun pk => pk.1 + fun i => d * es pk.2 i / Real.sqrt 3)) (s.sites.map Site.z)
  obtain ⟨h6, h7⟩ := perturb_sites s d es P W _ rfl
  exact ⟨_, (perturbOne_eq F s hs f d hd e0 es P hP).trans h3, P, W, hP, h1, h2, rfl, h6, h7, h4, h5⟩

end MaterSDK
