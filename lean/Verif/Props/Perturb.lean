import Verif.Lemmas.Perturb

/-!
# C52, C53: random perturbation of structures

`F : QR` is an arbitrary function with the contract of `np.linalg.qr`; `gramSchmidtQR` is one. The random
numbers `e0` (six per copy, in `[0, 1)`) and `es` (three per atom and copy) are arbitrary.
-/

namespace MaterSDK

open Matrix Classical

/-! ## C53 -/

/-- C53 for right-handed cells: a rotation makes the cell lower triangular with positive diagonal; all
products of lattice vectors, and all distances of atoms, are kept; species keep their order.
Missing: left-handed cells, see `C53_left_handed`. -/
theorem C53_right_handed_partial (F : QR) (C : Matrix (Fin 3) (Fin 3) ℝ) (hC : 0 < C.det)
    (coords : List (Vec ℝ)) (species : List ℕ) (hlen : species.length = coords.length) :
    ∃ s : Struct ℝ, rotLowerTriangular F C coords species = .ok s ∧
      (∀ i j, s.lattice i ⬝ᵥ s.lattice j = C i ⬝ᵥ C j) ∧
      s.lattice.det = C.det ∧
      (∀ i j, i < j → s.lattice i j = 0) ∧ (∀ i, 0 < s.lattice i i) ∧
      s.sites.map Site.z = species ∧
      (∀ m n (hm : m < coords.length) (hn : n < coords.length),
        ∃ (hm' : m < s.sites.length) (hn' : n < s.sites.length),
          ((s.sites[m]).pos - (s.sites[n]).pos) ⬝ᵥ ((s.sites[m]).pos - (s.sites[n]).pos)
            = (coords[m] - coords[n]) ⬝ᵥ (coords[m] - coords[n])) ∧
      (∀ m (hm : m < coords.length) (c : Vec ℝ), coords[m] = c ᵥ* C →
        ∃ hm' : m < s.sites.length, (s.sites[m]).pos = c ᵥ* s.lattice) := by
  obtain ⟨W, h1, h2, h3, h4, h5⟩ := rotLower_right F C hC coords species
  have hlen' : (List.zipWith (fun z (p : Vec ℝ) => (⟨z, p ᵥ* W, none⟩ : Site ℝ)) species coords).length
      = coords.length := by simp [hlen]
  refine ⟨_, h3, ?_, ?_, h4, h5, ?_, ?_, ?_⟩
  · intro i j
    have : (C * W) * (C * W)ᵀ = C * Cᵀ := by
      rw [transpose_mul, Matrix.mul_assoc, ← Matrix.mul_assoc W, h1, Matrix.one_mul]
    exact congrFun (congrFun this i) j
  · rw [det_mul, h2, mul_one]
  · rw [List.map_zipWith]
    exact zipWith_fst hlen
  · intro m n hm hn
    refine ⟨by rw [hlen']; exact hm, by rw [hlen']; exact hn, ?_⟩
    simp only [List.getElem_zipWith]
    rw [← sub_vecMul, ← dotProduct_mulVec, mulVec_vecMul_transpose h1]
  · intro m hm c hc
    refine ⟨by rw [hlen']; exact hm, ?_⟩
    simp only [List.getElem_zipWith]
    rw [hc, vecMul_vecMul]

/-- C53 is violated: every left-handed cell makes the assertion on the determinant fail. -/
theorem C53_left_handed (F : QR) (C : Matrix (Fin 3) (Fin 3) ℝ) (hC : C.det < 0)
    (coords : List (Vec ℝ)) (species : List ℕ) :
    rotLowerTriangular F C coords species = .error .assertionError :=
  rotLower_left F C hC coords species

/-- A sheared right-handed cell and a left-handed one; the contract of `QR` can be met. -/
example : 0 < (!![0, 2, 1; 0, 1, 3; 1, 4, 0] : Matrix (Fin 3) (Fin 3) ℝ).det ∧
    (!![0, 1, 3; 0, 2, 1; 1, 4, 0] : Matrix (Fin 3) (Fin 3) ℝ).det < 0 ∧ Nonempty QR := by
  refine ⟨?_, ?_, ⟨gramSchmidtQR⟩⟩ <;> simp [det_fin_three] <;> norm_num

/-! ## C52 -/

/-- C52: the strain matrix of a non-negative amplitude `f` is symmetric, its diagonal is in
`[1 - f, 1 + f]`, the other entries in `[-f/2, f/2]`. -/
theorem C52_strain (f : ℝ) (hf : 0 ≤ f) (e0 : Fin 6 → ℝ) (he : ∀ i, 0 ≤ e0 i ∧ e0 i < 1) :
    ∃ P, cellPerturbMatrix f e0 = .ok P ∧ Pᵀ = P ∧ (∀ i, 1 - f ≤ P i i ∧ P i i ≤ 1 + f) ∧
      ∀ i j, i ≠ j → |P i j| ≤ f / 2 := by
  have hb := fun i => strain_bounds f hf (e0 i) (he i).1 (he i).2
  rw [cellPerturbMatrix, if_neg (not_lt.2 hf)]
  refine ⟨_, rfl, ?_, ?_, ?_⟩
  · ext i j
    fin_cases i <;> fin_cases j <;> rfl
  · intro i
    have h0 := hb 0; have h1 := hb 1; have h2 := hb 2
    fin_cases i <;> simp <;> constructor <;> linarith
  · intro i j hij
    have hoff : ∀ k, |0.5 * ((e0 k * 2 - 1) * f)| ≤ f / 2 := by
      intro k
      rw [abs_le]
      have := hb k
      constructor <;> norm_num <;> linarith
    fin_cases i <;> fin_cases j <;> first | exact absurd rfl hij | exact hoff 3 | exact hoff 4 | exact hoff 5

/-- C52: a negative amplitude is refused when at least one copy of a structure with atoms is asked for. -/
theorem C52_negative (F : QR) (s : Struct ℝ) (n : ℤ) (hn : 0 < n) (f d : ℝ)
    (e0 : ℕ → Fin 6 → ℝ) (es : ℕ → ℕ → Vec ℝ) (h : f < 0 ∨ (0 ≤ f ∧ s.sites ≠ [] ∧ d < 0)) :
    perturb F s n f d e0 es = .error .runtimeError := by
  obtain ⟨k, hk⟩ : ∃ k, n.toNat = k + 1 := ⟨n.toNat - 1, by omega⟩
  have h1 : perturbOne F s f d (e0 0) (es 0) = .error .runtimeError := by
    unfold perturbOne
    rcases h with h | ⟨hf, hs, hd⟩
    · rw [cellPerturbMatrix, if_pos h, error_bind]
    · rw [cellPerturbMatrix, if_neg (not_lt.2 hf), ok_bind]
      simp only [if_neg hs]
      obtain ⟨t, rest, ht⟩ := List.exists_cons_of_ne_nil hs
      rw [ht]
      simp only [List.map_cons, List.zipIdx_cons, List.mapM_cons, atomPerturbVector, if_pos hd, error_bind]
  rw [perturb, hk, List.range_succ_eq_map, List.mapM_cons, h1, error_bind]

/-- C52, for every call that returns: the number of structures is the number asked for (0 for a negative
number); every one has the species of the original, in order; without displacement of atoms, fractional
coordinates are kept. -/
theorem C52_kept (F : QR) (s : Struct ℝ) (n : ℤ) (f d : ℝ) (e0 : ℕ → Fin 6 → ℝ)
    (es : ℕ → ℕ → Vec ℝ) (l : List (Struct ℝ)) (h : perturb F s n f d e0 es = .ok l) :
    l.length = n.toNat ∧ (∀ t ∈ l, t.sites.map Site.z = s.sites.map Site.z) ∧
    (d = 0 → ∀ t ∈ l, ∀ k (hk : k < s.sites.length) (hk' : k < t.sites.length) (c : Vec ℝ),
      (s.sites[k]).pos = c ᵥ* s.lattice → (t.sites[k]).pos = c ᵥ* t.lattice) := by
  rw [perturb, mapM_eq_ok] at h
  refine ⟨by rw [← h.length_eq, List.length_range], ?_⟩
  have hmem : ∀ t ∈ l, ∃ j, perturbOne F s f d (e0 j) (es j) = .ok t := by
    intro t ht
    obtain ⟨j, _, hj⟩ := forall₂_exists_right h t ht
    exact ⟨j, hj⟩
  refine ⟨fun t ht => ?_, fun hd t ht k hk hk' c hc => ?_⟩
  · obtain ⟨j, hj⟩ := hmem t ht
    obtain ⟨P, W, _, hl, hs, -⟩ := perturbOne_ok hj
    exact hs
  · obtain ⟨j, hj⟩ := hmem t ht
    obtain ⟨P, W, _, hl, hs, hp⟩ := perturbOne_ok hj
    rw [hp k hk hk', hl, hc, hd]
    have : (fun i => (0 : ℝ) * es j k i / Real.sqrt 3) = (0 : Vec ℝ) := by
      funext i; simp
    rw [this, add_zero, vecMul_vecMul, vecMul_vecMul, Matrix.mul_assoc]

/-- C52: for a right-handed structure with atoms, `0 ≤ f < 1/2` and a non-negative distance the copies are
made for every draw; copy `j` is the original strained by its own strain matrix, its atoms displaced by
`d e / sqrt 3`, and everything rotated. Missing: other cells and amplitudes, see `C52_left_handed` and
`C52_large_strain`. -/
theorem C52_returns_partial (F : QR) (s : Struct ℝ) (hs : s.sites ≠ []) (hL : 0 < s.lattice.det) (n : ℤ)
    (f d : ℝ) (hf : 0 ≤ f) (hf2 : f < 1 / 2) (hd : 0 ≤ d) (e0 : ℕ → Fin 6 → ℝ)
    (he : ∀ j i, 0 ≤ e0 j i ∧ e0 j i < 1) (es : ℕ → ℕ → Vec ℝ) :
    ∃ l, perturb F s n f d e0 es = .ok l ∧ l.length = n.toNat ∧
      ∀ j (hj : j < l.length), ∃ P W : Matrix (Fin 3) (Fin 3) ℝ,
        cellPerturbMatrix f (e0 j) = .ok P ∧ W * Wᵀ = 1 ∧ W.det = 1 ∧
        (l[j]).lattice = s.lattice * P * W ∧
        (l[j]).sites.map Site.z = s.sites.map Site.z ∧
        (∀ k (hk : k < s.sites.length) (hk' : k < (l[j]).sites.length),
          ((l[j]).sites[k]).pos
            = ((s.sites[k]).pos ᵥ* P + fun i => d * es j k i / Real.sqrt 3) ᵥ* W) ∧
        (∀ a b, a < b → (l[j]).lattice a b = 0) ∧ ∀ a, 0 < (l[j]).lattice a a := by
  have hone := fun j => perturbOne_right F s hs hL f d hf hf2 hd (e0 j) (he j) (es j)
  choose t ht using hone
  refine ⟨(List.range n.toNat).map t, ?_, by simp, ?_⟩
  · exact mapM_map_ok (fun j _ => (ht j).1)
  · intro j hj
    obtain ⟨_, P, W, h1, h2, h3, h4, h5, h6, h7, h8⟩ := ht j
    simp only [List.getElem_map, List.getElem_range]
    exact ⟨P, W, h1, h2, h3, h4, h5, h6, h7, h8⟩

/-- C52 is violated for left-handed structures: every perturbation with a strain below 1/2 fails. -/
theorem C52_left_handed (F : QR) (s : Struct ℝ) (hs : s.sites ≠ []) (hL : s.lattice.det < 0) (n : ℤ)
    (hn : 0 < n) (f d : ℝ) (hf : 0 ≤ f) (hf2 : f < 1 / 2) (hd : 0 ≤ d) (e0 : ℕ → Fin 6 → ℝ)
    (he : ∀ j i, 0 ≤ e0 j i ∧ e0 j i < 1) (es : ℕ → ℕ → Vec ℝ) :
    perturb F s n f d e0 es = .error .assertionError := by
  obtain ⟨k, hk⟩ : ∃ k, n.toNat = k + 1 := ⟨n.toNat - 1, by omega⟩
  obtain ⟨P, hP, -⟩ := C52_strain f hf (e0 0) (he 0)
  have hdet := strain_det_pos f hf hf2 (e0 0) (he 0) P hP
  rw [perturb, hk, List.range_succ_eq_map, List.mapM_cons,
    perturbOne_left F s hs f d hd (e0 0) (es 0) P hP ?_, error_bind]
  rw [det_mul]
  exact mul_neg_of_neg_of_pos hL hdet

/-- C52 is violated for large amplitudes: the draw `(0, 1/2, 1/2, 1/2, 1/2, 1/2)` with amplitude 2 turns a
right-handed cell inside out, and the call fails, whatever the structure. -/
theorem C52_large_strain (F : QR) (s : Struct ℝ) (hs : s.sites ≠ []) (hL : 0 < s.lattice.det)
    (d : ℝ) (hd : 0 ≤ d) (es : ℕ → ℕ → Vec ℝ) :
    perturb F s 1 2 d (fun _ => ![0, 1/2, 1/2, 1/2, 1/2, 1/2]) es = .error .assertionError := by
  have hP : cellPerturbMatrix 2 ![0, 1/2, 1/2, 1/2, 1/2, 1/2]
      = .ok (!![-1, 0, 0; 0, 1, 0; 0, 0, 1] : Matrix (Fin 3) (Fin 3) ℝ) := by
    rw [cellPerturbMatrix, if_neg (by norm_num)]
    refine congrArg Except.ok ?_
    ext i j
    fin_cases i <;> fin_cases j <;> simp <;> norm_num
  change (List.range 1).mapM _ = _
  rw [show List.range 1 = [0] from rfl, List.mapM_cons,
    perturbOne_left F s hs 2 d hd _ (es 0) _ hP ?_, error_bind]
  rw [det_mul, det_fin_three !![_, _, _; _, _, _; _, _, _]]
  simp
  exact hL

/-- A structure without atoms is refused by the matrix product. -/
theorem C52_no_atoms (F : QR) (L : Matrix (Fin 3) (Fin 3) ℝ) (n : ℤ) (hn : 0 < n) (f d : ℝ) (hf : 0 ≤ f)
    (e0 : ℕ → Fin 6 → ℝ) (es : ℕ → ℕ → Vec ℝ) :
    perturb F ⟨L, []⟩ n f d e0 es = .error .valueError := by
  obtain ⟨k, hk⟩ : ∃ k, n.toNat = k + 1 := ⟨n.toNat - 1, by omega⟩
  have h1 : perturbOne F ⟨L, []⟩ f d (e0 0) (es 0) = .error .valueError := by
    unfold perturbOne
    rw [cellPerturbMatrix, if_neg (not_lt.2 hf), ok_bind]
    simp
  rw [perturb, hk, List.range_succ_eq_map, List.mapM_cons, h1, error_bind]

/-- The usual use, three copies with strain 0.03 and displacement 0.01 of a cell with two atoms, meets the
hypotheses of `C52_returns_partial` for any draw in range. -/
example (e0 : ℕ → Fin 6 → ℝ) (he : ∀ j i, 0 ≤ e0 j i ∧ e0 j i < 1) (es : ℕ → ℕ → Vec ℝ) :
    ∃ l, perturb gramSchmidtQR ⟨!![0, 2, 1; 0, 1, 3; 1, 4, 0], [⟨3, 0, none⟩, ⟨16, ![1, 2, 0], none⟩]⟩
      3 0.03 0.01 e0 es = .ok l ∧ l.length = 3 := by
  obtain ⟨l, h, h', -⟩ := C52_returns_partial gramSchmidtQR
    ⟨!![0, 2, 1; 0, 1, 3; 1, 4, 0], [⟨3, 0, none⟩, ⟨16, ![1, 2, 0], none⟩]⟩ (by simp)
    (by simp [det_fin_three]; norm_num) 3 0.03 0.01 (by norm_num) (by norm_num) (by norm_num) e0 he es
  exact ⟨l, h, h'⟩

end MaterSDK
