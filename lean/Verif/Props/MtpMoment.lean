import Verif.Lemmas.MtpMomentAux
import Verif.Props.MtpLevel
import Verif.Lemmas.CellList
import Mathlib.Data.Fintype.Perm
import Mathlib.Data.Fin.VecNotation
import Mathlib.LinearAlgebra.Matrix.Notation
import Mathlib.Tactic.NormNum

/-! # Moments and basis functions of the moment tensor potentials: properties C103 to C107 and C110

Arrays are functions of batch, centre and neighbour, handed to the model as nested lists. -/

namespace MaterSDK

/-! ## C103 -/

/-- C103: `MtpBModule::forward` evaluates every listed combination: on arrays that refer to existing atoms
(padding -1 included) and types, no assertion fails, no shape or index error occurs, and there is one number per batch,
centre and combination. -/
theorem C103_forward_succeeds (S : NuSort) (maxLevel : ℤ) (hmax : 2 ≤ maxLevel) (P : MtpParams)
    (hc : P.coeffs.length = (mtpNmus maxLevel).toNat * P.ntypes * P.ntypes) (types : List ℤ)
    (ht : ∀ t ∈ types, 0 ≤ t ∧ t < P.ntypes) {nb nc nn : ℕ} (ilist : Fin nb → Fin nc → ℤ)
    (fn : Fin nb → Fin nc → Fin nn → ℤ) (rcs : Fin nb → Fin nc → Fin nn → Vec ℝ)
    (hi : ∀ b c, 0 ≤ ilist b c ∧ ilist b c < types.length)
    (hf : ∀ b c j, -1 ≤ fn b c j ∧ fn b c j < types.length) :
    ∃ out : Fin nb → Fin nc → List ℝ,
      mtpForward P (mtpBuild S maxLevel) (List.ofFn fun b => List.ofFn (ilist b))
        (List.ofFn fun b => List.ofFn fun c => List.ofFn (fn b c))
        (List.ofFn fun b => List.ofFn fun c => List.ofFn (rcs b c)) types
        = .ok (List.ofFn fun b => List.ofFn fun c => out b c) ∧
      ∀ b c, (out b c).length = (mtpBuild S maxLevel).length := by
  have hall : ∀ b c, ∃ vs : List ℝ, (mtpBuild S maxLevel).mapM (fun comb =>
      mtpBasis P (ilist b c) (List.ofFn (fn b c)) types (List.ofFn (rcs b c)) comb) = .ok vs ∧
      vs.length = (mtpBuild S maxLevel).length := by
    intro b c
    have hok : ∀ comb ∈ mtpBuild S maxLevel, ∃ v,
        mtpBasis P (ilist b c) (List.ofFn (fn b c)) types (List.ofFn (rcs b c)) comb = .ok v := by
      intro comb hcomb
      obtain ⟨ii, _, h2, h3⟩ := mem_mtpBuild.1 hcomb
      refine basis_ok (S := S) hmax hc ht (hi b c) ?_ (by simp) ?_ (dimRun_kept (schemesAux_sound h2).2.2 h3)
      · intro j hj
        obtain ⟨k, rfl⟩ := List.mem_ofFn.1 hj
        have := hf b c k
        have := hi b c
        omega
      · intro p hp
        exact ((C102_nmus S maxLevel hmax).2 p.1).1 ⟨comb, hcomb, p, hp, rfl⟩
    generalize mtpBuild S maxLevel = l at hok
    induction l with
    | nil => exact ⟨[], rfl, rfl⟩
    | cons a l ih =>
      obtain ⟨v, hv⟩ := hok a (by simp)
      obtain ⟨vs, hvs, hlen⟩ := ih (fun comb h => hok comb (by simp [h]))
      exact ⟨v :: vs, by rw [List.mapM_cons, hv, ok_bind, hvs, ok_bind]; rfl, by simp [hlen]⟩
  choose out h1 h2 using hall
  refine ⟨out, ?_, h2⟩
  rw [mtpForward_ofFn]
  exact finRange_mapM_ok _ _ (fun b => finRange_mapM_ok _ _ (fun c => h1 b c))

/-- One silicon atom, one neighbour and one padding row, `max_level` 8. -/
noncomputable def exMtp : MtpParams where
  size := 2
  ntypes := 1
  rcut := 5
  rs := 1 / 2
  coeffs := [[1, 2], [3, 4]]

example := C103_forward_succeeds NuSort.insertion 8 (by norm_num) exMtp (by simp [exMtp, mtpNmus]) [0]
  (by simp [exMtp]) (fun _ _ : Fin 1 => 0) (fun _ _ => ![0, -1]) (fun _ _ => ![![1, 0, 0], ![0, 0, 0]])
  (by simp) (by intro b c j; fin_cases j <;> simp)

/-! ## C104 -/

/-- C104 fails: `M_{0,2} M_{0,1} M_{0,1} M_{0,1} M_{0,1}` (level 16) can be evaluated by the loop of
`forward`, but is never listed. -/
theorem C104_violated_missing (S : NuSort) (P : MtpParams) (hc : P.coeffs.length = P.ntypes * P.ntypes)
    (types : List ℤ) (ht : ∀ t ∈ types, 0 ≤ t ∧ t < P.ntypes) (iidx : ℤ) (hi : 0 ≤ iidx ∧ iidx < types.length)
    (ifirst : List ℤ) (hf : ∀ j ∈ ifirst, -1 ≤ j ∧ j < types.length) (rcs : List (Vec ℝ))
    (hlen : ifirst.length = rcs.length) :
    (∃ v, mtpBasis P iidx ifirst types rcs [(0, 2), (0, 1), (0, 1), (0, 1), (0, 1)] = .ok v) ∧
    (([(0, 2), (0, 1), (0, 1), (0, 1), (0, 1)].map (fun p : ℕ × ℕ => 2 + 4 * p.1 + p.2)).sum = 16) ∧
    ∀ maxLevel, ¬ ∃ c ∈ mtpBuild S maxLevel, c.Perm [(0, 2), (0, 1), (0, 1), (0, 1), (0, 1)] := by
  refine ⟨?_, by decide, ?_⟩
  · refine basis_ok (S := S) (maxLevel := 2) le_rfl (by simpa [mtpNmus] using hc) ht hi ?_ hlen.le ?_ (by decide)
    · intro j hj
      have := hf j hj
      omega
    · intro c hc'
      have : c.1 = 0 := by
        simp at hc'
        rcases hc' with rfl | rfl <;> rfl
      rw [this]
      decide
  · intro m h
    obtain ⟨_, _, h⟩ := (C100_combinations_complete S m _).1 h
    rcases h with ⟨p, hp, he⟩ | h
    · simp at hp
      rcases hp with rfl | rfl <;> revert he <;> decide
    · have := h 2 (by decide)
      revert this
      decide

/-- C104 as far as it holds: a combination of at most four moments, sorted as the code sorts it, that can be
evaluated on some input and has an allowed level is listed. -/
theorem C104_listed_partial (S : NuSort) (maxLevel : ℤ) (P : MtpParams) (types : List ℤ) (iidx : ℤ)
    (ifirst : List ℤ) (rcs : List (Vec ℝ)) (comb : List (ℕ × ℕ)) (hne : comb ≠ []) (h4 : comb.length ≤ 4)
    (hs : comb.Pairwise (fun a b => b.2 ≤ a.2))
    (hl : (((comb.map (fun p : ℕ × ℕ => 2 + 4 * p.1 + p.2)).sum : ℕ) : ℤ) ≤ maxLevel) (v : ℝ)
    (hv : mtpBasis P iidx ifirst types rcs comb = .ok v) : ∃ c ∈ mtpBuild S maxLevel, c.Perm comb := by
  have hk := kept_of_dimRun hs hne h4 (basis_dim hv)
  exact (C100_combinations_complete S maxLevel comb).2 ⟨hne, hl, ((mtpKept_iff hs).1 hk).2⟩

example := C104_violated_missing NuSort.insertion { exMtp with coeffs := [[1, 2]] } (by simp [exMtp]) [0]
  (by simp [exMtp]) 0 (by simp) [0, -1] (by simp) [![1, 0, 0], ![0, 0, 0]] rfl

/-- The partial result applies to `M_{0,2} M_{0,1} M_{0,1}`. -/
example : ∃ c ∈ mtpBuild NuSort.insertion 10, c.Perm [(0, 2), (0, 1), (0, 1)] := by
  obtain ⟨v, hv⟩ := basis_ok (S := NuSort.insertion) (maxLevel := 2) le_rfl
    (P := { exMtp with coeffs := [[1, 2]] }) (by simp [exMtp, mtpNmus]) (types := [0]) (by simp [exMtp])
    (iidx := 0) (by simp) (ifirst := []) (by simp) (rcs := []) (by simp)
    (comb := [(0, 2), (0, 1), (0, 1)]) (by simp; decide) (by decide)
  exact C104_listed_partial NuSort.insertion 10 _ _ _ _ _ _ (by simp) (by simp) (by simp) (by decide) v hv

/-! ## C105 -/

/-- C105: the basis functions do not change when all relative positions are rotated or reflected by an
orthogonal matrix; on bad input both calls fail alike. -/
theorem C105_rotation (R : Matrix (Fin 3) (Fin 3) ℝ) (hR : R.transpose * R = 1) (P : MtpParams)
    (combs : List (List (ℕ × ℕ))) (types : List ℤ) {nb nc nn : ℕ} (ilist : Fin nb → Fin nc → ℤ)
    (fn : Fin nb → Fin nc → Fin nn → ℤ) (rcs : Fin nb → Fin nc → Fin nn → Vec ℝ) :
    mtpForward P combs (List.ofFn fun b => List.ofFn (ilist b))
        (List.ofFn fun b => List.ofFn fun c => List.ofFn (fn b c))
        (List.ofFn fun b => List.ofFn fun c => List.ofFn fun j => R.mulVec (rcs b c j)) types
      = mtpForward P combs (List.ofFn fun b => List.ofFn (ilist b))
        (List.ofFn fun b => List.ofFn fun c => List.ofFn (fn b c))
        (List.ofFn fun b => List.ofFn fun c => List.ofFn (rcs b c)) types := by
  rw [mtpForward_ofFn, mtpForward_ofFn]
  refine mapM_congr_mem fun b _ => mapM_congr_mem fun c _ => mapM_congr_mem fun comb _ => ?_
  have : (List.ofFn fun j => R.mulVec (rcs b c j)) = (List.ofFn (rcs b c)).map R.mulVec := by
    rw [List.map_ofFn]
    rfl
  rw [this]
  exact basis_rot hR P _ _ _ _ _

/-- A rotation by 90 degrees about z. -/
example := C105_rotation !![0, -1, 0; 1, 0, 0; 0, 0, 1]
  (by ext i j; fin_cases i <;> fin_cases j <;> simp [Matrix.mul_apply, Fin.sum_univ_three]) exMtp
  (mtpBuild NuSort.insertion 8) [0] (fun _ _ : Fin 1 => 0) (fun _ _ => ![0, -1])
  (fun _ _ => ![![1, 0, 0], ![0, 0, 0]])

/-! ## C106 -/

/-- C106: the basis functions do not depend on the order of the neighbour rows of each centre. -/
theorem C106_permutation (P : MtpParams) (combs : List (List (ℕ × ℕ))) (types : List ℤ) {nb nc nn : ℕ}
    (ilist : Fin nb → Fin nc → ℤ) (fn : Fin nb → Fin nc → Fin nn → ℤ)
    (rcs : Fin nb → Fin nc → Fin nn → Vec ℝ) (σ : Fin nb → Fin nc → Equiv.Perm (Fin nn)) :
    mtpForward P combs (List.ofFn fun b => List.ofFn (ilist b))
        (List.ofFn fun b => List.ofFn fun c => List.ofFn fun j => fn b c (σ b c j))
        (List.ofFn fun b => List.ofFn fun c => List.ofFn fun j => rcs b c (σ b c j)) types
      = mtpForward P combs (List.ofFn fun b => List.ofFn (ilist b))
        (List.ofFn fun b => List.ofFn fun c => List.ofFn (fn b c))
        (List.ofFn fun b => List.ofFn fun c => List.ofFn (rcs b c)) types := by
  rw [mtpForward_ofFn P combs ilist (fun b c j => fn b c (σ b c j)) (fun b c j => rcs b c (σ b c j)) types,
    mtpForward_ofFn]
  refine mapM_congr_mem fun b _ => mapM_congr_mem fun c _ => mapM_congr_mem fun comb _ => ?_
  have hz : ∀ {n : ℕ} (f : Fin n → ℤ) (x : Fin n → Vec ℝ), List.zip (List.ofFn f) (List.ofFn x)
      = List.ofFn (fun j => (f j, x j)) := by
    intro n f x
    apply List.ext_getElem
    · simp
    · intro i h1 h2
      simp
  have hp : (List.zip (List.ofFn fun j => fn b c (σ b c j)) (List.ofFn fun j => rcs b c (σ b c j))).Perm
      (List.zip (List.ofFn (fn b c)) (List.ofFn (rcs b c))) := by
    rw [hz, hz]
    exact Equiv.Perm.ofFn_comp_perm (σ b c) (fun j => (fn b c j, rcs b c j))
  unfold mtpBasis
  rw [bLoop_congr (fun q _ => moment_perm P q.1 q.2 _ types (by simp) (by simp) hp)]

/-- C106: rows with a distance of at least `rcut` or less than `rcut_smooth` change nothing, so neither do
padding rows (index -1, position 0) when `rcut_smooth` is positive. -/
theorem C106_padding (P : MtpParams) (nmus : ℕ) (hc : P.coeffs.length = nmus * P.ntypes * P.ntypes)
    (types : List ℤ) (ht : ∀ t ∈ types, 0 ≤ t ∧ t < P.ntypes) (iidx : ℤ) (f g : List ℤ) (x y : List (Vec ℝ))
    (hx : f.length = x.length) (hy : g.length = y.length)
    (hg : ∀ j ∈ g, -1 ≤ j ∧ j < types.length)
    (hout : ∀ r ∈ y, norm3 r < P.rs ∨ P.rcut ≤ norm3 r) (comb : List (ℕ × ℕ)) (hmu : ∀ c ∈ comb, c.1 < nmus) :
    mtpBasis P iidx (f ++ g) types (x ++ y) comb = mtpBasis P iidx f types x comb := by
  unfold mtpBasis
  by_cases hty : types = []
  · subst hty
    have herr : ∀ (mu nu : ℕ) (f : List ℤ) (x : List (Vec ℝ)), mtpMoment P mu nu iidx f [] x = .error .exception := by
      intro mu nu f x
      have : torchGet ([] : List ℤ) iidx = .error .exception := by
        cases h : torchGet ([] : List ℤ) iidx with
        | error e => rw [torchGet_err h]
        | ok z => exact absurd (torchGet_mem h) (by simp)
      unfold mtpMoment
      rw [this, error_bind]
    rw [bLoop_congr (fun c _ => (herr c.1 c.2 _ _).trans (herr c.1 c.2 _ _).symm)]
  · have hpos : 0 < types.length := List.length_pos_iff.2 hty
    rw [bLoop_congr (fun c hc' => moment_pad c.2 iidx hx hy hc (hmu c hc') ht
      (fun j hj => by have := hg j hj; omega) hout)]

example := C106_permutation exMtp (mtpBuild NuSort.insertion 8) [0] (fun _ _ : Fin 1 => 0) (fun _ _ => ![0, -1])
  (fun _ _ => ![![1, 0, 0], ![0, 0, 0]]) (fun _ _ => Equiv.swap 0 1)
example := C106_padding exMtp 2 (by simp [exMtp]) [0] (by simp [exMtp]) 0 [0] [-1] [![1, 0, 0]] [![0, 0, 0]] rfl rfl
  (by simp) (by simp [exMtp, norm3]) [(0, 2), (1, 2)] (by simp)

/-! ## C107 -/

/-- C107: with the coefficients of `(mu, z_i, z_j)` stored in the order of the constructor, `MtpMModule`
returns the moment tensor `sum_j (sum_k c_k(mu, z_i, z_j) Q_k(|r_j|)) r_j ⊗ ... ⊗ r_j`. -/
theorem C107_moment (P : MtpParams) (nmus : ℕ) (T : ℕ → ℕ → ℕ → List ℝ)
    (hT : P.coeffs = (List.range nmus).flatMap (fun mu => (List.range P.ntypes).flatMap (fun zi =>
      (List.range P.ntypes).map (fun zj => T mu zi zj)))) (mu nu : ℕ) (hmu : mu < nmus) (n : ℕ)
    (z : Fin n → Fin P.ntypes) (i : Fin n) {nn : ℕ} (nbr : Fin nn → Fin n) (r : Fin nn → Vec ℝ) :
    ∃ t, mtpMoment P mu nu i (List.ofFn fun j => ((nbr j : ℕ) : ℤ)) (List.ofFn fun a => ((z a : ℕ) : ℤ))
        (List.ofFn r) = .ok t ∧ t.dim = nu ∧
      ∀ idx : List (Fin 3), idx.length = nu → t.val idx = ∑ j, (List.zipWith (fun a q => a * q)
        (T mu (z i) (z (nbr j))) ((mtpQ P.size P.rcut P.rs (norm3 (r j))).map Prod.fst)).sum
          * (idx.map (r j)).prod := by
  have hget : ∀ a : Fin n, torchGet (List.ofFn fun a => ((z a : ℕ) : ℤ)) (a : ℕ) = .ok ((z a : ℕ) : ℤ) := by
    intro a
    rw [torchGet_nat (by simp), List.getElem_ofFn]
  have hcoef : ∀ zi zj : Fin P.ntypes, paramGet P.coeffs ((mu : ℤ) * P.ntypes * P.ntypes + (zi : ℕ) * P.ntypes + (zj : ℕ))
      = .ok (T mu zi zj) := by
    intro zi zj
    have hk : ((mu : ℤ) * P.ntypes * P.ntypes + (zi : ℕ) * P.ntypes + (zj : ℕ))
        = ((mu * (P.ntypes * P.ntypes) + (zi * P.ntypes + zj) : ℕ) : ℤ) := by
      push_cast
      ring
    unfold paramGet
    rw [hk, if_pos (Int.natCast_nonneg _), Int.toNat_natCast, hT]
    have hin : ∀ a ∈ List.range nmus, ((List.range P.ntypes).flatMap (fun zi =>
        (List.range P.ntypes).map (fun zj => T a zi zj))).length = P.ntypes * P.ntypes := by
      intro a _
      simp
    have hin2 : ∀ a ∈ List.range P.ntypes, ((List.range P.ntypes).map (fun zj => T mu a zj)).length = P.ntypes := by
      intro a _
      simp
    have hlt : (zi : ℕ) * P.ntypes + zj < P.ntypes * P.ntypes := by
      have := tableIdx_lt (nmus := 1) (mu := 0) Nat.zero_lt_one zi.2 zj.2
      simpa using this
    rw [flatMap_uniform_get (List.range nmus) _ (P.ntypes * P.ntypes) hin mu _ mu (List.getElem?_range hmu) hlt,
      flatMap_uniform_get (List.range P.ntypes) _ P.ntypes hin2 zi zj zi (List.getElem?_range zi.2) zj.2,
      List.getElem?_map, List.getElem?_range zj.2]
    rfl
  have hzip : List.zip (List.ofFn fun j => ((nbr j : ℕ) : ℤ)) (List.ofFn r)
      = (List.finRange nn).map (fun j => (((nbr j : ℕ) : ℤ), r j)) := by
    apply List.ext_getElem
    · simp
    · intro k h1 h2
      simp
  unfold mtpMoment
  rw [hget i, ok_bind, if_neg (by simp), hzip, mapM_map_eq,
    finRange_mapM_ok _ (fun j => (torchDot (T mu (z i) (z (nbr j)))
      ((mtpQ P.size P.rcut P.rs (mtpDist (r j))).map Prod.fst), r j)) ?_, ok_bind]
  · refine ⟨_, rfl, rfl, ?_⟩
    intro idx hidx
    simp only
    rw [List.map_ofFn, List.sum_ofFn]
    refine Finset.sum_congr rfl fun j _ => ?_
    simp only [Function.comp, angularPow_eq _ _ _ hidx, mtpDist_eq, torchDot]
  · intro j
    unfold momentRow
    simp only
    rw [hget, ok_bind, hcoef, ok_bind]
    rfl

/-- Two atoms of different types, one radial channel. -/
example := C107_moment { size := 2, ntypes := 2, rcut := 5, rs := 1 / 2, coeffs := [[1, 2], [3, 4], [5, 6], [7, 8]] }
  1 (fun _ a b => [1 + 4 * a + 2 * b, 2 + 4 * a + 2 * b]) (by norm_num [List.range_succ]) 0 2 (by norm_num) 2
  ![0, 1] 0 ![1, 1] ![![1, 0, 0], ![0, 2, 0]]

/-! ## C110 -/

/-- C110: `RecursionOuterProduct(n, v)` returns `3^(n-1)` rows of three numbers; the number at row `i` and
column `j`, i.e. at position `m = 3 i + j`, is the product of the components of `v` selected by the base-3
digits of `m`. For `n <= 0` it writes outside its array. -/
theorem C110_outer_product (v : Vec ℝ) :
    recOuter v 0 = .error .outOfBounds ∧
    ∀ n, ∃ rows, recOuter v (n + 1) = .ok rows ∧ rows.length = 3 ^ n ∧ (∀ row ∈ rows, row.length = 3) ∧
      ∀ i < 3 ^ n, ∀ j < 3, (rows.getD i []).getD j 0
        = ∏ k ∈ Finset.range (n + 1), v (Fin.ofNat 3 ((3 * i + j) / 3 ^ k)) := by
  refine ⟨rfl, fun n => ?_⟩
  obtain ⟨rows, h1, h2, h3, h4⟩ := recOuter_spec v n
  have hl : rows.length = 3 ^ n := by
    have : rows.flatten.length = 3 * rows.length := by
      clear h1 h3 h4
      induction rows with
      | nil => rfl
      | cons a rows ih =>
        rw [List.flatten_cons, List.length_append, ih (fun r hr => h2 r (by simp [hr])), h2 a (by simp),
          List.length_cons]
        omega
    rw [h3, pow_succ] at this
    omega
  refine ⟨rows, h1, hl, h2, ?_⟩
  intro i hi j hj
  have hi' : i < rows.length := by omega
  have hg := flatMap_uniform_get rows id 3 h2 i j rows[i] (List.getElem?_eq_getElem hi') hj
  have hm : 3 * i + j < 3 ^ (n + 1) := by
    rw [pow_succ]
    omega
  have h5 := h4 _ hm
  rw [List.flatMap_id, mul_comm i 3, h5] at hg
  have e1 : rows.getD i [] = rows[i] := by simp [List.getD, hi']
  simp only [id] at hg
  rw [e1, List.getD, ← hg]
  rfl

example := C110_outer_product ![1, 2, 3]

end MaterSDK
