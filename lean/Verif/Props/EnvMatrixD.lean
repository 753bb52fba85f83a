import Verif.Lemmas.EnvMatrixDAux

/-! # C++ environment matrix in doubles: properties C187 to C189 -/

namespace MaterSDK

open Classical

/-! ## C187 -/

/-- C187 fails: for `rcut_smooth = 1` and `rcut = 2` the weight at the double `2 - 2⁻²⁶` is negative, and at
the larger double `2 - 2⁻²⁷` it is positive. -/
theorem C187_violated : ∃ d d' : ℝ, flR d = d ∧ flR d' = d' ∧ 1 < d ∧ d < d' ∧ d' < 2 ∧
    smoothD flR 2 1 d < 0 ∧ smoothD flR 2 1 d < smoothD flR 2 1 d' ∧ 0 < smoothD flR 2 1 d' := by
  obtain ⟨h1, h2⟩ := smoothQ_neg
  obtain ⟨f1, f2⟩ := fl_near_two
  have w1 := smoothD_cast (2 - 1 / 2 ^ 26) (by norm_num) (by norm_num)
  have w2 := smoothD_cast (2 - 1 / 2 ^ 27) (by norm_num) (by norm_num)
  have h1' : ((smoothQ (2 - 1 / 2 ^ 26) : ℚ) : ℝ) < 0 := by exact_mod_cast h1
  have h2' : (0 : ℝ) < ((smoothQ (2 - 1 / 2 ^ 27) : ℚ) : ℝ) := by exact_mod_cast h2
  refine ⟨((2 - 1 / 2 ^ 26 : ℚ) : ℝ), ((2 - 1 / 2 ^ 27 : ℚ) : ℝ), ?_, ?_, ?_, ?_, ?_, ?_, ?_, ?_⟩
  · rw [flR_cast, f1]
  · rw [flR_cast, f2]
  · push_cast; norm_num
  · push_cast; norm_num
  · push_cast; norm_num
  · rw [w1]; exact h1'
  · rw [w1, w2]; linarith
  · rw [w2]; exact h2'

/-- C187 up to rounding: the weight computed in doubles differs from the exact one by at most `2⁻⁴⁶ / d`; so
it is never more negative than that, and grows with the distance by at most twice that. It is zero from
the cutoff on and positive below `rcut_smooth`.
Missing: sign and monotonicity without the margin, which fail (`C187_violated`). -/
theorem C187_weight_partial (rcut rs d : ℝ) (h : rs < rcut) (hd : 0 < d) :
    |smoothD flR rcut rs d - smoothWeight rcut rs d| ≤ 1 / 2 ^ 46 / d ∧
    -(1 / 2 ^ 46 / d) ≤ smoothD flR rcut rs d ∧
    (∀ d', d ≤ d' → smoothD flR rcut rs d' ≤ smoothD flR rcut rs d + 1 / 2 ^ 45 / d) ∧
    (d < rs → smoothD flR rcut rs d = flR (1 / d) ∧ 0 < smoothD flR rcut rs d) ∧
    (rcut ≤ d → smoothD flR rcut rs d = 0) := by
  have key : ∀ x, 0 < x → |smoothD flR rcut rs x - smoothWeight rcut rs x| ≤ 1 / 2 ^ 46 / x := by
    intro x hx
    have := near_smoothD h hx
    unfold NearE at this
    rw [← cSmooth_eq, cSmooth_weight] at this
    refine this.trans ?_
    rw [uR_eq]
    have e : (1 : ℝ) / 2 ^ 46 / x = 1 / 2 ^ 46 * (1 / x) := by ring
    rw [e, ← mul_assoc]
    exact mul_le_mul_of_nonneg_right (by norm_num) (by positivity)
  have k := key d hd
  have m := smoothWeight_anti h hd le_rfl
  refine ⟨k, by linarith [(abs_le.1 k).1, m.1], ?_, ?_, ?_⟩
  · intro d' hdd
    have k' := key d' (hd.trans_le hdd)
    have m' := smoothWeight_anti h hd hdd
    have e : 1 / 2 ^ 46 / d' ≤ 1 / 2 ^ 46 / d := div_le_div_of_nonneg_left (by positivity) hd hdd
    have e2 : (1 : ℝ) / 2 ^ 45 / d = 1 / 2 ^ 46 / d + 1 / 2 ^ 46 / d := by ring
    linarith [(abs_le.1 k).1, (abs_le.1 k').2, m'.2]
  · intro hlt
    have e : smoothD flR rcut rs d = flR (1 / d) := by
      unfold smoothD
      simp only
      rw [if_pos hlt, if_neg hd.ne']
    rw [e]
    exact ⟨rfl, flR_pos (by positivity)⟩
  · intro hle
    unfold smoothD
    simp only
    rw [if_neg (by linarith), if_neg (fun hc => absurd hc.2 (not_lt.2 hle))]

example := C187_weight_partial 6 1 (3 / 2) (by norm_num) (by norm_num)

/-! ## C188 -/

/-- C188: in doubles, from a structure to the values of its environment matrix. Every slot of `tilde_r`
that belongs to a listed image holds the DeepPot-SE row of that image up to the tolerance, in the block of
its type; the other slots are zero. The listed images are within the cutoff up to the tolerance, each
once; images nearer than the cutoff by the tolerance are listed; an image within the cutoff that is not listed has a row below the tolerance. -/
theorem C188_env_double (A : ArgSort) (L : Fin 3 → Vec ℝ) (atoms : List (ℤ × Vec ℝ)) (rcut rs d : ℝ)
    (pbc : Fin 3 → Bool) (sort : Bool) (hok : CellOkD L atoms pbc rcut) (hrc : flR rcut = rcut)
    (hdbl : ∀ a ∈ atoms, ∀ p, flR (a.2 p) = a.2 p) (hap : FarImages L (atoms.map Prod.snd) d)
    (hd : 1 / 20 ≤ d) (htd : 64 * nbrTol L rcut ≤ d) (hlt : 64 * nbrTol L rcut ≤ rcut - rs)
    (umax : List ℕ) (hty : ∀ a ∈ atoms, 0 ≤ a.1 ∧ a.1 < umax.length)
    (hroom : ∀ (i : ℕ) (c : ℤ × Vec ℝ), atoms[i]? = some c → ∀ (t m : ℕ), umax[t]? = some m →
      ∀ l : List (ℕ × (Fin 3 → ℤ)), l.Nodup →
        (∀ e ∈ l, NearBy L pbc (atoms.map Prod.snd) (rcut + nbrTol L rcut) c.2 e ∧
          e ≠ (i, 0) ∧ (atoms[e.1]?).map Prod.fst = some (t : ℤ)) → l.length ≤ m) :
    ∃ N info out, NbrLists.makeD flR A (CStruct.makeD flR L atoms true) rcut pbc sort = .ok N ∧
      N.findInfoD flR umax.sum = .ok info ∧
      envFindD flR ⟨info.inum, info.numneigh.map (fun k : ℕ => (k : ℤ)), info.firstneigh, info.types,
        umax.map (fun m : ℕ => (m : ℤ))⟩ info.rel rcut rs = .ok out ∧
      ∀ (i : ℕ) (c : ℤ × Vec ℝ), atoms[i]? = some c → ∃ imgs : List (ℕ × (Fin 3 → ℤ)), imgs.Nodup ∧
        (∀ e ∈ imgs, NearBy L pbc (atoms.map Prod.snd) (rcut + nbrTol L rcut) c.2 e ∧ e ≠ (i, 0)) ∧
        (∀ e, NearBy L pbc (atoms.map Prod.snd) (rcut - nbrTol L rcut) c.2 e → e ≠ (i, 0) → e ∈ imgs) ∧
        (∀ e, NearBy L pbc (atoms.map Prod.snd) rcut c.2 e → e ≠ (i, 0) → e ∉ imgs →
          ∀ x, (atoms.map Prod.snd)[e.1]? = some x →
            ∀ a, |envAt rcut rs (imagePos L x e.2) c.2 a| ≤ envTol L rcut rs d) ∧
        ∃ row : ℕ × (Fin 3 → ℤ) → Fin 4 → ℝ,
          (∀ e ∈ imgs, ∀ x, (atoms.map Prod.snd)[e.1]? = some x →
            ∀ a, |row e a - envAt rcut rs (imagePos L x e.2) c.2 a| ≤ envTol L rcut rs d) ∧
          flatRow (out.map Prod.fst) umax.sum i = typeBlocks 0 umax
            (imgs.map (fun e => (((atoms.map Prod.fst)[e.1]?).getD 0, row e))) := by
  obtain ⟨N, info, out, h1, h2, h3, h4⟩ := env_double A L atoms rcut rs d pbc sort hok hrc hdbl hap hd htd hlt
    umax hty hroom
  refine ⟨N, info, out, h1, h2, h3, ?_⟩
  intro i c hc
  obtain ⟨imgs, g1, g2, g0, g3, val, g4, g5⟩ := h4 i c hc
  refine ⟨imgs, g1, g2, g0, ?_, fun e => (val e).1, ?_, ?_⟩
  · intro e hn hne hnot x hx
    have := (g3 e hn hne hnot x hx).1
    rwa [cEnvRow_envAt] at this
  · intro e he x hx
    have := (g4 e he x hx).2.1
    rwa [cEnvRow_envAt] at this
  · rw [flatRow_map, g5, typeBlocks_map, List.map_map]
    rfl

example (A : ArgSort) := C188_env_double A exL exTyped 3 1 1 (fun _ => true) true exTyped_okD flR_three
  exTyped_double exTyped_far (by norm_num) exTyped_tol (exTyped_tol.trans (by norm_num)) [2, 2] exTyped_types
  exTyped_roomD

/-- The tolerances of the example. -/
example : envTol exL 3 1 1 ≤ 1 / 10 ^ 9 ∧ envDerivTol exL 3 1 1 ≤ 1 / 10 ^ 8 := exTyped_envTol

/-! ## C189 -/

/-- C189: the same for the derivatives. Every block of `tilde_r_deriv` that belongs to a listed image is,
up to the tolerance, the derivative of the exact row of that image with respect to its relative position;
an image within the cutoff that is not listed has a derivative below the tolerance. -/
theorem C189_env_deriv_double (A : ArgSort) (L : Fin 3 → Vec ℝ) (atoms : List (ℤ × Vec ℝ)) (rcut rs d : ℝ)
    (pbc : Fin 3 → Bool) (sort : Bool) (hok : CellOkD L atoms pbc rcut) (hrc : flR rcut = rcut)
    (hdbl : ∀ a ∈ atoms, ∀ p, flR (a.2 p) = a.2 p) (hap : FarImages L (atoms.map Prod.snd) d)
    (hd : 1 / 20 ≤ d) (htd : 64 * nbrTol L rcut ≤ d) (hlt : 64 * nbrTol L rcut ≤ rcut - rs)
    (umax : List ℕ) (hty : ∀ a ∈ atoms, 0 ≤ a.1 ∧ a.1 < umax.length)
    (hroom : ∀ (i : ℕ) (c : ℤ × Vec ℝ), atoms[i]? = some c → ∀ (t m : ℕ), umax[t]? = some m →
      ∀ l : List (ℕ × (Fin 3 → ℤ)), l.Nodup →
        (∀ e ∈ l, NearBy L pbc (atoms.map Prod.snd) (rcut + nbrTol L rcut) c.2 e ∧
          e ≠ (i, 0) ∧ (atoms[e.1]?).map Prod.fst = some (t : ℤ)) → l.length ≤ m) :
    ∃ N info out, NbrLists.makeD flR A (CStruct.makeD flR L atoms true) rcut pbc sort = .ok N ∧
      N.findInfoD flR umax.sum = .ok info ∧
      envFindD flR ⟨info.inum, info.numneigh.map (fun k : ℕ => (k : ℤ)), info.firstneigh, info.types,
        umax.map (fun m : ℕ => (m : ℤ))⟩ info.rel rcut rs = .ok out ∧
      ∃ J : Vec ℝ → Matrix (Fin 4) (Fin 3) ℝ,
      (∀ v, v ≠ 0 → HasFDerivAt (fun y => envAt rcut rs y 0)
        ((Matrix.mulVecLin (J v)).toContinuousLinearMap) v) ∧
      ∀ (i : ℕ) (c : ℤ × Vec ℝ), atoms[i]? = some c → ∃ imgs : List (ℕ × (Fin 3 → ℤ)), imgs.Nodup ∧
        (∀ e ∈ imgs, NearBy L pbc (atoms.map Prod.snd) (rcut + nbrTol L rcut) c.2 e ∧ e ≠ (i, 0)) ∧
        (∀ e, NearBy L pbc (atoms.map Prod.snd) rcut c.2 e → e ≠ (i, 0) → e ∉ imgs →
          ∀ x, (atoms.map Prod.snd)[e.1]? = some x →
            ∀ a b, |J (imagePos L x e.2 - c.2) a b| ≤ envDerivTol L rcut rs d) ∧
        ∃ block : ℕ × (Fin 3 → ℤ) → Matrix (Fin 4) (Fin 3) ℝ,
          (∀ e ∈ imgs, ∀ x, (atoms.map Prod.snd)[e.1]? = some x → imagePos L x e.2 - c.2 ≠ 0 ∧
            ∀ a b, |block e a b - J (imagePos L x e.2 - c.2) a b| ≤ envDerivTol L rcut rs d) ∧
          flatRow (out.map Prod.snd) umax.sum i = typeBlocks 0 umax
            (imgs.map (fun e => (((atoms.map Prod.fst)[e.1]?).getD 0, block e))) := by
  obtain ⟨N, info, out, h1, h2, h3, h4⟩ := env_double A L atoms rcut rs d pbc sort hok hrc hdbl hap hd htd hlt
    umax hty hroom
  have hrs : rs < rcut := by
    obtain ⟨ht1, _, ht3, _⟩ := tol_bounds L atoms pbc rcut hok
    have := mul_pos uR_pos ht3
    linarith
  refine ⟨N, info, out, h1, h2, h3, cEnvDeriv rcut rs, ?_, ?_⟩
  · intro v hv
    have := hasFDerivAt_envRow hrs v (norm3_pos hv)
    simp only [cEnvRow_envAt_zero] at this
    exact this
  intro i c hc
  obtain ⟨imgs, g1, g2, g0, g3, val, g4, g5⟩ := h4 i c hc
  refine ⟨imgs, g1, g2, ?_, fun e => (val e).2, ?_, ?_⟩
  · intro e hn hne hnot x hx
    exact (g3 e hn hne hnot x hx).2
  · intro e he x hx
    obtain ⟨k1, _, k3⟩ := g4 e he x hx
    refine ⟨?_, k3⟩
    intro hz
    rw [hz] at k1
    simp [norm3] at k1
  · rw [flatRow_map, g5, typeBlocks_map, List.map_map]
    rfl

example (A : ArgSort) := C189_env_deriv_double A exL exTyped 3 1 1 (fun _ => true) true exTyped_okD flR_three
  exTyped_double exTyped_far (by norm_num) exTyped_tol (exTyped_tol.trans (by norm_num)) [2, 2] exTyped_types
  exTyped_roomD

end MaterSDK
