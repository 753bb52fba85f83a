import Verif.Lemmas.EnvMatrixDRow
import Verif.Lemmas.EnvStructure
import Verif.Lemmas.CellListDAux
import Verif.Spec.EnvMatrixD

/-! # From a structure to its environment matrix in doubles -/

namespace MaterSDK

open Classical

/-- The loop of `find_value_deriv` with any value computed from the relative position. -/
theorem fill_ok {α : Type} (zero : α) (f : Vec ℝ → α) (p : SlotIn) (umax : List ℕ) (n : ℕ)
    (nbrs : ℕ → List (ℕ × Vec ℝ)) (rel : List ℝ) (ty : ℕ → ℤ)
    (hl : ListsNbrs p umax n (fun ii => (nbrs ii).map Prod.fst))
    (hty : ∀ ii < n, ∀ e ∈ nbrs ii, p.types[e.1]? = some (ty e.1))
    (hrel : ∀ ii < n, ∀ (jj : ℕ) (e : ℕ × Vec ℝ), (nbrs ii)[jj]? = some e →
      StoredAt rel (ii * umax.sum + jj) e.2)
    (hroom : ∀ ii < n, RoomFor umax ((nbrs ii).map (fun e => (ty e.1, e.2)))) :
    slotFill p zero (fun _ => .ok ()) (fun _ k _ => do
        let v ← cVec3 rel k
        return f v)
      = .ok ((List.range n).flatMap (fun ii => typeBlocks zero umax
        ((nbrs ii).map (fun e => (ty e.1, f e.2))))) := by
  rw [slotFill_lists p umax n _ hl ty ?_ _ _ _
    (fun ii jj _ => f (((nbrs ii)[jj]?).map Prod.snd |>.getD 0)) ?_ ?_]
  · refine congrArg Except.ok ?_
    refine List.flatMap_congr ?_
    intro ii hii
    congr 1
    apply List.ext_getElem?
    intro j
    rw [List.getElem?_map, List.getElem?_zipIdx, List.getElem?_map, List.getElem?_map]
    cases hj : (nbrs ii)[j]? with
    | none => rfl
    | some e => simp [hj]
  · intro ii hii k hk
    obtain ⟨e, he, rfl⟩ := List.mem_map.1 hk
    exact hty ii hii e he
  · intro ii hii
    refine ⟨(), rfl, ?_⟩
    intro jj k hk
    rw [List.getElem?_map] at hk
    cases hj : (nbrs ii)[jj]? with
    | none => rw [hj] at hk; simp at hk
    | some e =>
      rw [cVec3_ok (hrel ii hii jj e hj), ok_bind]
      rfl
  · intro ii hii
    have := (roomFor_map (fun _ => ()) umax _).2 (hroom ii hii)
    rw [List.map_map] at this
    rw [List.map_map]
    exact this

/-- Tables that list the images `I` with the relative positions `vec`, handed to that loop. -/
theorem env_fill {α : Type} (zero : α) (f : Vec ℝ → α) (atoms : List (ℤ × Vec ℝ)) (umax : List ℕ)
    (I : List (List (ℕ × (Fin 3 → ℤ)))) (hI : I.length = atoms.length) (info : MlffInfo)
    (vec : ℕ → ℕ × (Fin 3 → ℤ) → Vec ℝ) (ty : ℕ → ℤ)
    (hty : ∀ (i : ℕ) (imgs : List (ℕ × (Fin 3 → ℤ))), I[i]? = some imgs → ∀ e ∈ imgs,
      (atoms.map Prod.fst)[e.1]? = some (ty e.1))
    (hroom : ∀ (i : ℕ) (imgs : List (ℕ × (Fin 3 → ℤ))), I[i]? = some imgs →
      RoomFor umax (imgs.map (fun e => (ty e.1, ()))))
    (f2 : info.inum = atoms.length) (f4 : info.types = atoms.map Prod.fst)
    (f5 : info.numneigh = I.map List.length)
    (f6 : ∀ (i : ℕ) (imgs : List (ℕ × (Fin 3 → ℤ))), I[i]? = some imgs → imgs.length ≤ umax.sum ∧
      flatRow info.firstneigh umax.sum i =
        imgs.map (fun e => (e.1 : ℤ)) ++ List.replicate (umax.sum - imgs.length) (-1) ∧
      flatRow info.rel (umax.sum * 3) i =
        imgs.flatMap (fun e => [vec i e 0, vec i e 1, vec i e 2]) ++
          List.replicate ((umax.sum - imgs.length) * 3) 0) :
    ∃ out, slotFill ⟨info.inum, info.numneigh.map (fun k : ℕ => (k : ℤ)), info.firstneigh, info.types,
        umax.map (fun m : ℕ => (m : ℤ))⟩ zero (fun _ => .ok ()) (fun _ k _ => do
          let v ← cVec3 info.rel k
          return f v) = .ok out ∧
      ∀ (i : ℕ) (imgs : List (ℕ × (Fin 3 → ℤ))), I[i]? = some imgs →
        flatRow out umax.sum i = typeBlocks zero umax (imgs.map (fun e => (ty e.1, f (vec i e)))) := by
  set nbrs : ℕ → List (ℕ × Vec ℝ) := fun i => (I[i]?.getD []).map (fun e => (e.1, vec i e)) with hnbrs
  have hget : ∀ i < atoms.length, ∃ imgs, I[i]? = some imgs ∧
      nbrs i = imgs.map (fun e => (e.1, vec i e)) := by
    intro i hi
    have g1 := List.getElem?_eq_getElem (l := I) (i := i) (by omega)
    refine ⟨_, g1, ?_⟩
    simp only [hnbrs, g1, Option.getD_some]
  have henv := fill_ok zero f ⟨info.inum, info.numneigh.map (fun k : ℕ => (k : ℤ)), info.firstneigh, info.types,
        umax.map (fun m : ℕ => (m : ℤ))⟩ umax atoms.length nbrs info.rel ty
    ⟨by simp only [f2], rfl, ?_⟩ ?_ ?_ ?_
  · refine ⟨_, henv, ?_⟩
    intro i imgs g1
    have hi : i < atoms.length := by rw [← hI]; exact (List.getElem?_eq_some_iff.1 g1).1
    obtain ⟨imgs', hi', hn⟩ := hget i hi
    rw [g1] at hi'; cases hi'
    rw [flatRow_flatMap (List.range atoms.length) _ umax.sum ?_ i i
      (List.getElem?_range hi), hn, List.map_map]
    · rfl
    · intro k hk
      refine typeBlocks_length _ _ _ ?_
      obtain ⟨imgs', hi', hn'⟩ := hget k (List.mem_range.1 hk)
      have := hroom k imgs' hi'
      rw [hn', List.map_map]
      rw [← roomFor_map (fun _ => ()), List.map_map]
      exact this
  · intro i hi
    obtain ⟨imgs, hI, hn⟩ := hget i hi
    obtain ⟨hle, r1, r2⟩ := f6 i imgs hI
    constructor
    · beta_reduce
      rw [f5, List.map_map, List.getElem?_map, hI, hn]
      simp
    · intro jj k hk
      beta_reduce at hk
      rw [hn, List.map_map, List.getElem?_map] at hk
      obtain ⟨e, he, rfl⟩ := Option.map_eq_some_iff.1 hk
      have hj : jj < imgs.length := (List.getElem?_eq_some_iff.1 he).1
      rw [← flatRow_get _ _ _ _ (by omega), r1, List.getElem?_append_left (by simpa using hj),
        List.getElem?_map, he]
      rfl
  · intro i hi e he
    obtain ⟨imgs, hI, hn⟩ := hget i hi
    rw [hn] at he
    obtain ⟨x, hx, rfl⟩ := List.mem_map.1 he
    rw [f4]
    exact hty i imgs hI x hx
  · intro i hi jj e he
    obtain ⟨imgs, hI, hn⟩ := hget i hi
    obtain ⟨hle, r1, r2⟩ := f6 i imgs hI
    rw [hn, List.getElem?_map] at he
    obtain ⟨x, hx, rfl⟩ := Option.map_eq_some_iff.1 he
    have hj : jj < imgs.length := (List.getElem?_eq_some_iff.1 hx).1
    have hval : ∀ r < 3, info.rel[(i * umax.sum + jj) * 3 + r]?
        = [vec i x 0, vec i x 1, vec i x 2][r]? := by
      intro r hr3
      have e1 : (i * umax.sum + jj) * 3 + r = i * (umax.sum * 3) + (jj * 3 + r) := by ring
      rw [e1, ← flatRow_get _ _ _ _ (by omega), r2, List.getElem?_append_left,
        flatMap_uniform_get _ _ 3 (fun y _ => rfl) _ _ x hx hr3]
      · rw [flatMap_uniform_length _ _ 3 (fun y _ => rfl)]; omega
    refine ⟨?_, ?_, ?_⟩
    · simpa using hval 0 (by omega)
    · simpa using hval 1 (by omega)
    · simpa using hval 2 (by omega)
  · intro i hi
    obtain ⟨imgs, hI, hn⟩ := hget i hi
    have := hroom i imgs hI
    rw [hn, List.map_map, ← roomFor_map (fun _ => ()), List.map_map]
    exact this

/-! ## Near the cutoff -/

section

variable {rcut rs δ d : ℝ} {w : Vec ℝ}

theorem switch_edge (h : rs < rcut) {r : ℝ} (h1 : rcut - δ ≤ r) (h2 : r ≤ rcut) :
    |cSwitch rcut rs r| ≤ 2 / (rcut - rs) * δ ∧ |cSwitchDeriv rcut rs r| ≤ 15 / (rcut - rs) ^ 2 * δ := by
  have hp : 0 < rcut - rs := sub_pos.2 h
  have ha : |r - rcut| ≤ δ := abs_le.2 ⟨by linarith, by linarith⟩
  constructor
  · have := cSwitch_lip h r rcut
    rw [cSwitch_hi h le_rfl, sub_zero] at this
    exact this.trans (mul_le_mul_of_nonneg_left ha (by positivity))
  · have := cSwitchDeriv_lip h r rcut
    have e : cSwitchDeriv rcut rs rcut = 0 := by
      unfold cSwitchDeriv; simp only
      rw [if_neg (by linarith), if_neg (by rintro ⟨_, h3⟩; linarith)]
    rw [e, sub_zero] at this
    exact this.trans (mul_le_mul_of_nonneg_left ha (by positivity))

/-- An exact row within `δ` of the cutoff is small. -/
theorem row_edge (h : rs < rcut) (hδ : 0 ≤ δ) (hd : 0 < d) (hw : d ≤ norm3 w) (h1 : rcut - δ ≤ norm3 w)
    (h2 : norm3 w ≤ rcut) (a : Fin 4) :
    |cEnvRow rcut rs w a| ≤ 32 * δ * (1 / (rcut - rs) + 1 / d) / d := by
  have hp : 0 < rcut - rs := sub_pos.2 h
  have hr : 0 < norm3 w := hd.trans_le hw
  have hs := (switch_edge h h1 h2).1
  have hqd : 1 / norm3 w ≤ 1 / d := one_div_le_one_div_of_le hd hw
  have hq0 : 0 < 1 / norm3 w := by positivity
  have hsm : |1 / norm3 w * cSwitch rcut rs (norm3 w)| ≤ 32 * δ * (1 / (rcut - rs) + 1 / d) / d := by
    rw [abs_mul, abs_of_pos hq0]
    have e1 : 1 / norm3 w * |cSwitch rcut rs (norm3 w)| ≤ 1 / d * (2 / (rcut - rs) * δ) :=
      mul_le_mul hqd hs (abs_nonneg _) (by positivity)
    refine e1.trans ?_
    have e2 : 32 * δ * (1 / (rcut - rs) + 1 / d) / d
        = 1 / d * (2 / (rcut - rs) * δ) + 1 / d * (30 * δ * (1 / (rcut - rs)) + 32 * δ * (1 / d)) := by ring
    rw [e2]
    have : 0 ≤ 1 / d * (30 * δ * (1 / (rcut - rs)) + 32 * δ * (1 / d)) := by positivity
    linarith
  have hd' : Real.sqrt (w 0 ^ 2 + w 1 ^ 2 + w 2 ^ 2) = norm3 w := rfl
  have hq : cRecip (norm3 w) = 1 / norm3 w := by rw [cRecip_eq, one_div]
  have hs' : cSmooth rcut rs (norm3 w) = 1 / norm3 w * cSwitch rcut rs (norm3 w) := by rw [cSmooth_eq, one_div]
  have comp : ∀ p, |1 / norm3 w * cSwitch rcut rs (norm3 w) * (1 / norm3 w) * w p|
      ≤ 32 * δ * (1 / (rcut - rs) + 1 / d) / d := by
    intro p
    refine le_trans ?_ hsm
    rw [mul_assoc, abs_mul]
    have : |1 / norm3 w * w p| ≤ 1 := by
      rw [abs_mul, abs_of_pos hq0, one_div, inv_mul_le_iff₀ hr, mul_one]
      exact abs_le_norm3 w p
    exact mul_le_of_le_one_right (abs_nonneg _) this
  unfold cEnvRow
  simp only [hd', hq, hs']
  fin_cases a
  · exact hsm
  · exact comp 0
  · exact comp 1
  · exact comp 2

/-- So is an exact derivative block. -/
theorem deriv_edge (h : rs < rcut) (hδ : 0 ≤ δ) (hd : 0 < d) (hw : d ≤ norm3 w) (h1 : rcut - δ ≤ norm3 w)
    (h2 : norm3 w ≤ rcut) (a : Fin 4) (b : Fin 3) :
    |cEnvDeriv rcut rs w a b| ≤ 256 * δ * (1 / (rcut - rs) + 1 / d) ^ 2 / d := by
  have hp : 0 < rcut - rs := sub_pos.2 h
  have hr : 0 < norm3 w := hd.trans_le hw
  obtain ⟨hs, hD⟩ := switch_edge h h1 h2
  have hqd : 1 / norm3 w ≤ 1 / d := one_div_le_one_div_of_le hd hw
  have hq0 : 0 < 1 / norm3 w := by positivity
  have hd' : Real.sqrt (w 0 ^ 2 + w 1 ^ 2 + w 2 ^ 2) = norm3 w := rfl
  have hq : cRecip (norm3 w) = 1 / norm3 w := by rw [cRecip_eq, one_div]
  have hu : ∀ p, |1 / norm3 w * w p| ≤ 1 := by
    intro p
    rw [abs_mul, abs_of_pos hq0, one_div, inv_mul_le_iff₀ hr, mul_one]
    exact abs_le_norm3 w p
  unfold cEnvDeriv
  simp only [hd', hq]
  generalize cSwitch rcut rs (norm3 w) = S at *
  generalize cSwitchDeriv rcut rs (norm3 w) = D at *
  generalize 1 / norm3 w = q at *
  set y : Fin 3 → ℝ := fun p => q * w p with hy
  have key : ∀ X Y : ℝ, |X| ≤ 1 → |Y| ≤ 3 →
      |q * D * X + q ^ 2 * S * Y| ≤ 256 * δ * (1 / (rcut - rs) + 1 / d) ^ 2 / d := by
    intro X Y hX hY
    have t1 : |q * D * X| ≤ 1 / d * (15 / (rcut - rs) ^ 2 * δ) := by
      rw [abs_mul, abs_mul, abs_of_pos hq0]
      calc q * |D| * |X| ≤ q * |D| * 1 := mul_le_mul_of_nonneg_left hX (by positivity)
        _ = q * |D| := mul_one _
        _ ≤ _ := mul_le_mul hqd hD (abs_nonneg _) (by positivity)
    have t2 : |q ^ 2 * S * Y| ≤ (1 / d) ^ 2 * (2 / (rcut - rs) * δ) * 3 := by
      rw [abs_mul, abs_mul, abs_of_pos (pow_pos hq0 2)]
      have : q ^ 2 ≤ (1 / d) ^ 2 := pow_le_pow_left₀ hq0.le hqd 2
      have t3 : q ^ 2 * |S| ≤ (1 / d) ^ 2 * (2 / (rcut - rs) * δ) :=
        mul_le_mul this hs (abs_nonneg _) (by positivity)
      exact mul_le_mul t3 hY (abs_nonneg _) (by positivity)
    have t4 := abs_add_le (q * D * X) (q ^ 2 * S * Y)
    have e15 : 15 / (rcut - rs) ^ 2 = 15 * (1 / (rcut - rs)) ^ 2 := by field_simp
    rw [e15] at t1
    have e : 256 * δ * (1 / (rcut - rs) + 1 / d) ^ 2 / d
        = 1 / d * (15 * (1 / (rcut - rs)) ^ 2 * δ) + (1 / d) ^ 2 * (2 / (rcut - rs) * δ) * 3
          + 1 / d * δ * (241 * (1 / (rcut - rs)) ^ 2 + 506 * (1 / d * (1 / (rcut - rs))) + 256 * (1 / d) ^ 2) := by
      ring
    rw [e]
    have : 0 ≤ 1 / d * δ * (241 * (1 / (rcut - rs)) ^ 2 + 506 * (1 / d * (1 / (rcut - rs))) + 256 * (1 / d) ^ 2) := by
      positivity
    linarith
  have m : ∀ p p', |y p * y p'| ≤ 1 := by
    intro p p'
    rw [abs_mul]
    exact mul_le_one₀ (hu p) (abs_nonneg _) (hu p')
  have E0 : ∀ p, |q ^ 2 * D * w p - q ^ 3 * S * w p| ≤ 256 * δ * (1 / (rcut - rs) + 1 / d) ^ 2 / d := by
    intro p
    have e : q ^ 2 * D * w p - q ^ 3 * S * w p = q * D * y p + q ^ 2 * S * (-y p) := by rw [hy]; ring
    rw [e]
    exact key _ _ (hu p) (by rw [abs_neg]; exact (hu p).trans (by norm_num))
  have ED : ∀ p, |q ^ 3 * D * w p ^ 2 + q ^ 2 * S - 2 * q ^ 4 * S * w p ^ 2|
      ≤ 256 * δ * (1 / (rcut - rs) + 1 / d) ^ 2 / d := by
    intro p
    have e : q ^ 3 * D * w p ^ 2 + q ^ 2 * S - 2 * q ^ 4 * S * w p ^ 2
        = q * D * (y p * y p) + q ^ 2 * S * (1 - 2 * (y p * y p)) := by rw [hy]; ring
    rw [e]
    have := abs_le.1 (m p p)
    exact key _ _ (m p p) (abs_le.2 ⟨by linarith, by linarith⟩)
  have EO : ∀ p p', |q ^ 3 * D * w p * w p' - 2 * q ^ 4 * S * w p * w p'|
      ≤ 256 * δ * (1 / (rcut - rs) + 1 / d) ^ 2 / d := by
    intro p p'
    have e : q ^ 3 * D * w p * w p' - 2 * q ^ 4 * S * w p * w p'
        = q * D * (y p * y p') + q ^ 2 * S * (-2 * (y p * y p')) := by rw [hy]; ring
    rw [e]
    have := abs_le.1 (m p p')
    exact key _ _ (m p p') (abs_le.2 ⟨by linarith, by linarith⟩)
  fin_cases a <;> fin_cases b
  · exact E0 0
  · exact E0 1
  · exact E0 2
  · exact ED 0
  · exact EO 0 1
  · exact EO 0 2
  · exact EO 1 0
  · exact ED 1
  · exact EO 1 2
  · exact EO 2 0
  · exact EO 2 1
  · exact ED 2

end

/-! ## The whole way -/

theorem env_double (A : ArgSort) (L : Fin 3 → Vec ℝ) (atoms : List (ℤ × Vec ℝ)) (rcut rs d : ℝ)
    (pbc : Fin 3 → Bool) (sort : Bool) (hok : CellOkD L atoms pbc rcut) (hrc : flR rcut = rcut)
    (hdbl : ∀ a ∈ atoms, ∀ p, flR (a.2 p) = a.2 p) (hap : FarImages L (atoms.map Prod.snd) d)
    (hd : 1 / 20 ≤ d) (htd : 64 * nbrTol L rcut ≤ d) (hlt : 64 * nbrTol L rcut ≤ rcut - rs)
    (umax : List ℕ) (hty : ∀ a ∈ atoms, 0 ≤ a.1 ∧ a.1 < umax.length)
    (hroom : ∀ (i : ℕ) (c : ℤ × Vec ℝ), atoms[i]? = some c → ∀ (t m : ℕ), umax[t]? = some m →
      ∀ l : List (ℕ × (Fin 3 → ℤ)), l.Nodup →
        (∀ e ∈ l, NearBy L pbc (atoms.map Prod.snd) (rcut + nbrTol L rcut) c.2 e ∧
          e ≠ (i, 0) ∧ (atoms[e.1]?).map Prod.fst = some (t : ℤ)) → l.length ≤ m) :
    ∃ N info out, NbrLists.makeD flR A (CStruct.makeD flR L atoms true) rcut pbc sort = .ok N ∧
      N.findInfoD flR umax.sum = .ok info ∧
      envFindD flR ⟨info.inum, info.numneigh.map (fun k : ℕ => (k : ℤ)), info.firstneigh, info.types,
        umax.map (fun m : ℕ => (m : ℤ))⟩ info.rel rcut rs = .ok out ∧
      ∀ (i : ℕ) (c : ℤ × Vec ℝ), atoms[i]? = some c → ∃ imgs : List (ℕ × (Fin 3 → ℤ)), imgs.Nodup ∧
        (∀ e ∈ imgs, NearBy L pbc (atoms.map Prod.snd) (rcut + nbrTol L rcut) c.2 e ∧ e ≠ (i, 0)) ∧
        (∀ e, NearBy L pbc (atoms.map Prod.snd) (rcut - nbrTol L rcut) c.2 e → e ≠ (i, 0) → e ∈ imgs) ∧
        (∀ e, NearBy L pbc (atoms.map Prod.snd) rcut c.2 e → e ≠ (i, 0) → e ∉ imgs →
          ∀ x, (atoms.map Prod.snd)[e.1]? = some x →
            (∀ a, |cEnvRow rcut rs (imagePos L x e.2 - c.2) a| ≤ envTol L rcut rs d) ∧
            ∀ a b, |cEnvDeriv rcut rs (imagePos L x e.2 - c.2) a b| ≤ envDerivTol L rcut rs d) ∧
        ∃ val : ℕ × (Fin 3 → ℤ) → (Fin 4 → ℝ) × Matrix (Fin 4) (Fin 3) ℝ,
          (∀ e ∈ imgs, ∀ x, (atoms.map Prod.snd)[e.1]? = some x → 0 < norm3 (imagePos L x e.2 - c.2) ∧
            (∀ a, |(val e).1 a - cEnvRow rcut rs (imagePos L x e.2 - c.2) a| ≤ envTol L rcut rs d) ∧
            ∀ a b, |(val e).2 a b - cEnvDeriv rcut rs (imagePos L x e.2 - c.2) a b|
              ≤ envDerivTol L rcut rs d) ∧
          flatRow out umax.sum i = typeBlocks (0, 0) umax
            (imgs.map (fun e => (((atoms.map Prod.fst)[e.1]?).getD 0, val e))) := by
  obtain ⟨N, I, h1, h2, h3, h4, h5⟩ := nbr_double_core L atoms pbc rcut hok A sort hrc hdbl
    (fun i j p q t hi hj hne => hd.trans (hap i j p q t hi hj hne))
  obtain ⟨ht1, _, ht3, ht4⟩ := tol_bounds L atoms pbc rcut hok
  have hu := uR_pos
  have hut := mul_pos hu ht3
  have htol : 0 < nbrTol L rcut := by linarith
  have hd0 : 0 < d := by linarith
  have hrs : rs < rcut := by linarith
  set ty : ℕ → ℤ := fun k => ((atoms.map Prod.fst)[k]?).getD 0 with hty'
  have hcI : ∀ (i : ℕ) (imgs : List (ℕ × (Fin 3 → ℤ))), I[i]? = some imgs → ∃ c, atoms[i]? = some c := by
    intro i imgs hi
    have : i < atoms.length := by rw [← h3]; exact (List.getElem?_eq_some_iff.1 hi).1
    exact ⟨_, List.getElem?_eq_getElem this⟩
  have hatom : ∀ (i : ℕ) (imgs : List (ℕ × (Fin 3 → ℤ))), I[i]? = some imgs → ∀ e ∈ imgs,
      ∃ a, atoms[e.1]? = some a ∧ a ∈ atoms := by
    intro i imgs hi e he
    obtain ⟨c, hc⟩ := hcI i imgs hi
    obtain ⟨⟨_, p, hp, _⟩, _⟩ := (h4 i c imgs hc hi).2.1 e he
    rw [List.getElem?_map] at hp
    obtain ⟨a, ha, _⟩ := Option.map_eq_some_iff.1 hp
    exact ⟨a, ha, List.mem_of_getElem? ha⟩
  have htyv : ∀ (k : ℕ) (a : ℤ × Vec ℝ), atoms[k]? = some a → ty k = a.1 := by
    intro k a ha
    simp only [hty', List.getElem?_map, ha, Option.map_some, Option.getD_some]
  have hroomI : ∀ (i : ℕ) (imgs : List (ℕ × (Fin 3 → ℤ))), I[i]? = some imgs →
      RoomFor umax (imgs.map (fun e => (ty e.1, ()))) := by
    intro i imgs hi
    obtain ⟨c, hc⟩ := hcI i imgs hi
    refine ⟨?_, ?_⟩
    · intro q hq
      obtain ⟨e, he, rfl⟩ := List.mem_map.1 hq
      obtain ⟨a, ha, ham⟩ := hatom i imgs hi e he
      simp only [htyv _ _ ha]
      exact hty a ham
    · intro t m hm
      obtain ⟨g2, g3, _⟩ := h4 i c imgs hc hi
      rw [List.countP_map, List.countP_eq_length_filter]
      refine hroom i c hc t m hm _ (g2.filter _) ?_
      intro e he
      rw [List.mem_filter] at he
      obtain ⟨a, ha, _⟩ := hatom i imgs hi e he.1
      refine ⟨(g3 e he.1).1, (g3 e he.1).2, ?_⟩
      have := he.2
      simp only [Function.comp, htyv _ _ ha, decide_eq_true_eq] at this
      rw [ha, Option.map_some, this]
  have hlen : ∀ imgs ∈ I, imgs.length ≤ umax.sum := by
    intro imgs hm
    obtain ⟨i, hi⟩ := List.mem_iff_getElem?.1 hm
    have := room_length umax _ (hroomI i imgs hi)
    rwa [List.length_map] at this
  obtain ⟨info, f1, f2, _, f4, f5, f6⟩ := h5 umax.sum hlen
  set vec : ℕ → ℕ × (Fin 3 → ℤ) → Vec ℝ := fun i e =>
    match atoms[i]? with
    | some c => relVecD L atoms c.2 e
    | none => 0 with hvec
  obtain ⟨out, o1, o2⟩ := env_fill ((0 : Fin 4 → ℝ), (0 : Matrix (Fin 4) (Fin 3) ℝ))
    (fun v => (envRowD flR rcut rs v, envDerivD flR rcut rs v)) atoms umax I h3 info vec ty
    (by
      intro i imgs hi e he
      obtain ⟨a, ha, _⟩ := hatom i imgs hi e he
      rw [htyv _ _ ha, List.getElem?_map, ha]; rfl)
    hroomI f2 f4 f5
    (by
      intro i imgs hi
      obtain ⟨c, hc⟩ := hcI i imgs hi
      obtain ⟨r1, r2⟩ := f6 i c imgs hc hi
      refine ⟨hlen imgs (List.mem_of_getElem? hi), r1, ?_⟩
      rw [r2]
      simp only [hvec, hc])
  refine ⟨N, info, out, h1, f1, o1, ?_⟩
  intro i c hc
  have hi : i < I.length := by rw [h3]; exact (List.getElem?_eq_some_iff.1 hc).1
  have hImg := List.getElem?_eq_getElem hi
  obtain ⟨g1, g2, g3, _, g5⟩ := h4 i c _ hc hImg
  have hci : (atoms.map Prod.snd)[i]? = some c.2 := by rw [List.getElem?_map, hc]; rfl
  have hdn : ∀ x (t : Fin 3 → ℤ), dist3 (imagePos L x t) c.2 = norm3 (imagePos L x t - c.2) := by
    intro x t
    rw [dist3, norm3, Fin.sum_univ_three]; rfl
  refine ⟨I[i], g1, g2, g3, ?_, fun e => (envRowD flR rcut rs (vec i e), envDerivD flR rcut rs (vec i e)), ?_, ?_⟩
  · intro e hn hne hnot x hx
    have k1 : ¬ NearBy L pbc (atoms.map Prod.snd) (rcut - nbrTol L rcut) c.2 e := fun hc' => hnot (g3 e hc' hne)
    have k2 : dist3 (imagePos L x e.2) c.2 < rcut := by
      obtain ⟨_, p, hp, hlt'⟩ := hn
      rw [hx] at hp; cases hp
      exact hlt'
    have k3 : rcut - nbrTol L rcut ≤ dist3 (imagePos L x e.2) c.2 := by
      by_contra hcon
      exact k1 ⟨hn.1, x, hx, not_le.1 hcon⟩
    have k4 : d ≤ dist3 (imagePos L x e.2) c.2 := hap i e.1 c.2 x e.2 hci hx hne
    rw [hdn] at k2 k3 k4
    exact ⟨row_edge hrs htol.le hd0 k4 k3 k2.le, deriv_edge hrs htol.le hd0 k4 k3 k2.le⟩
  · intro e he x hx
    obtain ⟨⟨_, p, hp, hlt'⟩, hne⟩ := g2 e he
    rw [hx] at hp; cases hp
    have k4 : d ≤ dist3 (imagePos L x e.2) c.2 := hap i e.1 c.2 x e.2 hci hx hne
    rw [hdn] at k4 hlt'
    have hcl : CloseVec rcut rs (nbrTol L rcut) d (vec i e) (imagePos L x e.2 - c.2) := by
      refine ⟨hrs, hd0, k4, ?_, htd, hlt, ?_⟩
      · intro p
        have := g5 e he x hx p
        simp only [hvec, hc]
        exact this
      · have s1 : norm3 (imagePos L x e.2 - c.2) ≤ 2 * scaleOf L rcut := by
          have hsm : nbrTol L rcut ≤ scaleOf L rcut := by
            obtain ⟨_, e2, _⟩ := tol_bounds L atoms pbc rcut hok
            rw [e2]
            have a1 := hok.skew_le
            have a2 : skewOf L * scaleOf L rcut ≤ 4096 * scaleOf L rcut := mul_le_mul_of_nonneg_right a1 ht3.le
            have a3 : uR * (skewOf L * scaleOf L rcut) ≤ uR * (4096 * scaleOf L rcut) :=
              mul_le_mul_of_nonneg_left a2 hu.le
            rw [uR_eq] at a3 ⊢
            linarith
          linarith
        have s2 := mul_le_mul_of_nonneg_left s1 hu.le
        linarith
    refine ⟨hd0.trans_le k4, ?_, ?_⟩
    · intro a
      have := hcl.row a
      have e1 : 32 * (unitOf rcut rs (nbrTol L rcut) d * (1 / d)) = envTol L rcut rs d := by
        unfold unitOf envTol; ring
      rwa [e1] at this
    · intro a b
      have := hcl.deriv a b
      have e1 : 256 * (unitOf rcut rs (nbrTol L rcut) d * (1 / d * (1 / (rcut - rs) + 1 / d)))
          = envDerivTol L rcut rs d := by
        unfold unitOf envDerivTol; ring
      rwa [e1] at this
  · exact o2 i _ hImg

end MaterSDK
