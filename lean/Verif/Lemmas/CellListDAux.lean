import Verif.Lemmas.CellListDMain
import Verif.Lemmas.CellListAux
import Mathlib.Tactic.FinCases

/-! # Examples for the neighbour list in doubles -/

namespace MaterSDK

open Classical Matrix

/-! ### The cubic cell of edge 1 -/

theorem flR_one : flR 1 = 1 := by simpa using flR_int 1 (by norm_num)

theorem flR_neg_one : flR (-1) = -1 := by rw [flR_neg, flR_one]

theorem flR_three : flR 3 = 3 := by simpa using flR_int 3 (by norm_num)

theorem flR_two : flR 2 = 2 := by simpa using flR_int 2 (by norm_num)

theorem flR_six : flR 6 = 6 := by simpa using flR_int 6 (by norm_num)

theorem flR_half : flR (1 / 2) = 1 / 2 := by
  have := flR_two_zpow (-1)
  norm_num at this
  norm_num
  exact this

/-- The largest double below 1. -/
noncomputable def belowOne : ℝ := 1 - 1 / 2 ^ 53

theorem flR_belowOne : flR belowOne = belowOne := by
  have h := flR_int_mul (2 ^ 53 - 1) (by norm_num) (-53)
  have e : (((2 ^ 53 - 1 : ℤ) : ℝ)) * (2 : ℝ) ^ (-53 : ℤ) = belowOne := by
    unfold belowOne
    rw [zpow_neg]
    norm_num
  rwa [e] at h

/-- Adding 1 to it gives 2. -/
theorem flR_belowOne_add : flR (belowOne + 1) = 2 := by
  have e : belowOne + 1 = (((2 - 1 / 2 ^ 53 : ℚ)) : ℝ) := by
    unfold belowOne; push_cast; ring
  rw [e, flR_cast]
  have : fl (2 - 1 / 2 ^ 53) = 2 := by decide +kernel
  rw [this]
  norm_num

theorem cube_one_interplanarD (o : Vec ℝ) (atoms : List (ℤ × Vec ℝ)) (i : Fin 3) :
    (CStruct.mk (cube 1) o atoms).interplanarD flR i = 1 := by
  fin_cases i <;>
    simp [CStruct.interplanarD, dDot, dCross, dNormalize, cube, flR_zero, flR_one, flR_neg_one]

theorem cube_one_scalingD (o : Vec ℝ) (atoms : List (ℤ × Vec ℝ)) :
    binScalingD flR (CStruct.mk (cube 1) o atoms) 1 (fun _ => true) = fun _ => 3 := by
  funext p
  unfold binScalingD
  rw [cube_one_interplanarD]
  simp [flR_one]

theorem cube_one_projectedD (o : Vec ℝ) (atoms : List (ℤ × Vec ℝ)) (p : Fin 3) :
    ((CStruct.mk (cube 1) o atoms).makeSupercellD flR (fun _ => 3)).projectedD flR p = 3 := by
  fin_cases p <;>
    simp [CStruct.makeSupercellD, CStruct.projectedD, cube, flR_zero, flR_three]

theorem cube_one_minLimitD (o : Vec ℝ) (atoms : List (ℤ × Vec ℝ)) (p : Fin 3) :
    ((CStruct.mk (cube 1) o atoms).makeSupercellD flR (fun _ => 3)).minLimitD flR p = -1 := by
  have hlo : superLo 3 = -1 := by decide
  have hv : ∀ t : Fin 3 → ℤ, (∀ i, 0 ≤ t i ∧ t i ≤ 1) →
      flR (((CStruct.mk (cube 1) o atoms).makeSupercellD flR (fun _ => 3)).origin p +
        flR (flR (flR (t 0 * ((CStruct.mk (cube 1) o atoms).makeSupercellD flR (fun _ => 3)).basis 0 p) +
          flR (t 1 * ((CStruct.mk (cube 1) o atoms).makeSupercellD flR (fun _ => 3)).basis 1 p)) +
          flR (t 2 * ((CStruct.mk (cube 1) o atoms).makeSupercellD flR (fun _ => 3)).basis 2 p)))
      = -1 + 3 * t p := by
    intro t ht
    have h3 : ∀ i, flR ((t i : ℝ) * 3) = t i * 3 := by
      intro i
      obtain ⟨a, b⟩ := ht i
      have : t i = 0 ∨ t i = 1 := by omega
      rcases this with h | h <;> rw [h] <;> norm_num [flR_zero, flR_three]
    have h4 : ∀ i, flR (-1 + (t i : ℝ) * 3) = -1 + 3 * t i := by
      intro i
      obtain ⟨a, b⟩ := ht i
      have : t i = 0 ∨ t i = 1 := by omega
      rcases this with h | h <;> rw [h] <;> norm_num [flR_neg_one, flR_two]
    fin_cases p <;>
      simp [CStruct.makeSupercellD, cube, hlo, flR_zero, flR_three, flR_neg_one, h3, h4]
  obtain ⟨h1, w, hw, h2⟩ := minLimitD_spec flR ((CStruct.mk (cube 1) o atoms).makeSupercellD flR (fun _ => 3)) p
  apply le_antisymm
  · have := h1 _ (List.mem_map.2 ⟨fun _ => 0, mem_cRange3.2 (fun i => ⟨le_rfl, zero_le_one⟩), rfl⟩)
    refine this.trans (le_of_eq ?_)
    have e := hv (fun _ => 0) (fun i => ⟨le_rfl, zero_le_one⟩)
    simpa using e
  · rw [h2]
    obtain ⟨t, ht, rfl⟩ := List.mem_map.1 hw
    have ht' : ∀ i, 0 ≤ t i ∧ t i ≤ 1 := fun i => mem_cRange3.1 ht i
    have e := hv t ht'
    have h0 : (0 : ℝ) ≤ t p := by exact_mod_cast (ht' p).1
    refine le_trans ?_ (le_of_eq e.symm)
    linarith

/-- In doubles the list of the cubic cell of edge 1 with an atom right below its upper face writes outside
its array of bins. -/
theorem belowOne_oob (A : ArgSort) (sort : Bool) :
    NbrLists.makeD flR A (CStruct.makeD flR (cube 1) [(1, ![0, 0, belowOne])] true) 1 (fun _ => true) sort
      = .error .outOfBounds := by
  have hs : CStruct.makeD flR (cube 1) [(1, ![0, 0, belowOne])] true
      = CStruct.mk (cube 1) 0 [(1, ![0, 0, belowOne])] := rfl
  rw [hs]
  unfold NbrLists.makeD BinList.makeD
  rw [if_neg (by simp), if_neg (not_not.2 ⟨one_pos, fun _ => by rw [flR_half]; norm_num,
    fun i => by rw [cube_one_interplanarD]; exact one_pos⟩)]
  have e2 : (CSupercell.makeD flR (CStruct.mk (cube 1) 0 [(1, ![0, 0, belowOne])])
      (binScalingD flR (CStruct.mk (cube 1) 0 [(1, ![0, 0, belowOne])]) 1 (fun _ => true))).struct
      = (CStruct.mk (cube 1) 0 [(1, ![0, 0, belowOne])]).makeSupercellD flR (fun _ => 3) := by
    rw [cube_one_scalingD]; rfl
  have hnb : ∀ p, ⌈flR (((CStruct.mk (cube 1) 0 [(1, ![0, 0, belowOne])]).makeSupercellD flR
      (fun _ => 3)).projectedD flR p / flR (1 / 2))⌉ = 6 := by
    intro p
    rw [cube_one_projectedD, flR_half]
    norm_num [flR_six]
  simp only [e2, hnb]
  rw [fillBins_oob]
  · rfl
  · simp
  · refine ⟨_, List.mem_map_of_mem (a := ((1 : ℤ), (![0, 0, 2] : Vec ℝ))) ?_, Or.inr ?_⟩
    · rw [superAtomsD_eq, List.mem_flatMap]
      refine ⟨![0, 0, 1], (mem_superShifts_odd (fun _ => 1) _).2 (fun i => by fin_cases i <;> simp), ?_⟩
      rw [List.mem_map]
      refine ⟨(1, ![0, 0, belowOne]), by simp, ?_⟩
      refine Prod.ext rfl ?_
      funext p
      show imagePosD flR (cube 1) ![0, 0, belowOne] _ p = _
      fin_cases p <;> simp [imagePosD, cube, flR_zero, flR_one, flR_belowOne, flR_belowOne_add]
    · have hb : ∀ p, binIdxD flR (((CStruct.mk (cube 1) 0 [(1, ![0, 0, belowOne])]).makeSupercellD flR
          (fun _ => 3)).minLimitD flR) (fun _ => flR (1 / 2)) ![0, 0, 2] p = (![2, 2, 6] : Fin 3 → ℤ) p := by
        intro p
        unfold binIdxD
        rw [cube_one_minLimitD, flR_half]
        fin_cases p
        · norm_num [flR_one, flR_two]
        · norm_num [flR_one, flR_two]
        · norm_num [flR_three, flR_six]
      simp only [linIdx, hb]
      rw [List.length_replicate]
      decide

/-! ### The oblique example -/

theorem exL_sum1 : sum1 (exL 0) = 4 ∧ sum1 (exL 1) = 6 ∧ sum1 (exL 2) = 6 := by
  refine ⟨?_, ?_, ?_⟩ <;> simp [sum1, exL]; norm_num

theorem exL_det : (Matrix.of exL).det = 120 := by
  simp [Matrix.det_fin_three, exL]
  norm_num

theorem exL_skew : skewOf exL = 6 / 5 := by
  obtain ⟨a, b, c⟩ := exL_sum1
  unfold skewOf
  rw [a, b, c, exL_det]
  norm_num

theorem exL_plane (i : Fin 3) : 3 ≤ planeDist (Matrix.of exL) i := by
  unfold planeDist
  rw [exL_det, abs_of_pos (by norm_num)]
  have key : ∀ v : Vec ℝ, 0 < v 0 ^ 2 + v 1 ^ 2 + v 2 ^ 2 → v 0 ^ 2 + v 1 ^ 2 + v 2 ^ 2 ≤ 1600 →
      3 ≤ 120 / dist3 v 0 := by
    intro v h0 h1
    have hsq : dist3 v 0 ^ 2 = v 0 ^ 2 + v 1 ^ 2 + v 2 ^ 2 := by rw [dist3_sq_comp]; simp
    have hn : 0 ≤ dist3 v 0 := Real.sqrt_nonneg _
    have hp : 0 < dist3 v 0 := by
      rcases hn.eq_or_lt with h | h
      · rw [← h] at hsq; norm_num at hsq; linarith
      · exact h
    rw [le_div_iff₀ hp]
    nlinarith
  apply key <;> fin_cases i <;> simp [exL, crossProduct] <;> norm_num

theorem exL_scale : scaleOf exL 3 ≤ 99 ∧ 0 ≤ scaleOf exL 3 := by
  obtain ⟨a, b, c⟩ := exL_sum1
  have h : ∀ i, 3 / planeDist (Matrix.of exL) i ≤ 1 ∧ 0 ≤ 3 / planeDist (Matrix.of exL) i := by
    intro i
    have := exL_plane i
    exact ⟨(div_le_one (by linarith)).2 this, by apply div_nonneg <;> linarith⟩
  have h0 := h 0
  have h1 := h 1
  have h2 := h 2
  unfold scaleOf
  rw [Fin.sum_univ_three, a, b, c]
  constructor <;> linarith [h0.1, h0.2, h1.1, h1.2, h2.1, h2.2]

theorem exL_tol : 0 ≤ nbrTol exL 3 ∧ nbrTol exL 3 ≤ 1 / 10 ^ 11 := by
  obtain ⟨a, b⟩ := exL_scale
  unfold nbrTol
  rw [exL_skew]
  constructor
  · positivity
  · rw [div_le_iff₀ (by positivity)]
    norm_num
    linarith

theorem exL_okD (pbc : Fin 3 → Bool) (h : pbc = (fun _ => true) ∨ pbc = ![true, true, false]) :
    CellOkD exL exAtoms pbc 3 := by
  obtain ⟨a, b⟩ := exL_tol
  refine ⟨exL_ok pbc h, by norm_num, by rw [exL_skew]; norm_num, exL_scale.1.trans (by norm_num), ?_, ?_⟩
  · intro i
    have := exL_plane i
    linarith
  · have hnn : ∀ i p, 0 ≤ exL i p := by
      intro i p
      fin_cases i <;> fin_cases p <;> simp [exL]
    have hsum : ∀ p, ∑ i, max 0 (exL i p) = (![5, 5, 6] : Vec ℝ) p := by
      intro p
      simp only [max_eq_right (hnn _ _), Fin.sum_univ_three]
      fin_cases p <;> simp [exL]
      norm_num
    intro c hc p
    rw [hsum]
    simp only [exAtoms, List.mem_cons, List.not_mem_nil, or_false] at hc
    have hb : nbrTol exL 3 ≤ 1 := b.trans (by norm_num)
    rcases hc with rfl | rfl
    · refine ⟨?_, Or.inr ⟨fun i => hnn i p, ?_⟩⟩
      · fin_cases p <;> norm_num <;> linarith
      · fin_cases p <;> norm_num
    · refine ⟨?_, Or.inr ⟨fun i => hnn i p, ?_⟩⟩
      · fin_cases p <;> norm_num <;> linarith
      · fin_cases p <;> norm_num

theorem exAtoms_double : ∀ a ∈ exAtoms, ∀ p, flR (a.2 p) = a.2 p := by
  intro a ha p
  simp only [exAtoms, List.mem_cons, List.not_mem_nil, or_false] at ha
  rcases ha with rfl | rfl <;> fin_cases p <;> simp [flR_zero, flR_one, flR_two]

theorem exL_farD : FarImages exL (exAtoms.map Prod.snd) (1 / 20) := by
  intro i j p q t hi hj hne
  have h := exL_far i j p q t hi hj hne
  have hn : 0 ≤ dist3 (imagePos exL q t) p := Real.sqrt_nonneg _
  nlinarith

end MaterSDK
