import Verif.Lemmas.SlotDeriv
import Verif.Lemmas.Se4pwForces
import Verif.Lemmas.EnvInterior
import Verif.Props.EnvSmooth

/-! # C194 to C196: the tables of `Se4pw` give forces that sum to zero, and the virial -/

namespace MaterSDK

open Classical

/-- C194: the calls succeed. -/
theorem C194_tables (A : ArgSort) (sort : Bool)
    (L : Fin 3 → Vec ℝ) {n : ℕ} (z : Fin n → ℤ) (umax : List ℕ) (hty : ∀ i, 0 ≤ z i ∧ z i < umax.length)
    (rcut rs : ℝ) (hr : 0 < rcut) :
    ∃ out idx, Se4pwTables A sort L z umax rcut rs (envPositions L z umax rcut) out idx := by
  have : ∀ x, ∃ o : List ((Fin 4 → ℝ) × Matrix (Fin 4) (Fin 3) ℝ × Vec ℝ) × List ℤ,
      x ∈ envPositions L z umax rcut → Se4pwTable A sort L z umax rcut rs x o.1 o.2 := by
    intro x
    by_cases hx : x ∈ envPositions L z umax rcut
    · obtain ⟨out, idx, h⟩ := se4pw_table A sort L z umax hty rcut rs hr x hx
      exact ⟨(out, idx), fun _ => h⟩
    · exact ⟨([], []), fun h => absurd h hx⟩
  choose o ho using this
  exact ⟨fun x => (o x).1, fun x => (o x).2, ho⟩

/-- C194: for a differentiable function `g` of environment rows, the sum of `g` over the slots of a type in the
table of rows, padding included, is a differentiable function of the positions of all atoms, and its derivative can
be read off the tables: a slot of centre `i` with derivative block `M` and index `j` contributes the derivative of
`g` at its row times `M` times the displacement of atom `i` minus that of atom `j`, padding (index `-1`) nothing. -/
theorem C194_forces {W : Type} [NormedAddCommGroup W] [NormedSpace ℝ W] (A : ArgSort) (sort : Bool)
    (L : Fin 3 → Vec ℝ) {n : ℕ} (z : Fin n → ℤ) (umax : List ℕ) (hty : ∀ i, 0 ≤ z i ∧ z i < umax.length)
    (rcut rs : ℝ) (hr : 0 < rcut) (hlt : rs < rcut) (out idx)
    (ht : Se4pwTables A sort L z umax rcut rs (envPositions L z umax rcut) out idx)
    (g : (Fin 4 → ℝ) → W) (g' : (Fin 4 → ℝ) → (Fin 4 → ℝ) →L[ℝ] W) (hg : ∀ y, HasFDerivAt g (g' y) y)
    (x : Fin n → Vec ℝ) (hx : x ∈ envPositions L z umax rcut) (i : Fin n) (k : Fin umax.length) :
    HasFDerivWithinAt (fun y => ((typeSlots umax k (flatRow (out y) umax.sum i)).map (fun s => g s.1)).sum)
      (((indexedSlots umax (out x) (idx x) i k).map (fun s => slotMove (g' s.1.1) s.1.2.1 i s.2)).sum)
      (envPositions L z umax rcut) x := by
  have hk : umax[(k : ℕ)]? = some umax[k] := by simp
  obtain ⟨imgs, a1, a2, a3, a4, a5⟩ := se4pw_slots A sort L z umax hty rcut rs hr x _ _ (ht x hx) hx i k _ hk
  have hd := slots_deriv A L z (envPositions L z umax rcut) (fun y hy => ⟨hy.1, hy.2.1⟩) rcut rs hr hlt i k _ g g' hg
    (fun y => ((typeSlots umax k (flatRow (out y) umax.sum i)).map (fun s => g s.1)).sum) (by
      intro y hy
      obtain ⟨J, j1, j2, j3, j4, _⟩ := se4pw_slots A sort L z umax hty rcut rs hr y _ _ (ht y hy) hy i k _ hk
      refine ⟨J, j1, j2, j3, ?_⟩
      beta_reduce
      rw [j4, List.map_append, List.sum_append, List.map_replicate, List.sum_replicate, List.map_map]
      rfl) x hx imgs a1 a2
  refine HasFDerivWithinAt.congr_fderiv hd ?_
  unfold indexedSlots
  rw [a4, a5, List.zip_append (by rw [List.length_map, List.length_map]), List.map_append, List.sum_append]
  have hpad : ∀ m : ℕ, (((List.replicate m ((0, 0, 0) : (Fin 4 → ℝ) × Matrix (Fin 4) (Fin 3) ℝ × Vec ℝ)).zip
      (List.replicate m (-1 : ℤ))).map (fun s => slotMove (g' s.1.1) s.1.2.1 i s.2)).sum = 0 := by
    intro m
    rw [List.zip_replicate, List.map_replicate, List.sum_replicate]
    simp [slotMove]
  rw [hpad, add_zero, List.zip_map', List.map_map]
  congr 1
  refine List.map_congr_left ?_
  intro e _
  have he : (0 : ℤ) ≤ ((e.1 : ℕ) : ℤ) ∧ ((e.1 : ℕ) : ℤ) < n := ⟨by positivity, by exact_mod_cast e.1.2⟩
  simp only [Function.comp, slotMove, dif_pos he, se4pwRel, se4pwDeriv_neg, relMove, Int.toNat_natCast]
  ext v
  simp [Matrix.mulVec_sub, Matrix.neg_mulVec]
  abel

/-- C195: an energy that is a differentiable function of such sums is a differentiable function of the positions of
all atoms, its slopes are the ones assembled from the tables, and they sum to zero over the atoms: the forces add
up to zero. -/
theorem C195_newton {W : Type} [NormedAddCommGroup W] [NormedSpace ℝ W] (A : ArgSort) (sort : Bool)
    (L : Fin 3 → Vec ℝ) {n : ℕ} (z : Fin n → ℤ) (umax : List ℕ) (hty : ∀ i, 0 ≤ z i ∧ z i < umax.length)
    (rcut rs : ℝ) (hr : 0 < rcut) (hlt : rs < rcut) (out idx)
    (ht : Se4pwTables A sort L z umax rcut rs (envPositions L z umax rcut) out idx)
    (g : Fin umax.length → (Fin 4 → ℝ) → W)
    (g' : Fin umax.length → (Fin 4 → ℝ) → (Fin 4 → ℝ) →L[ℝ] W) (hg : ∀ k y, HasFDerivAt (g k) (g' k y) y)
    (U : (Fin n → Fin umax.length → W) → ℝ)
    (U' : (Fin n → Fin umax.length → W) → (Fin n → Fin umax.length → W) →L[ℝ] ℝ)
    (hU : ∀ w, HasFDerivAt U (U' w) w)
    (x : Fin n → Vec ℝ) (hx : x ∈ envPositions L z umax rcut) :
    let sums := fun y : Fin n → Vec ℝ => fun (i : Fin n) (k : Fin umax.length) =>
      ((typeSlots umax k (flatRow (out y) umax.sum i)).map (fun s => g k s.1)).sum
    -- the derivative of the energy by a row of type `k` of centre `i`
    let d := fun (i : Fin n) (k : Fin umax.length) (row : Fin 4 → ℝ) =>
      (U' (sums x)).comp ((ContinuousLinearMap.single ℝ (fun _ : Fin n => Fin umax.length → W) i).comp
        ((ContinuousLinearMap.single ℝ (fun _ : Fin umax.length => W) k).comp (g' k row)))
    (∃ E' : (Fin n → Vec ℝ) →L[ℝ] ℝ,
      HasFDerivWithinAt (fun y => U (sums y)) E' (envPositions L z umax rcut) x ∧
      ∀ (j : Fin n) (v : Vec ℝ), E' (Pi.single j v) = tableGrad umax (out x) (idx x) d j v) ∧
    ∀ v, ∑ j, tableGrad umax (out x) (idx x) d j v = 0 := by
  intro sums d
  -- occupied slots carry the index of an atom, the others a zero block
  have hocc : ∀ (i : Fin n) (k : Fin umax.length), ∀ s ∈ indexedSlots umax (out x) (idx x) i k,
      (∃ a : Fin n, s.2 = ((a : ℕ) : ℤ)) ∨ (s.2 = -1 ∧ s.1.2.1 = 0) := by
    intro i k s hs
    have hk : umax[(k : ℕ)]? = some umax[k] := by simp
    obtain ⟨imgs, _, _, _, a4, a5⟩ := se4pw_slots A sort L z umax hty rcut rs hr x _ _ (ht x hx) hx i k _ hk
    unfold indexedSlots at hs
    rw [a4, a5, List.zip_append (by rw [List.length_map, List.length_map]), List.zip_map', List.zip_replicate,
      List.mem_append] at hs
    rcases hs with hs | hs
    · obtain ⟨e, _, rfl⟩ := List.mem_map.1 hs
      exact Or.inl ⟨e.1, rfl⟩
    · rw [List.eq_of_mem_replicate hs]
      exact Or.inr ⟨rfl, rfl⟩
  refine ⟨⟨(U' (sums x)).comp (ContinuousLinearMap.pi (fun i => ContinuousLinearMap.pi (fun k =>
    ((indexedSlots umax (out x) (idx x) i k).map (fun s => slotMove (g' k s.1.1) s.1.2.1 i s.2)).sum))), ?_, ?_⟩, ?_⟩
  · refine (hU (sums x)).comp_hasFDerivWithinAt x ?_
    refine hasFDerivWithinAt_pi.2 (fun i => hasFDerivWithinAt_pi.2 (fun k => ?_))
    exact C194_forces A sort L z umax hty rcut rs hr hlt out idx ht (g k) (g' k) (hg k) x hx i k
  · intro j v
    rw [ContinuousLinearMap.comp_apply, clm_pi_sum]
    unfold tableGrad
    refine Finset.sum_congr rfl (fun i _ => Finset.sum_congr rfl (fun k _ => ?_))
    simp only [ContinuousLinearMap.pi_apply]
    have hlin : ∀ l : List (((Fin 4 → ℝ) × Matrix (Fin 4) (Fin 3) ℝ × Vec ℝ) × ℤ),
        (∀ s ∈ l, (∃ a : Fin n, s.2 = ((a : ℕ) : ℤ)) ∨ (s.2 = -1 ∧ s.1.2.1 = 0)) →
        U' (sums x) (ContinuousLinearMap.single ℝ (fun _ : Fin n => Fin umax.length → W) i
          (ContinuousLinearMap.single ℝ (fun _ : Fin umax.length => W) k
            ((l.map (fun s => slotMove (g' k s.1.1) s.1.2.1 i s.2)).sum (Pi.single j v))))
        = (l.map (fun s => d i k s.1.1 (s.1.2.1.mulVec v) *
            ((if i = j then 1 else 0) - (if s.2 = (j : ℤ) then 1 else 0)))).sum := by
      intro l hl
      induction l with
      | nil => simp
      | cons s l ih =>
        simp only [List.map_cons, List.sum_cons, ContinuousLinearMap.add_apply, map_add]
        rw [ih (fun s hs => hl s (List.mem_cons_of_mem _ hs))]
        congr 1
        have hone : slotMove (g' k s.1.1) s.1.2.1 i s.2 (Pi.single j v)
            = ((if i = j then 1 else 0) - (if s.2 = (j : ℤ) then 1 else 0) : ℝ) • g' k s.1.1 (s.1.2.1.mulVec v) := by
          rcases hl s List.mem_cons_self with ⟨a, ha⟩ | ⟨h1, h2⟩
          · have he : (0 : ℤ) ≤ s.2 ∧ s.2 < n := by rw [ha]; exact ⟨by positivity, by exact_mod_cast a.2⟩
            have hmv : relMove i a (Pi.single j v)
                = ((if i = j then 1 else 0) - (if s.2 = (j : ℤ) then 1 else 0) : ℝ) • v := by
              have h1 : (Pi.single j v : Fin n → Vec ℝ) i = (if i = j then 1 else 0 : ℝ) • v := by
                by_cases h : i = j
                · subst h; simp
                · simp [h]
              have h2 : (Pi.single j v : Fin n → Vec ℝ) a = (if s.2 = (j : ℤ) then 1 else 0 : ℝ) • v := by
                have : (s.2 = (j : ℤ)) ↔ a = j := by rw [ha]; exact_mod_cast Fin.ext_iff.symm
                by_cases h : a = j
                · subst h; simp [ha]
                · simp [h, this]
              show (Pi.single j v : Fin n → Vec ℝ) i - (Pi.single j v : Fin n → Vec ℝ) a = _
              rw [h1, h2, sub_smul]
            have hfin : (⟨s.2.toNat, by omega⟩ : Fin n) = a := Fin.ext (by simp [ha])
            unfold slotMove
            rw [dif_pos he]
            show g' k s.1.1 (s.1.2.1.mulVec (relMove i ⟨s.2.toNat, _⟩ (Pi.single j v))) = _
            rw [hfin, hmv, Matrix.mulVec_smul, map_smul]
          · have : ¬ (0 ≤ s.2 ∧ s.2 < (n : ℤ)) := by rw [h1]; omega
            unfold slotMove
            rw [dif_neg this, h2]
            simp
        rw [hone]
        simp only [map_smul, smul_eq_mul]
        rw [mul_comm]
        rfl
    exact hlin _ (hocc i k)
  · intro v
    unfold tableGrad
    rw [Finset.sum_comm]
    refine Finset.sum_eq_zero (fun i _ => ?_)
    rw [Finset.sum_comm]
    refine Finset.sum_eq_zero (fun k _ => ?_)
    have hl : ∀ l : List (((Fin 4 → ℝ) × Matrix (Fin 4) (Fin 3) ℝ × Vec ℝ) × ℤ),
        (∀ s ∈ l, (∃ a : Fin n, s.2 = ((a : ℕ) : ℤ)) ∨ (s.2 = -1 ∧ s.1.2.1 = 0)) →
        ∑ j : Fin n, (l.map (fun s => d i k s.1.1 (s.1.2.1.mulVec v) *
          ((if i = j then 1 else 0) - (if s.2 = (j : ℤ) then 1 else 0)))).sum = 0 := by
      intro l hl
      induction l with
      | nil => simp
      | cons s l ih =>
        simp only [List.map_cons, List.sum_cons, Finset.sum_add_distrib]
        rw [ih (fun s hs => hl s (List.mem_cons_of_mem _ hs)), add_zero, ← Finset.mul_sum, Finset.sum_sub_distrib]
        rcases hl s List.mem_cons_self with ⟨a, ha⟩ | ⟨_, h2⟩
        · have : ∀ j : Fin n, (s.2 = (j : ℤ)) ↔ a = j := by
            intro j; rw [ha]; exact_mod_cast Fin.ext_iff.symm
          simp [this]
        · rw [h2]
          simp
    exact hl _ (hocc i k)

/-- C184 where all atoms lie strictly inside the cell and there are slots to spare: the positions the neighbour
list handles form a neighbourhood, so the derivatives of `C184_forces` within this set are derivatives without
restriction. -/
theorem C184_interior (A : ArgSort) (L : Fin 3 → Vec ℝ) {n : ℕ} (z : Fin n → ℤ) (umax : List ℕ) (rcut δ : ℝ)
    (hr : 0 < rcut) (hδ : 0 < δ) (x : Fin n → Vec ℝ) (hx : x ∈ envPositions L z umax (rcut + δ))
    (hin : ∀ i, StrictlyInside L (x i)) : envPositions L z umax rcut ∈ nhds x :=
  positions_nhds A L z x umax rcut δ hr hδ hx hin

/-- C195 where all atoms lie strictly inside the cell and there are slots to spare: the energy is differentiable
there without restriction, and minus its gradient, the forces, is the one assembled from the tables. -/
theorem C195_forces_at {W : Type} [NormedAddCommGroup W] [NormedSpace ℝ W] (A : ArgSort) (sort : Bool)
    (L : Fin 3 → Vec ℝ) {n : ℕ} (z : Fin n → ℤ) (umax : List ℕ) (hty : ∀ i, 0 ≤ z i ∧ z i < umax.length)
    (rcut rs δ : ℝ) (hr : 0 < rcut) (hlt : rs < rcut) (hδ : 0 < δ) (out idx)
    (ht : Se4pwTables A sort L z umax rcut rs (envPositions L z umax rcut) out idx)
    (g : Fin umax.length → (Fin 4 → ℝ) → W)
    (g' : Fin umax.length → (Fin 4 → ℝ) → (Fin 4 → ℝ) →L[ℝ] W) (hg : ∀ k y, HasFDerivAt (g k) (g' k y) y)
    (U : (Fin n → Fin umax.length → W) → ℝ)
    (U' : (Fin n → Fin umax.length → W) → (Fin n → Fin umax.length → W) →L[ℝ] ℝ)
    (hU : ∀ w, HasFDerivAt U (U' w) w)
    (x : Fin n → Vec ℝ) (hx : x ∈ envPositions L z umax (rcut + δ)) (hin : ∀ i, StrictlyInside L (x i)) :
    let sums := fun y : Fin n → Vec ℝ => fun (i : Fin n) (k : Fin umax.length) =>
      ((typeSlots umax k (flatRow (out y) umax.sum i)).map (fun s => g k s.1)).sum
    let d := fun (i : Fin n) (k : Fin umax.length) (row : Fin 4 → ℝ) =>
      (U' (sums x)).comp ((ContinuousLinearMap.single ℝ (fun _ : Fin n => Fin umax.length → W) i).comp
        ((ContinuousLinearMap.single ℝ (fun _ : Fin umax.length => W) k).comp (g' k row)))
    DifferentiableAt ℝ (fun y => U (sums y)) x ∧
      ∀ (j : Fin n) (v : Vec ℝ), fderiv ℝ (fun y => U (sums y)) x (Pi.single j v)
        = tableGrad umax (out x) (idx x) d j v := by
  intro sums d
  have hmem := positions_nhds A L z x umax rcut δ hr hδ hx hin
  obtain ⟨⟨E', h1, h2⟩, _⟩ := C195_newton A sort L z umax hty rcut rs hr hlt out idx ht g g' hg U U' hU x
    (mem_of_mem_nhds hmem)
  have h3 := h1.hasFDerivAt hmem
  refine ⟨h3.differentiableAt, ?_⟩
  intro j v
  rw [h3.fderiv]
  exact h2 j v

/-- C196: the tables for the deformed structures. -/
theorem C196_tables (A : ArgSort) (sort : Bool)
    (L : Fin 3 → Vec ℝ) {n : ℕ} (z : Fin n → ℤ) (umax : List ℕ) (hty : ∀ i, 0 ≤ z i ∧ z i < umax.length)
    (rcut rs : ℝ) (hr : 0 < rcut) (x : Fin n → Vec ℝ) :
    ∃ out idx, Se4pwStrainTables A sort L z umax rcut rs x out idx := by
  have : ∀ η, ∃ o : List ((Fin 4 → ℝ) × Matrix (Fin 4) (Fin 3) ℝ × Vec ℝ) × List ℤ,
      η ∈ envStrains L z umax rcut x →
        Se4pwTable A sort (strained η L) z umax rcut rs (strained η x) o.1 o.2 := by
    intro η
    by_cases hη : η ∈ envStrains L z umax rcut x
    · obtain ⟨out, idx, h⟩ := se4pw_table A sort (strained η L) z umax hty rcut rs hr _ hη
      exact ⟨(out, idx), fun _ => h⟩
    · exact ⟨([], []), fun h => absurd h hη⟩
  choose o ho using this
  exact ⟨fun x => (o x).1, fun x => (o x).2, ho⟩

/-- C196: an energy that is a differentiable function of sums over slots changes with the deformation of cell and
positions with the slope assembled from rows, derivative blocks and relative positions in the tables: the tables
give the virial. -/
theorem C196_virial {W : Type} [NormedAddCommGroup W] [NormedSpace ℝ W] (A : ArgSort) (sort : Bool)
    (L : Fin 3 → Vec ℝ) {n : ℕ} (z : Fin n → ℤ) (umax : List ℕ) (hty : ∀ i, 0 ≤ z i ∧ z i < umax.length)
    (rcut rs : ℝ) (hr : 0 < rcut) (hlt : rs < rcut)
    (x : Fin n → Vec ℝ) (hx : x ∈ envPositions L z umax rcut) (out idx)
    (ht : Se4pwStrainTables A sort L z umax rcut rs x out idx)
    (g : Fin umax.length → (Fin 4 → ℝ) → W)
    (g' : Fin umax.length → (Fin 4 → ℝ) → (Fin 4 → ℝ) →L[ℝ] W) (hg : ∀ k y, HasFDerivAt (g k) (g' k y) y)
    (U : (Fin n → Fin umax.length → W) → ℝ)
    (U' : (Fin n → Fin umax.length → W) → (Fin n → Fin umax.length → W) →L[ℝ] ℝ)
    (hU : ∀ w, HasFDerivAt U (U' w) w) :
    let sums := fun η : Vec ℝ →L[ℝ] Vec ℝ => fun (i : Fin n) (k : Fin umax.length) =>
      ((typeSlots umax k (flatRow (out η) umax.sum i)).map (fun s => g k s.1)).sum
    -- the derivative of the energy by a row of type `k` of centre `i`
    let d := fun (i : Fin n) (k : Fin umax.length) (row : Fin 4 → ℝ) =>
      (U' (sums 0)).comp ((ContinuousLinearMap.single ℝ (fun _ : Fin n => Fin umax.length → W) i).comp
        ((ContinuousLinearMap.single ℝ (fun _ : Fin umax.length => W) k).comp (g' k row)))
    ∃ E' : (Vec ℝ →L[ℝ] Vec ℝ) →L[ℝ] ℝ,
      HasFDerivWithinAt (fun η => U (sums η)) E' (envStrains L z umax rcut x) 0 ∧
      ∀ η, E' η = tableVirial umax (out 0) d η := by
  intro sums d
  have h0L : strained (0 : Vec ℝ →L[ℝ] Vec ℝ) L = L := by funext i; simp [strained]
  have h0x : strained (0 : Vec ℝ →L[ℝ] Vec ℝ) x = x := by funext i; simp [strained]
  have h0 : (0 : Vec ℝ →L[ℝ] Vec ℝ) ∈ envStrains L z umax rcut x := by
    show strained 0 x ∈ envPositions (strained 0 L) z umax rcut
    rw [h0L, h0x]; exact hx
  have hslot := fun η hη i k m hk => se4pw_slots A sort (strained η L) z umax hty rcut rs hr (strained η x) _ _
    (ht η hη) hη i k m hk
  let D : Fin n → Fin umax.length → (Vec ℝ →L[ℝ] Vec ℝ) →L[ℝ] W := fun i k =>
    ((typeSlots umax k (flatRow (out 0) umax.sum i)).map (fun s =>
      (g' k s.1).comp ((Matrix.mulVecLin (-s.2.1)).toContinuousLinearMap.comp
        (ContinuousLinearMap.apply ℝ (Vec ℝ) s.2.2)))).sum
  have hD : ∀ i k, HasFDerivWithinAt (fun η => sums η i k) (D i k) (envStrains L z umax rcut x) 0 := by
    intro i k
    have hk : umax[(k : ℕ)]? = some umax[k] := by simp
    exact strain_deriv A L z umax rcut rs hr hlt x hx i k _ (g k) (g' k) (hg k) out (fun η hη => by
      obtain ⟨J, j1, j2, j3, j4, _⟩ := hslot η hη i k _ hk
      exact ⟨J, j1, j2, j3, j4⟩)
  refine ⟨(U' (sums 0)).comp (ContinuousLinearMap.pi (fun i => ContinuousLinearMap.pi (fun k => D i k))), ?_, ?_⟩
  · refine (hU (sums 0)).comp_hasFDerivWithinAt 0 ?_
    exact hasFDerivWithinAt_pi.2 (fun i => hasFDerivWithinAt_pi.2 (fun k => hD i k))
  · intro η
    rw [ContinuousLinearMap.comp_apply, clm_pi_sum]
    unfold tableVirial
    rw [← Finset.sum_neg_distrib]
    refine Finset.sum_congr rfl (fun i _ => ?_)
    rw [← Finset.sum_neg_distrib]
    refine Finset.sum_congr rfl (fun k _ => ?_)
    simp only [ContinuousLinearMap.pi_apply, D]
    generalize typeSlots umax k (flatRow (out 0) umax.sum i) = l
    induction l with
    | nil => simp
    | cons s l ih =>
      simp only [List.map_cons, List.sum_cons, ContinuousLinearMap.add_apply, map_add, neg_add]
      rw [ih]
      congr 1
      have hs : ((Matrix.mulVecLin (-s.2.1)).toContinuousLinearMap.comp
          (ContinuousLinearMap.apply ℝ (Vec ℝ) s.2.2)) η = -(s.2.1.mulVec (η s.2.2)) := by
        simp [Matrix.neg_mulVec]
      rw [ContinuousLinearMap.comp_apply, hs]
      simp only [map_neg]
      rfl

/-- C196 where there are slots to spare: the energy is differentiable as a function of the deformation, without
restriction. -/
theorem C196_virial_at {W : Type} [NormedAddCommGroup W] [NormedSpace ℝ W] (A : ArgSort) (sort : Bool)
    (L : Fin 3 → Vec ℝ) {n : ℕ} (z : Fin n → ℤ) (umax : List ℕ) (hty : ∀ i, 0 ≤ z i ∧ z i < umax.length)
    (rcut rs δ : ℝ) (hr : 0 < rcut) (hlt : rs < rcut) (hδ : 0 < δ)
    (x : Fin n → Vec ℝ) (hx : x ∈ envPositions L z umax (rcut + δ)) (out idx)
    (ht : Se4pwStrainTables A sort L z umax rcut rs x out idx)
    (g : Fin umax.length → (Fin 4 → ℝ) → W)
    (g' : Fin umax.length → (Fin 4 → ℝ) → (Fin 4 → ℝ) →L[ℝ] W) (hg : ∀ k y, HasFDerivAt (g k) (g' k y) y)
    (U : (Fin n → Fin umax.length → W) → ℝ)
    (U' : (Fin n → Fin umax.length → W) → (Fin n → Fin umax.length → W) →L[ℝ] ℝ)
    (hU : ∀ w, HasFDerivAt U (U' w) w) :
    let sums := fun η : Vec ℝ →L[ℝ] Vec ℝ => fun (i : Fin n) (k : Fin umax.length) =>
      ((typeSlots umax k (flatRow (out η) umax.sum i)).map (fun s => g k s.1)).sum
    let d := fun (i : Fin n) (k : Fin umax.length) (row : Fin 4 → ℝ) =>
      (U' (sums 0)).comp ((ContinuousLinearMap.single ℝ (fun _ : Fin n => Fin umax.length → W) i).comp
        ((ContinuousLinearMap.single ℝ (fun _ : Fin umax.length => W) k).comp (g' k row)))
    DifferentiableAt ℝ (fun η => U (sums η)) 0 ∧
      ∀ η, fderiv ℝ (fun η => U (sums η)) 0 η = tableVirial umax (out 0) d η := by
  intro sums d
  have hmem := strains_nhds A L z x umax rcut δ hr hδ hx
  have hx0 : x ∈ envPositions L z umax rcut := by
    have h00 : (0 : Vec ℝ →L[ℝ] Vec ℝ) ∈ envStrains L z umax rcut x := mem_of_mem_nhds hmem
    have h : strained (0 : Vec ℝ →L[ℝ] Vec ℝ) x ∈ envPositions (strained 0 L) z umax rcut := h00
    have h0L : strained (0 : Vec ℝ →L[ℝ] Vec ℝ) L = L := by funext i; simp [strained]
    have h0x : strained (0 : Vec ℝ →L[ℝ] Vec ℝ) x = x := by funext i; simp [strained]
    rwa [h0L, h0x] at h
  obtain ⟨E', h1, h2⟩ := C196_virial A sort L z umax hty rcut rs hr hlt x hx0 out idx ht g g' hg U U' hU
  have h3 := h1.hasFDerivAt hmem
  refine ⟨h3.differentiableAt, ?_⟩
  intro η
  rw [h3.fderiv]
  exact h2 η

/-! ## An example: the atoms of `exTyped` -/

example (A : ArgSort) : ∃ out idx, Se4pwTables A true exL ![0, 1] [2, 2] 3 1 (envPositions exL ![0, 1] [2, 2] 3) out idx ∧
    DifferentiableWithinAt ℝ (fun x => ((typeSlots [2, 2] 1 (flatRow (out x) 4 0)).map (fun s => s.1 0 + 1)).sum)
      (envPositions exL ![0, 1] [2, 2] 3) ![![0, 0, 0], ![2, 1, 1]] := by
  obtain ⟨out, idx, h⟩ := C194_tables A true exL ![0, 1] [2, 2]
    (by intro i; fin_cases i <;> simp) 3 1 (by norm_num)
  exact ⟨out, idx, h, (C194_forces A true exL ![0, 1] [2, 2] (by intro i; fin_cases i <;> simp) 3 1 (by norm_num)
    (by norm_num) out idx h _ _ exRowFun _ exEnvPositions 0 1).differentiableWithinAt⟩

/-- An energy: the product of two sums. -/
theorem exEnergy (w : Fin 2 → Fin 2 → ℝ) : HasFDerivAt (fun w : Fin 2 → Fin 2 → ℝ => w 0 1 * w 1 0)
    (w 0 1 • ((ContinuousLinearMap.proj (R := ℝ) (φ := fun _ : Fin 2 => ℝ) 0).comp
        (ContinuousLinearMap.proj (R := ℝ) (φ := fun _ : Fin 2 => Fin 2 → ℝ) 1))
      + w 1 0 • ((ContinuousLinearMap.proj (R := ℝ) (φ := fun _ : Fin 2 => ℝ) 1).comp
        (ContinuousLinearMap.proj (R := ℝ) (φ := fun _ : Fin 2 => Fin 2 → ℝ) 0))) w :=
  HasFDerivAt.mul ((ContinuousLinearMap.proj (R := ℝ) (φ := fun _ : Fin 2 => ℝ) 1).comp
        (ContinuousLinearMap.proj (R := ℝ) (φ := fun _ : Fin 2 => Fin 2 → ℝ) 0)).hasFDerivAt
    ((ContinuousLinearMap.proj (R := ℝ) (φ := fun _ : Fin 2 => ℝ) 0).comp
        (ContinuousLinearMap.proj (R := ℝ) (φ := fun _ : Fin 2 => Fin 2 → ℝ) 1)).hasFDerivAt

example (A : ArgSort) (out idx)
    (h : Se4pwTables A true exL ![0, 1] [2, 2] 3 1 (envPositions exL ![0, 1] [2, 2] 3) out idx) :=
  C195_newton (W := ℝ) A true exL ![0, 1] [2, 2] (by intro i; fin_cases i <;> simp) 3 1 (by norm_num)
    (by norm_num) out idx h (fun _ => _) (fun _ => _) (fun _ => exRowFun) _ _ exEnergy _ exEnvPositions

example (A : ArgSort) (out idx)
    (h : Se4pwStrainTables A true exL ![0, 1] [2, 2] 3 1 ![![0, 0, 0], ![2, 1, 1]] out idx) :=
  C196_virial (W := ℝ) A true exL ![0, 1] [2, 2] (by intro i; fin_cases i <;> simp) 3 1 (by norm_num)
    (by norm_num) _ exEnvPositions out idx h (fun _ => _) (fun _ => _) (fun _ => exRowFun) _ _ exEnergy

/-! ## Two atoms inside a cube -/

theorem exCube_comp (i j : Fin 2) (t : Fin 3 → ℤ) (a : Fin 3) :
    imagePos (cube 4) ((![![1, 1, 1], ![3, 3, 3]] : Fin 2 → Vec ℝ) j) t a - (![![1, 1, 1], ![3, 3, 3]] : Fin 2 → Vec ℝ) i a
      = 4 * t a + 2 * ((j : ℕ) : ℝ) - 2 * ((i : ℕ) : ℝ) := by
  rw [imagePos, cube_shift]
  fin_cases i <;> fin_cases j <;> fin_cases a <;> simp <;> ring

theorem exCube_inside (i : Fin 2) : StrictlyInside (cube 4) ((![![1, 1, 1], ![3, 3, 3]] : Fin 2 → Vec ℝ) i) := by
  have hc : ∀ c : ℝ, cartOf (cube 4) (fun _ => c) = fun _ => 4 * c := by
    intro c
    funext p
    rw [cartOf, Fin.sum_univ_three]
    fin_cases p <;> simp [cube] <;> ring
  fin_cases i
  · refine ⟨fun _ => 1 / 4, fun _ => by norm_num, ?_⟩
    rw [hc]
    funext p
    fin_cases p <;> norm_num
  · refine ⟨fun _ => 3 / 4, fun _ => by norm_num, ?_⟩
    rw [hc]
    funext p
    fin_cases p <;> norm_num

theorem exCube_positions : ![![1, 1, 1], ![3, 3, 3]] ∈ envPositions (cube 4) ![0, 1] [27, 27] (5 + 1 / 2) := by
  have hin : ∀ i : Fin 2, StrictlyInside (cube 4) ((![![1, 1, 1], ![3, 3, 3]] : Fin 2 → Vec ℝ) i) := exCube_inside
  refine ⟨⟨by rw [cube_det]; norm_num, by simp [atomsAt], ?_, ?_, by simp⟩, ?_, ?_⟩
  · intro a ha
    obtain ⟨i, rfl⟩ := List.mem_ofFn.1 ha
    obtain ⟨f, hf, h⟩ := hin i
    exact ⟨f, fun a => ⟨(hf a).1.le, (hf a).2⟩, h⟩
  · intro p
    refine ⟨p, ?_⟩
    fin_cases p <;> simp [cube]
  · intro i j p q t hi hj hne
    obtain ⟨i, rfl, rfl⟩ := atomsAt_pos_inv _ _ i p hi
    obtain ⟨j, rfl, rfl⟩ := atomsAt_pos_inv _ _ j q hj
    have hsq : ∃ a : Fin 3, (1 : ℤ) ≤ (4 * t a + 2 * (j : ℕ) - 2 * (i : ℕ)) ^ 2 := by
      by_contra hcon
      simp only [not_exists, not_le] at hcon
      have hz : ∀ a, 4 * t a + 2 * ((j : ℕ) : ℤ) - 2 * ((i : ℕ) : ℤ) = 0 := by
        intro a
        have := hcon a
        have h0 := sq_nonneg (4 * t a + 2 * ((j : ℕ) : ℤ) - 2 * ((i : ℕ) : ℤ))
        exact pow_eq_zero_iff two_ne_zero |>.1 (by omega)
      have hij : (j : ℕ) = (i : ℕ) := by
        have := hz 0
        have := i.2
        have := j.2
        omega
      refine hne (Prod.ext hij ?_)
      funext a
      have := hz a
      rw [hij] at this
      simp only [Pi.zero_apply]
      omega
    obtain ⟨a, ha⟩ := hsq
    have ha' : (1 : ℝ) ≤ (4 * (t a : ℝ) + 2 * ((j : ℕ) : ℝ) - 2 * ((i : ℕ) : ℝ)) ^ 2 := by exact_mod_cast ha
    rw [← exCube_comp i j t a] at ha'
    rw [dist3_sq_comp]
    have h0 := sq_nonneg (imagePos (cube 4) ((![![1, 1, 1], ![3, 3, 3]] : Fin 2 → Vec ℝ) j) t 0
      - (![![1, 1, 1], ![3, 3, 3]] : Fin 2 → Vec ℝ) i 0)
    have h1 := sq_nonneg (imagePos (cube 4) ((![![1, 1, 1], ![3, 3, 3]] : Fin 2 → Vec ℝ) j) t 1
      - (![![1, 1, 1], ![3, 3, 3]] : Fin 2 → Vec ℝ) i 1)
    have h2 := sq_nonneg (imagePos (cube 4) ((![![1, 1, 1], ![3, 3, 3]] : Fin 2 → Vec ℝ) j) t 2
      - (![![1, 1, 1], ![3, 3, 3]] : Fin 2 → Vec ℝ) i 2)
    fin_cases a <;> simp only [Fin.zero_eta, Fin.mk_one, Fin.reduceFinMk] at ha' <;> linarith
  · refine crystalRoom_of_nearBy _ _ _ _ ?_
    intro i c hc t m hm l hl hall
    obtain ⟨i, rfl, rfl⟩ := atomsAt_inv _ _ i c hc
    have hm27 : m = 27 := by
      rcases t with _ | _ | t <;> simp at hm <;> exact hm.symm
    subst hm27
    have hsub : ∀ e ∈ l, e ∈ (Fintype.piFinset (fun _ : Fin 3 => Finset.Icc (-1 : ℤ) 1)).image
        (fun s => (t, s)) := by
      intro e he
      obtain ⟨⟨_, p, hp, hd⟩, _, h3⟩ := hall e he
      obtain ⟨j, hj, rfl⟩ := atomsAt_pos_inv _ _ e.1 p hp
      rw [← hj, atomsAt_get] at h3
      have hjt : (j : ℕ) = t := by
        fin_cases j <;> simp at h3 <;> simp <;> omega
      rw [Finset.mem_image]
      refine ⟨e.2, ?_, Prod.ext (by rw [← hjt, hj]) rfl⟩
      rw [Fintype.mem_piFinset]
      intro a
      rw [Finset.mem_Icc]
      have hcomp : |imagePos (cube 4) ((![![1, 1, 1], ![3, 3, 3]] : Fin 2 → Vec ℝ) j) e.2 a
          - (![![1, 1, 1], ![3, 3, 3]] : Fin 2 → Vec ℝ) i a| < 5 + 1 / 2 := by
        refine lt_of_le_of_lt ?_ hd
        have := norm_le_norm3 (imagePos (cube 4) ((![![1, 1, 1], ![3, 3, 3]] : Fin 2 → Vec ℝ) j) e.2
          - (![![1, 1, 1], ![3, 3, 3]] : Fin 2 → Vec ℝ) i)
        rw [norm3_eq_dist3] at this
        refine le_trans ?_ this
        rw [← Real.norm_eq_abs]
        exact norm_le_pi_norm (imagePos (cube 4) ((![![1, 1, 1], ![3, 3, 3]] : Fin 2 → Vec ℝ) j) e.2
          - (![![1, 1, 1], ![3, 3, 3]] : Fin 2 → Vec ℝ) i) a
      rw [exCube_comp, abs_lt] at hcomp
      have hi2 : ((i : ℕ) : ℝ) ≤ 1 := by exact_mod_cast (by omega : (i : ℕ) ≤ 1)
      have hj2 : ((j : ℕ) : ℝ) ≤ 1 := by exact_mod_cast (by omega : (j : ℕ) ≤ 1)
      have hi0 : (0 : ℝ) ≤ ((i : ℕ) : ℝ) := by positivity
      have hj0 : (0 : ℝ) ≤ ((j : ℕ) : ℝ) := by positivity
      have u1 : (-2 : ℝ) < (e.2 a : ℝ) := by linarith [hcomp.1]
      have u2 : (e.2 a : ℝ) < 2 := by linarith [hcomp.2]
      have v1 : (-2 : ℤ) < e.2 a := by exact_mod_cast u1
      have v2 : e.2 a < 2 := by exact_mod_cast u2
      omega
    have hcard : ((Fintype.piFinset (fun _ : Fin 3 => Finset.Icc (-1 : ℤ) 1)).image (fun s => (t, s))).card ≤ 27 := by
      refine le_trans Finset.card_image_le ?_
      rw [Fintype.card_piFinset]
      simp
    rw [← List.toFinset_card_of_nodup hl]
    refine le_trans (Finset.card_le_card ?_) hcard
    intro e he
    exact hsub e (List.mem_toFinset.1 he)

example (A : ArgSort) : envPositions (cube 4) ![0, 1] [27, 27] 5 ∈ nhds ![![1, 1, 1], ![3, 3, 3]] :=
  C184_interior A (cube 4) ![0, 1] [27, 27] 5 (1 / 2) (by norm_num) (by norm_num) _ exCube_positions exCube_inside

example (A : ArgSort) (out idx)
    (h : Se4pwTables A true (cube 4) ![0, 1] [27, 27] 5 1 (envPositions (cube 4) ![0, 1] [27, 27] 5) out idx) :=
  C195_forces_at (W := ℝ) A true (cube 4) ![0, 1] [27, 27] (by intro i; fin_cases i <;> simp) 5 1 (1 / 2) (by norm_num)
    (by norm_num) (by norm_num) out idx h (fun _ => _) (fun _ => _) (fun _ => exRowFun) _ _ exEnergy _ exCube_positions
    exCube_inside

example (A : ArgSort) (out idx)
    (h : Se4pwStrainTables A true (cube 4) ![0, 1] [27, 27] 5 1 ![![1, 1, 1], ![3, 3, 3]] out idx) :=
  C196_virial_at (W := ℝ) A true (cube 4) ![0, 1] [27, 27] (by intro i; fin_cases i <;> simp) 5 1 (1 / 2) (by norm_num)
    (by norm_num) (by norm_num) _ exCube_positions out idx h (fun _ => _) (fun _ => _) (fun _ => exRowFun) _ _ exEnergy

end MaterSDK
