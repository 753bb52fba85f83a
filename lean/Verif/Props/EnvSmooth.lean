import Verif.Lemmas.SlotDeriv
import Verif.Props.MtpSmooth
import Verif.Props.EnvMatrix

/-! # C184: energies built on the C++ environment matrix have the forces its derivative table gives -/

namespace MaterSDK

open Classical

/-- C184: for a differentiable function `g` of environment rows (for example the products of an embedding network),
the sum of `g` over the slots of a type, padding included, is a differentiable function of the positions of
all atoms, also where neighbours enter or leave the cutoff sphere or change their order; its derivative is
the one the chain rule gives with the derivative table of the code: every occupied slot holds one neighbour,
and contributes the derivative of `g` at its row times its block of the table times the change of the relative
position. -/
theorem C184_forces {W : Type} [NormedAddCommGroup W] [NormedSpace ℝ W] (A : ArgSort) (sort : Bool)
    (L : Fin 3 → Vec ℝ) {n : ℕ} (z : Fin n → ℤ) (umax : List ℕ) (hty : ∀ i, 0 ≤ z i ∧ z i < umax.length)
    (rcut rs : ℝ) (hr : 0 < rcut) (hlt : rs < rcut) :
    ∃ out : (Fin n → Vec ℝ) → List ((Fin 4 → ℝ) × Matrix (Fin 4) (Fin 3) ℝ),
      (∀ x ∈ envPositions L z umax rcut, ∃ N info,
        NbrLists.make A (CStruct.make L (atomsAt z x) true) rcut (fun _ => true) sort = .ok N ∧
        N.findInfo umax.sum = .ok info ∧
        envFind ⟨info.inum, info.numneigh.map (fun k : ℕ => (k : ℤ)), info.firstneigh, info.types,
          umax.map (fun m : ℕ => (m : ℤ))⟩ info.rel rcut rs = .ok (out x)) ∧
      ∀ x ∈ envPositions L z umax rcut, ∀ (i : Fin n) (k m : ℕ), umax[k]? = some m →
        ∃ imgs : List (Fin n × (Fin 3 → ℤ)), imgs.Nodup ∧
          (∀ e, e ∈ imgs ↔ z e.1 = (k : ℤ) ∧ dist3 (imagePos L (x e.1) e.2) (x i) < rcut ∧ e ≠ (i, 0)) ∧
          imgs.length ≤ m ∧
          (typeSlots umax k (flatRow (out x) umax.sum i)).map Prod.fst =
            imgs.map (fun e => envAt rcut rs (imagePos L (x e.1) e.2) (x i))
              ++ List.replicate (m - imgs.length) 0 ∧
          ∀ (g : (Fin 4 → ℝ) → W) (g' : (Fin 4 → ℝ) → (Fin 4 → ℝ) →L[ℝ] W), (∀ y, HasFDerivAt g (g' y) y) →
            HasFDerivWithinAt (fun y => ((typeSlots umax k (flatRow (out y) umax.sum i)).map (fun s => g s.1)).sum)
              (((imgs.zip (typeSlots umax k (flatRow (out x) umax.sum i))).map (fun p =>
                (g' p.2.1).comp ((Matrix.mulVecLin p.2.2).toContinuousLinearMap.comp (relMove p.1.1 i)))).sum)
              (envPositions L z umax rcut) x := by
  have hget : ∀ x (i : Fin n), (atomsAt z x)[(i : ℕ)]? = some (z i, x i) := by
    intro x i
    simp [atomsAt]
  have htya : ∀ x, ∀ a ∈ atomsAt z x, 0 ≤ a.1 ∧ a.1 < umax.length := by
    intro x a ha
    obtain ⟨i, rfl⟩ := List.mem_ofFn.1 ha
    exact hty i
  have hcore : ∀ x, ∃ out : List ((Fin 4 → ℝ) × Matrix (Fin 4) (Fin 3) ℝ), x ∈ envPositions L z umax rcut →
      (∃ N info,
        NbrLists.make A (CStruct.make L (atomsAt z x) true) rcut (fun _ => true) sort = .ok N ∧
        N.findInfo umax.sum = .ok info ∧
        envFind ⟨info.inum, info.numneigh.map (fun k : ℕ => (k : ℤ)), info.firstneigh, info.types,
          umax.map (fun m : ℕ => (m : ℤ))⟩ info.rel rcut rs = .ok out) ∧
      ∀ i : Fin n, ∃ imgs : List (ℕ × (Fin 3 → ℤ)), imgs.Nodup ∧
        (∀ e, e ∈ imgs ↔ NearBy L (fun _ => true) ((atomsAt z x).map Prod.snd) rcut (x i) e ∧ e ≠ ((i : ℕ), 0)) ∧
        flatRow out umax.sum i = typeBlocks 0 umax (imgs.map (imageBoth L (atomsAt z x) rcut rs (x i))) ∧
        RoomFor umax (imgs.map (imageBoth L (atomsAt z x) rcut rs (x i))) := by
    intro x
    by_cases hx : x ∈ envPositions L z umax rcut
    · obtain ⟨h1, h2, h3⟩ := hx
      obtain ⟨N, info, out, g1, g2, g3, g4⟩ := env_core A L (atomsAt z x) rcut rs (fun _ => true) sort h1 hr h2 umax
        (htya x) (crystalRoom_nearBy L (atomsAt z x) rcut h2 umax h3)
      refine ⟨out, fun _ => ⟨⟨N, info, g1, g2, g3⟩, ?_⟩⟩
      intro i
      obtain ⟨imgs, k1, k2, _, k3, k4⟩ := g4 i _ (hget x i)
      exact ⟨imgs, k1, k2, k3, k4⟩
    · exact ⟨[], fun h => absurd h hx⟩
  choose out hout using hcore
  refine ⟨out, fun x hx => (hout x hx).1, ?_⟩
  have hpt : ∀ x, ∀ (j : Fin n), ((atomsAt z x).map Prod.snd)[(j : ℕ)]? = some (x j) := by
    intro x j
    rw [List.getElem?_map, hget]; rfl
  -- the images of a type around an atom, and the slots they occupy
  have hslots : ∀ x ∈ envPositions L z umax rcut, ∀ (i : Fin n) (k m : ℕ), umax[k]? = some m →
      ∃ imgs : List (Fin n × (Fin 3 → ℤ)), imgs.Nodup ∧
        (∀ e, e ∈ imgs ↔ z e.1 = (k : ℤ) ∧ dist3 (imagePos L (x e.1) e.2) (x i) < rcut ∧ e ≠ (i, 0)) ∧
        imgs.length ≤ m ∧
        typeSlots umax k (flatRow (out x) umax.sum i) =
          imgs.map (fun e => relBoth rcut rs (imagePos L (x e.1) e.2 - x i)) ++ List.replicate (m - imgs.length) 0 := by
    intro x hx i k m hk
    obtain ⟨I, i1, i2, i3, i4⟩ := (hout x hx).2 i
    obtain ⟨J, rfl, j1, j2⟩ := fin_images L z x rcut i I i1 i2
    have hB : (J.map (fun e => ((e.1 : ℕ), e.2))).map (imageBoth L (atomsAt z x) rcut rs (x i))
        = J.map (fun e => (z e.1, relBoth rcut rs (imagePos L (x e.1) e.2 - x i))) := by
      rw [List.map_map]
      refine List.map_congr_left ?_
      intro e _
      simp only [Function.comp, imageBoth, atomsAt_get]
      rfl
    refine ⟨J.filter (fun e => decide (z e.1 = (k : ℤ))), j1.filter _, ?_, ?_, ?_⟩
    · intro e
      rw [List.mem_filter, j2, decide_eq_true_eq]
      tauto
    · have := i4.2 k m hk
      rw [hB, List.countP_map, List.countP_eq_length_filter] at this
      exact this
    · rw [i3, typeSlots_typeBlocks _ _ _ i4 k m hk, hB]
      unfold typeBlock
      rw [List.filter_map, List.countP_map, List.map_map, List.countP_eq_length_filter]
      rfl
  intro x hx i k m hk
  obtain ⟨imgs, a1, a2, a3, a4⟩ := hslots x hx i k m hk
  refine ⟨imgs, a1, a2, a3, ?_, ?_⟩
  · rw [a4, List.map_append, List.map_map, List.map_replicate]
    congr 1
    refine List.map_congr_left ?_
    intro e _
    exact cEnvRow_envAt _ _ _ _
  intro g g' hg
  have hd := slots_deriv A L z (envPositions L z umax rcut) (fun y hy => ⟨hy.1, hy.2.1⟩) rcut rs hr hlt i k m g g' hg
    (fun y => ((typeSlots umax k (flatRow (out y) umax.sum i)).map (fun s => g s.1)).sum) (by
      intro y hy
      obtain ⟨J, j1, j2, j3, j4⟩ := hslots y hy i k m hk
      refine ⟨J, j1, j2, j3, ?_⟩
      beta_reduce
      rw [j4, List.map_append, List.sum_append, List.map_replicate, List.sum_replicate, List.map_map]
      rfl) x hx imgs a1 a2
  refine HasFDerivWithinAt.congr_fderiv hd ?_
  rw [a4]
  congr 1
  clear a1 a2 a3 a4 hd
  have hz : ∀ (l : List (Fin n × (Fin 3 → ℤ))) (F : Fin n × (Fin 3 → ℤ) → (Fin 4 → ℝ) × Matrix (Fin 4) (Fin 3) ℝ)
      (T : List ((Fin 4 → ℝ) × Matrix (Fin 4) (Fin 3) ℝ)), l.zip (l.map F ++ T) = l.map (fun e => (e, F e)) := by
    intro l F T
    induction l with
    | nil => simp
    | cons a l ih => simp [ih]
  rw [hz, List.map_map]
  rfl

/-- C184 for an energy: a differentiable function of such sums changes with the derivative the tables give. -/
theorem C184_energy {W : Type} [NormedAddCommGroup W] [NormedSpace ℝ W] (A : ArgSort) (sort : Bool)
    (L : Fin 3 → Vec ℝ) {n : ℕ} (z : Fin n → ℤ) (umax : List ℕ) (hty : ∀ i, 0 ≤ z i ∧ z i < umax.length)
    (rcut rs : ℝ) (hr : 0 < rcut) (hlt : rs < rcut) (g : Fin umax.length → (Fin 4 → ℝ) → W)
    (g' : Fin umax.length → (Fin 4 → ℝ) → (Fin 4 → ℝ) →L[ℝ] W) (hg : ∀ k y, HasFDerivAt (g k) (g' k y) y)
    (U : (Fin n → Fin umax.length → W) → ℝ) (hU : Differentiable ℝ U) :
    ∃ out : (Fin n → Vec ℝ) → List ((Fin 4 → ℝ) × Matrix (Fin 4) (Fin 3) ℝ),
      (∀ x ∈ envPositions L z umax rcut, ∃ N info,
        NbrLists.make A (CStruct.make L (atomsAt z x) true) rcut (fun _ => true) sort = .ok N ∧
        N.findInfo umax.sum = .ok info ∧
        envFind ⟨info.inum, info.numneigh.map (fun k : ℕ => (k : ℤ)), info.firstneigh, info.types,
          umax.map (fun m : ℕ => (m : ℤ))⟩ info.rel rcut rs = .ok (out x)) ∧
      DifferentiableOn ℝ (fun x => U (fun i k =>
        ((typeSlots umax k (flatRow (out x) umax.sum i)).map (fun s => g k s.1)).sum)) (envPositions L z umax rcut) := by
  obtain ⟨out, h1, h2⟩ := C184_forces (W := W) A sort L z umax hty rcut rs hr hlt
  refine ⟨out, h1, ?_⟩
  intro x hx
  refine (hU _).comp_differentiableWithinAt x ?_
  refine differentiableWithinAt_pi.2 (fun i => differentiableWithinAt_pi.2 (fun k => ?_))
  obtain ⟨_, _, _, _, _, h⟩ := h2 x hx i k umax[k] (by simp)
  exact (h (g k) (g' k) (hg k)).differentiableWithinAt

/-! ## An example: the atoms of `exTyped` -/

theorem exEnvPositions : ![![0, 0, 0], ![2, 1, 1]] ∈ envPositions exL ![0, 1] [2, 2] 3 := by
  refine ⟨?_, ?_, ?_⟩ <;> rw [exAtomsAt]
  · exact exTyped_ok
  · exact exL_apart
  · exact exTyped_room

/-- A function of rows which is not zero at zero, with its derivative. -/
theorem exRowFun (y : Fin 4 → ℝ) : HasFDerivAt (fun r : Fin 4 → ℝ => r 0 + 1)
    (ContinuousLinearMap.proj (R := ℝ) (φ := fun _ : Fin 4 => ℝ) 0) y :=
  (hasFDerivAt_apply _ _).add_const _

example (A : ArgSort) : ∃ out : (Fin 2 → Vec ℝ) → List ((Fin 4 → ℝ) × Matrix (Fin 4) (Fin 3) ℝ),
    DifferentiableWithinAt ℝ (fun x =>
      ((typeSlots [2, 2] 1 (flatRow (out x) 4 0)).map (fun s => s.1 0 + 1)).sum)
      (envPositions exL ![0, 1] [2, 2] 3) ![![0, 0, 0], ![2, 1, 1]] := by
  obtain ⟨out, _, h⟩ := C184_forces (W := ℝ) A true exL ![0, 1] [2, 2]
    (by intro i; fin_cases i <;> simp) 3 1 (by norm_num) (by norm_num)
  obtain ⟨_, _, _, _, _, h⟩ := h _ exEnvPositions 0 1 2 rfl
  exact ⟨out, (h _ _ exRowFun).differentiableWithinAt⟩

end MaterSDK
