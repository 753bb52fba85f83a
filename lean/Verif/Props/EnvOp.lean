import Verif.Lemmas.EnvOp
import Verif.Lemmas.EnvMatrixAux
import Verif.Props.EnvMatrix

/-! # Properties of the batched operators (C151-C156) -/

namespace MaterSDK

open Classical

/-! ## C151: batches of `EnvMatrixOp` -/

/-- C151 as far as it holds: if every frame has as many slots as the first one, the result holds, frame
after frame, the rows of the neighbours of that frame, sorted by type, and their derivatives. -/
theorem C151_env_batch_partial (t : EnvOpIn) (rcut rs : ℝ) (h : rs < rcut) (inum ntypes u : ℕ)
    (fs : List EnvFrame) (umax : ℕ → List ℕ) (nbrs : ℕ → ℕ → List (ℕ × Vec ℝ)) (ty : ℕ → ℕ → ℤ)
    (ht : t.Holds inum ntypes fs) (hne : fs ≠ [])
    (hf : ∀ (b : ℕ) (f : EnvFrame), fs[b]? = some f → (umax b).sum = u ∧
      ListsNbrs ⟨inum, f.numneigh, f.firstneigh, f.types, f.umax⟩ (umax b) inum
        (fun ii => (nbrs b ii).map Prod.fst) ∧
      (∀ ii < inum, ∀ e ∈ nbrs b ii, f.types[e.1]? = some (ty b e.1)) ∧
      (∀ ii < inum, ∀ (jj : ℕ) (e : ℕ × Vec ℝ), (nbrs b ii)[jj]? = some e →
        StoredAt f.rel (ii * (umax b).sum + jj) e.2) ∧
      ∀ ii < inum, RoomFor (umax b) ((nbrs b ii).map (fun e => (ty b e.1, e.2)))) :
    ∃ out, envOp t rcut rs = .ok out ∧ out.length = fs.length * (inum * u) ∧
      out.map Prod.fst = (List.range fs.length).flatMap (fun b => (List.range inum).flatMap (fun ii =>
        typeBlocks 0 (umax b) ((nbrs b ii).map (fun e => (ty b e.1, envAt rcut rs e.2 0))))) ∧
      ∃ J : Vec ℝ → Matrix (Fin 4) (Fin 3) ℝ,
        (∀ v, v ≠ 0 → HasFDerivAt (fun y => envAt rcut rs y 0)
          ((Matrix.mulVecLin (J v)).toContinuousLinearMap) v) ∧
        out.map Prod.snd = (List.range fs.length).flatMap (fun b => (List.range inum).flatMap (fun ii =>
          typeBlocks 0 (umax b) ((nbrs b ii).map (fun e => (ty b e.1, J e.2))))) := by
  have one : ∀ b < fs.length, ∃ f o, fs[b]? = some f ∧ f.alone inum rcut rs = .ok o ∧
      o = (List.range inum).flatMap (fun ii => typeBlocks (0, 0) (umax b)
        ((nbrs b ii).map (fun e => (ty b e.1, (cEnvRow rcut rs e.2, cEnvDeriv rcut rs e.2))))) := by
    intro b hb
    obtain ⟨_, g1, g2, g3, g4⟩ := hf b fs[b] (List.getElem?_eq_getElem hb)
    exact ⟨_, _, List.getElem?_eq_getElem hb, envFind_ok _ _ _ _ _ _ _ _ g1 g2 g3 g4, rfl⟩
  set O : ℕ → List EnvSlot := fun b => (List.range inum).flatMap (fun ii => typeBlocks (0, 0) (umax b)
        ((nbrs b ii).map (fun e => (ty b e.1, (cEnvRow rcut rs e.2, cEnvDeriv rcut rs e.2))))) with hO
  have hall : List.Forall₂ (fun f o => f.alone inum rcut rs = .ok o) fs ((List.range fs.length).map O) := by
    rw [List.forall₂_iff_get]
    refine ⟨by simp, fun i h1 h2 => ?_⟩
    obtain ⟨f, o, e1, e2, e3⟩ := one i h1
    rw [List.getElem?_eq_getElem h1] at e1
    simp only [List.get_eq_getElem, List.getElem_map, List.getElem_range]
    rw [Option.some.inj e1, e2, e3]
  have hsum : ∀ f ∈ fs, f.umax.sum = (u : ℤ) := by
    intro f hm
    obtain ⟨b, hb⟩ := List.mem_iff_getElem?.1 hm
    obtain ⟨g0, g1, _⟩ := hf b f hb
    rw [show f.umax = (umax b).map (fun m : ℕ => (m : ℤ)) from g1.2.1, ← g0, Nat.cast_list_sum]
  refine ⟨_, envOp_ok ht hne hsum hall, ?_, ?_, cEnvDeriv rcut rs, ?_, ?_⟩
  · rw [← List.flatMap_def, flatMap_uniform_length _ _ (inum * u), List.length_range]
    intro b hb
    obtain ⟨g0, _, _, _, g4⟩ := hf b _ (List.getElem?_eq_getElem (List.mem_range.1 hb))
    rw [flatMap_uniform_length _ _ u, List.length_range]
    intro ii hii
    rw [← g0]
    apply typeBlocks_length
    have := (roomFor_map (fun v : Vec ℝ => (cEnvRow rcut rs v, cEnvDeriv rcut rs v)) (umax b) _).2
      (g4 ii (List.mem_range.1 hii))
    rw [List.map_map] at this
    exact this
  · rw [← List.flatMap_def, List.map_flatMap]
    refine List.flatMap_congr fun b _ => ?_
    rw [List.map_flatMap]
    refine List.flatMap_congr fun ii _ => ?_
    rw [typeBlocks_map, List.map_map]
    congr 1
    refine List.map_congr_left fun e _ => ?_
    show (ty b e.1, cEnvRow rcut rs e.2) = _
    rw [cEnvRow_envAt_zero]
  · intro v hv
    have := hasFDerivAt_envRow h v (norm3_pos hv)
    simp only [cEnvRow_envAt_zero] at this
    exact this
  · rw [← List.flatMap_def, List.map_flatMap]
    refine List.flatMap_congr fun b _ => ?_
    rw [List.map_flatMap]
    refine List.flatMap_congr fun ii _ => ?_
    rw [typeBlocks_map, List.map_map]
    rfl

/-- Two frames of one centre; atom 0 sees itself once in the first frame and twice in the second. -/
def exFrames (u : ℤ) : List EnvFrame :=
  [⟨[0], [1], [0, -1], [1, 0, 0, 0, 0, 0], [0], [2]⟩, ⟨[0], [2], [0, 0], [0, 2, 0, 1, 1, 0], [0], [u]⟩]

/-- The tensors of `exFrames`; the relative coordinates have an unused row between the frames. -/
def exBatch (u : ℤ) : EnvOpIn where
  ilist := ⟨.int32, [0, 0], 0, [2, 1], [1, 1]⟩
  numneigh := ⟨.int32, [1, 2], 0, [2, 1], [1, 1]⟩
  firstneigh := ⟨.int32, [0, -1, 0, 0], 0, [2, 1, 2], [2, 2, 1]⟩
  rel := ⟨.float64, [7, 1, 0, 0, 0, 0, 0, 9, 9, 9, 0, 2, 0, 1, 1, 0], 1, [2, 1, 2, 3], [9, 6, 3, 1]⟩
  types := ⟨.int32, [0, 0], 0, [2, 1], [1, 1]⟩
  umax := ⟨.int32, [2, u], 0, [2, 1], [1, 1]⟩

theorem exBatch_holds (u : ℤ) : (exBatch u).Holds 1 1 (exFrames u) := by
  refine ⟨?_, ?_, ?_, Or.inr ?_, ?_, ?_, rfl, rfl⟩ <;>
    exact ⟨rfl, rfl, rfl, rfl, by simp [exFrames, exBatch], rfl⟩

example := C151_env_batch_partial (exBatch 2) 3 1 (by norm_num) 1 1 2 (exFrames 2) (fun _ => [2])
  (fun b _ => if b = 0 then [(0, ![1, 0, 0])] else [(0, ![0, 2, 0]), (0, ![1, 1, 0])]) (fun _ _ => 0)
  (exBatch_holds 2) (by simp [exFrames]) (by
    rintro (_ | _ | b) f hf
    · obtain rfl := Option.some.inj hf
      refine ⟨rfl, ⟨rfl, rfl, ?_⟩, ?_, ?_, ?_⟩
      · intro ii hii
        interval_cases ii
        refine ⟨rfl, ?_⟩
        rintro (_ | jj) k hk
        · simp at hk
          simp [← hk]
        · simp at hk
      · intro ii _ e he
        simp at he
        simp [he]
      · intro ii hii
        interval_cases ii
        rintro (_ | jj) e he
        · simp at he
          subst he
          simp [StoredAt]
        · simp at he
      · intro ii _
        refine ⟨by simp, ?_⟩
        rintro (_ | t) m hm <;> simp at hm
        subst hm
        simp
    · obtain rfl := Option.some.inj hf
      refine ⟨rfl, ⟨rfl, rfl, ?_⟩, ?_, ?_, ?_⟩
      · intro ii hii
        interval_cases ii
        refine ⟨rfl, ?_⟩
        rintro (_ | _ | jj) k hk
        · simp at hk
          simp [← hk]
        · simp at hk
          simp [← hk]
        · simp at hk
      · intro ii _ e he
        simp at he
        rcases he with rfl | rfl <;> rfl
      · intro ii hii
        interval_cases ii
        rintro (_ | _ | jj) e he
        · simp at he
          subst he
          simp [StoredAt]
        · simp at he
          subst he
          simp [StoredAt]
        · simp at he
      · intro ii _
        refine ⟨by simp, ?_⟩
        rintro (_ | t) m hm <;> simp at hm
        subst hm
        simp
    · simp [exFrames] at hf)

/-- C151 fails: if the last frame has more slots than the first one, the operator never succeeds; its
rows lie outside of the result. -/
theorem C151_violated_larger (t : EnvOpIn) (rcut rs : ℝ) (inum ntypes : ℕ) (fs : List EnvFrame)
    (f0 f1 : EnvFrame) (h : t.Holds inum ntypes fs) (h0 : fs.head? = some f0) (h1 : fs.getLast? = some f1)
    (hi : 0 < inum) (hlt : f0.umax.sum < f1.umax.sum) (out : List EnvSlot) : envOp t rcut rs ≠ .ok out :=
  envOp_larger h h0 h1 hi hlt out

example := C151_violated_larger (exBatch 3) 3 1 1 1 (exFrames 3) _ _ (exBatch_holds 3) rfl rfl (by norm_num)
  (by decide)

/-- Two frames of two atoms which see each other, with room for two neighbours in each frame; the second
frame announces one neighbour at most. -/
def exSmaller (v w : Vec ℝ) : EnvOpIn where
  ilist := ⟨.int32, [0, 1, 0, 1], 0, [2, 2], [2, 1]⟩
  numneigh := ⟨.int32, [1, 1, 1, 1], 0, [2, 2], [2, 1]⟩
  firstneigh := ⟨.int32, [1, 0, 0, 0, 1, 0, 0, 0], 0, [2, 2, 2], [4, 2, 1]⟩
  rel := ⟨.float64, [v 0, v 1, v 2, 0, 0, 0, w 0, w 1, w 2, 0, 0, 0,
    v 0, v 1, v 2, 0, 0, 0, w 0, w 1, w 2, 0, 0, 0], 0, [2, 2, 2, 3], [12, 6, 3, 1]⟩
  types := ⟨.int32, [0, 0, 0, 0], 0, [2, 2], [2, 1]⟩
  umax := ⟨.int32, [2, 1], 0, [2, 1], [1, 1]⟩

/-- C151 fails: if a later frame has fewer slots than the first one, its rows are read from and written
to the wrong places: in `exSmaller` the row of the neighbour of the second atom of the second frame is
missing, and nothing is reported. -/
theorem C151_violated_smaller (v w : Vec ℝ) (rcut rs : ℝ) :
    (envOp (exSmaller v w) rcut rs).map (List.map Prod.fst) =
      .ok [envAt rcut rs v 0, 0, envAt rcut rs w 0, 0, envAt rcut rs v 0, envAt rcut rs 0 0, 0, 0] := by
  rw [← cEnvRow_envAt_zero, ← cEnvRow_envAt_zero, ← cEnvRow_envAt_zero]
  have h0 : (![0, 0, 0] : Vec ℝ) = 0 := by
    funext i
    fin_cases i <;> rfl
  have hv : ∀ v : Vec ℝ, ![v 0, v 1, v 2] = v := fun v => by
    funext i
    fin_cases i <;> rfl
  simp [envOp, exSmaller, EnvOpIn.kindsOk, Ten.size, Ten.row, Ten.shows, tenOffs, envOpFrame, Ten.frame, Ten.data,
    cFirst, frameOn, slotFillOn, slotStep, SlotIn.width, nstartIdxs, cGet, cSet, List.range_succ, bind,
    Except.bind, pure, Except.pure, Except.map, cVec3, h0, hv]

/-! ## C152: batches of `Se4pwOp` -/

/-- C152: the result of `Se4pwOp` holds, frame after frame, the rows of the neighbours of that frame,
sorted by type, their derivatives with respect to the centre, the relative coordinates and the indices of
the neighbours in the cell. -/
theorem C152_se4pw_batch (t : Se4pwIn) (rcut rs : ℝ) (h : rs < rcut) (umax : List ℕ) (fs : List Se4pwFrame)
    (nbrs : ℕ → ℕ → List ℕ) (ty : ℕ → ℕ → ℤ) (ctr : ℕ → ℕ → ℕ) (pos : ℕ → ℕ → Vec ℝ)
    (ht : t.Holds (umax.map (fun m : ℕ => (m : ℤ))) fs) (hne : fs ≠ [])
    (hf : ∀ (b : ℕ) (f : Se4pwFrame), fs[b]? = some f →
      ListsNbrs ⟨t.inum, f.numneigh, f.firstneigh, f.types, umax.map (fun m : ℕ => (m : ℤ))⟩ umax t.inum
        (nbrs b) ∧
      (∀ ii < t.inum, ∀ k ∈ nbrs b ii, f.types[k]? = some (ty b k)) ∧
      (∀ ii < t.inum, f.ilist[ii]? = some (ctr b ii : ℤ)) ∧
      (∀ ii < t.inum, StoredAt f.x (ctr b ii) (pos b (ctr b ii))) ∧
      (∀ ii < t.inum, ∀ k ∈ nbrs b ii, StoredAt f.x k (pos b k)) ∧
      ∀ ii < t.inum, RoomFor umax ((nbrs b ii).map (fun k => (ty b k, k)))) :
    ∃ out idx, se4pwOp t rcut rs = .ok out ∧ primOp t = .ok idx ∧
      out.map Prod.fst = (List.range fs.length).flatMap (fun b => (List.range t.inum).flatMap (fun ii =>
        typeBlocks 0 umax ((nbrs b ii).map
          (fun k => (ty b k, envAt rcut rs (pos b k) (pos b (ctr b ii))))))) ∧
      (∃ J : Vec ℝ → Vec ℝ → Matrix (Fin 4) (Fin 3) ℝ,
        (∀ q c, q ≠ c → HasFDerivAt (fun y => envAt rcut rs q y)
          ((Matrix.mulVecLin (J q c)).toContinuousLinearMap) c) ∧
        out.map (fun e => e.2.1) = (List.range fs.length).flatMap (fun b =>
          (List.range t.inum).flatMap (fun ii => typeBlocks 0 umax
            ((nbrs b ii).map (fun k => (ty b k, J (pos b k) (pos b (ctr b ii)))))))) ∧
      out.map (fun e => e.2.2) = (List.range fs.length).flatMap (fun b =>
        (List.range t.inum).flatMap (fun ii => typeBlocks 0 umax
          ((nbrs b ii).map (fun k => (ty b k, pos b k - pos b (ctr b ii)))))) ∧
      idx = (List.range fs.length).flatMap (fun b => (List.range t.inum).flatMap (fun ii =>
        typeBlocks (-1) umax ((nbrs b ii).map (fun k => (ty b k, ((k % t.inum : ℕ) : ℤ)))))) := by
  set O : ℕ → List Se4pwSlot := fun b => (List.range t.inum).flatMap (fun ii =>
      typeBlocks (0, 0, 0) umax ((nbrs b ii).map (fun k => (ty b k,
        (cEnvRow rcut rs (pos b k - pos b (ctr b ii)),
        cSe4pwDeriv rcut rs (pos b k - pos b (ctr b ii)), pos b k - pos b (ctr b ii)))))) with hO
  set I : ℕ → List ℤ := fun b => (List.range t.inum).flatMap (fun ii => typeBlocks (-1) umax
      ((nbrs b ii).map (fun k => (ty b k, ((k % t.inum : ℕ) : ℤ))))) with hI
  have one : ∀ b (hb : b < fs.length), fs[b].alone t.inum (umax.map (fun m : ℕ => (m : ℤ))) rcut rs
      = .ok (O b) ∧ fs[b].prim t.inum (umax.map (fun m : ℕ => (m : ℤ))) = .ok (I b) := by
    intro b hb
    obtain ⟨g1, g2, g3, g4, g5, g6⟩ := hf b fs[b] (List.getElem?_eq_getElem hb)
    exact se4pw_ok _ _ _ _ _ _ rcut rs _ _ _ g1 g2 g3 g4 g5 g6
  have h1 : List.Forall₂ (fun f o => f.alone t.inum (umax.map (fun m : ℕ => (m : ℤ))) rcut rs = .ok o) fs
      ((List.range fs.length).map O) := by
    rw [List.forall₂_iff_get]
    refine ⟨by simp, fun i h1 h2 => ?_⟩
    simpa only [List.get_eq_getElem, List.getElem_map, List.getElem_range] using (one i h1).1
  have h2 : List.Forall₂ (fun f o => f.prim t.inum (umax.map (fun m : ℕ => (m : ℤ))) = .ok o) fs
      ((List.range fs.length).map I) := by
    rw [List.forall₂_iff_get]
    refine ⟨by simp, fun i h1 h2 => ?_⟩
    simpa only [List.get_eq_getElem, List.getElem_map, List.getElem_range] using (one i h1).2
  refine ⟨_, _, se4pwOp_ok ht hne h1, primOp_ok ht hne h2, ?_,
    ⟨fun q c => cSe4pwDeriv rcut rs (q - c), ?_, ?_⟩, ?_, ?_⟩
  · rw [← List.flatMap_def, List.map_flatMap]
    refine List.flatMap_congr fun b _ => ?_
    rw [List.map_flatMap]
    refine List.flatMap_congr fun ii _ => ?_
    rw [typeBlocks_map, List.map_map]
    congr 1
    refine List.map_congr_left fun k _ => ?_
    show (ty b k, cEnvRow rcut rs (pos b k - pos b (ctr b ii))) = _
    rw [cEnvRow_envAt]
  · intro q c hqc
    have e := hasFDerivAt_envRow h (q - c) (norm3_pos (sub_ne_zero.2 hqc))
    have s : HasFDerivAt (fun y : Vec ℝ => q - y) (-ContinuousLinearMap.id ℝ (Vec ℝ)) c :=
      (hasFDerivAt_id c).const_sub q
    have k := e.comp c s
    refine HasFDerivAt.congr_fderiv (k.congr_of_eventuallyEq ?_) ?_
    · filter_upwards with y
      exact (cEnvRow_envAt rcut rs q y).symm
    · ext w
      simp [se4pwDeriv_neg]
  · rw [← List.flatMap_def, List.map_flatMap]
    refine List.flatMap_congr fun b _ => ?_
    rw [List.map_flatMap]
    refine List.flatMap_congr fun ii _ => ?_
    rw [typeBlocks_map, List.map_map]
    rfl
  · rw [← List.flatMap_def, List.map_flatMap]
    refine List.flatMap_congr fun b _ => ?_
    rw [List.map_flatMap]
    refine List.flatMap_congr fun ii _ => ?_
    rw [typeBlocks_map, List.map_map]
    rfl
  · rw [← List.flatMap_def]

/-- Two frames with one centre and one neighbour each, one frame at `a` and `b`, one at `c` and `d`. -/
def exTwo (a b c d : Vec ℝ) : Se4pwIn where
  batch := 2
  inum := 1
  ilist := ⟨.int32, [0, 0], 0, [2, 1], [1, 1]⟩
  numneigh := ⟨.int32, [1, 1], 0, [2, 1], [1, 1]⟩
  firstneigh := ⟨.int32, [1, 1], 0, [2, 1, 1], [1, 1, 1]⟩
  x := ⟨.float64, [a 0, a 1, a 2, b 0, b 1, b 2, c 0, c 1, c 2, d 0, d 1, d 2], 0, [2, 2, 3], [6, 3, 1]⟩
  types := ⟨.int32, [0, 0, 0, 0], 0, [2, 2], [2, 1]⟩
  ntypes := 1
  nums := ⟨.int32, [1], 0, [1], [1]⟩

/-- The frames of `exTwo`. -/
def exTwoFrames (a b c d : Vec ℝ) : List Se4pwFrame :=
  [⟨[0], [1], [1], [a 0, a 1, a 2, b 0, b 1, b 2], [0, 0]⟩,
    ⟨[0], [1], [1], [c 0, c 1, c 2, d 0, d 1, d 2], [0, 0]⟩]

theorem exTwo_holds (a b c d : Vec ℝ) : (exTwo a b c d).Holds [1] (exTwoFrames a b c d) := by
  refine ⟨rfl, ?_, ?_, ?_, Or.inr ?_, ?_, rfl, rfl, rfl, rfl⟩ <;>
    exact ⟨rfl, rfl, rfl, rfl, by simp [exTwoFrames, exTwo], rfl⟩

example (a b c d : Vec ℝ) := C152_se4pw_batch (exTwo a b c d) 3 1 (by norm_num) [1] (exTwoFrames a b c d)
  (fun _ _ => [1]) (fun _ _ => 0) (fun _ _ => 0)
  (fun f k => if f = 0 then (if k = 0 then a else b) else (if k = 0 then c else d))
  (exTwo_holds a b c d) (by simp [exTwoFrames]) (by
    have lists : ListsNbrs ⟨1, [1], [1], [0, 0], [1]⟩ [1] 1 (fun _ => [1]) := by
      refine ⟨rfl, rfl, ?_⟩
      intro ii hii
      interval_cases ii
      refine ⟨rfl, ?_⟩
      rintro (_ | jj) k hk
      · simp at hk
        simp [← hk]
      · simp at hk
    have room : RoomFor [1] [((0 : ℤ), 1)] := by
      refine ⟨by simp, ?_⟩
      rintro (_ | t) m hm <;> simp at hm
      subst hm
      simp
    rintro (_ | _ | f) x hx
    · obtain rfl := Option.some.inj hx
      refine ⟨lists, fun ii _ k hk => ?_, fun ii hii => ?_, fun _ _ => ?_, fun ii _ k hk => ?_, fun _ _ => room⟩
      · obtain rfl : k = 1 := by simpa using hk
        rfl
      · obtain rfl : ii = 0 := by simpa [exTwo] using hii
        rfl
      · simp [StoredAt]
      · obtain rfl : k = 1 := by simpa using hk
        simp [StoredAt]
    · obtain rfl := Option.some.inj hx
      refine ⟨lists, fun ii _ k hk => ?_, fun ii hii => ?_, fun _ _ => ?_, fun ii _ k hk => ?_, fun _ _ => room⟩
      · obtain rfl : k = 1 := by simpa using hk
        rfl
      · obtain rfl : ii = 0 := by simpa [exTwo] using hii
        rfl
      · simp [StoredAt]
      · obtain rfl : k = 1 := by simpa using hk
        simp [StoredAt]
    · simp [exTwoFrames] at hx)

/-! ## C153: flattened tensors -/

/-- The tensor as one row. -/
def Ten.flat {α : Type} (t : Ten α) : Ten α := { t with sizes := [t.sizes.prod], strides := [1] }

/-- All tensors as one row. -/
def Se4pwIn.flat (t : Se4pwIn) : Se4pwIn :=
  ⟨t.batch, t.inum, t.ilist.flat, t.numneigh.flat, t.firstneigh.flat, t.x.flat, t.types.flat, t.ntypes, t.nums⟩

/-- The tensor has elements and a stride for every dimension. -/
def Ten.Filled {α : Type} (t : Ten α) : Prop := t.strides.length = t.sizes.length ∧ t.sizes.prod ≠ 0 ∧
  t.sizes ≠ []

theorem Ten.flat_frame {α : Type} {t : Ten α} (h : t.Filled) (k : TKind) : t.flat.frame k 0 = t.frame k 0 := by
  obtain ⟨h1, h2, h3⟩ := h
  obtain ⟨kd, mem, off, sizes, strides⟩ := t
  cases sizes with
  | nil => exact absurd rfl h3
  | cons n ns =>
    cases strides with
    | nil => simp at h1
    | cons s ss =>
      have hn : 0 < n := Nat.pos_of_ne_zero fun e => h2 (by simp [e])
      have hp : 0 < (n :: ns).prod := Nat.pos_of_ne_zero h2
      simp only [Ten.flat, Ten.frame, Ten.row, if_pos hn, if_pos hp, ok_bind, Ten.data, zero_mul]

/-- C153 as far as it holds: for one frame it does not matter whether the tensors are flattened. -/
theorem C153_flat_partial (t : Se4pwIn) (rcut rs : ℝ) (hb : t.batch = 1) (h1 : t.ilist.Filled)
    (h2 : t.numneigh.Filled) (h3 : t.firstneigh.Filled) (h4 : t.x.Filled) (h5 : t.types.Filled) :
    se4pwOp t.flat rcut rs = se4pwOp t rcut rs ∧ primOp t.flat = primOp t := by
  have e1 : t.flat.batch = 1 := hb
  have f1 : t.flat.ilist.frame .int32 0 = t.ilist.frame .int32 0 := Ten.flat_frame h1 _
  have f2 : t.flat.numneigh.frame .int32 0 = t.numneigh.frame .int32 0 := Ten.flat_frame h2 _
  have f3 : t.flat.firstneigh.frame .int32 0 = t.firstneigh.frame .int32 0 := Ten.flat_frame h3 _
  have f4 : ∀ k, t.flat.x.frame k 0 = t.x.frame k 0 := fun k => Ten.flat_frame h4 k
  have f5 : t.flat.types.frame .int32 0 = t.types.frame .int32 0 := Ten.flat_frame h5 _
  constructor
  · unfold se4pwOp
    have : ∀ tot out, se4pwOpFrame t.flat rcut rs tot out 0 = se4pwOpFrame t rcut rs tot out 0 := by
      intro tot out
      unfold se4pwOpFrame
      rw [f1, f2, f3, f4, f5]
      rfl
    simp only [e1, hb, List.range_one, List.foldlM_cons, this]
    rfl
  · unfold primOp
    have : ∀ tot out, primOpFrame t.flat tot out 0 = primOpFrame t tot out 0 := by
      intro tot out
      unfold primOpFrame
      rw [f1, f2, f3, f5]
      rfl
    simp only [e1, hb, List.range_one, List.foldlM_cons, this]
    rfl

example (a b c d : Vec ℝ) := C153_flat_partial { exTwo a b c d with batch := 1 } 3 1 rfl
  ⟨rfl, by simp [exTwo], by simp [exTwo]⟩ ⟨rfl, by simp [exTwo], by simp [exTwo]⟩ ⟨rfl, by simp [exTwo], by simp [exTwo]⟩
  ⟨rfl, by simp [exTwo], by simp [exTwo]⟩ ⟨rfl, by simp [exTwo], by simp [exTwo]⟩

/-- C153 fails for two frames: with flattened tensors the second frame is read one element, not one
frame, behind the first one. -/
theorem C153_violated_flat (a b c d : Vec ℝ) (rcut rs : ℝ) :
    (se4pwOp (exTwo a b c d) rcut rs).map (List.map (fun e => e.2.2)) = .ok [b - a, d - c] ∧
    (se4pwOp (exTwo a b c d).flat rcut rs).map (List.map (fun e => e.2.2)) =
      .ok [b - a, ![b 1 - a 1, b 2 - a 2, c 0 - b 0]] := by
  have hs : ∀ v w : Vec ℝ, ![v 0 - w 0, v 1 - w 1, v 2 - w 2] = v - w := fun v w => by
    funext i
    fin_cases i <;> rfl
  constructor <;>
  simp [se4pwOp, exTwo, Se4pwIn.flat, Ten.flat, se4pwOpFrame, Ten.row, Ten.shows, tenOffs, Ten.frame, Ten.data,
    cFirst, frameOn, slotFillOn, slotStep, SlotIn.width, nstartIdxs, cGet, cSet, List.range_succ, bind,
    Except.bind, pure, Except.pure, Except.map, cVec3, hs]

/-! ## C154: element types -/

/-- C154: tensors of another element type are rejected by both operators, they are never misread. -/
theorem C154_kinds (rcut rs : ℝ) :
    (∀ t : EnvOpIn, (t.ilist.kind ≠ .int32 ∨ t.numneigh.kind ≠ .int32 ∨ t.firstneigh.kind ≠ .int32 ∨
      t.types.kind ≠ .int32 ∨ t.umax.kind ≠ .int32 ∨
      (t.rel.kind ≠ .float32 ∧ t.rel.kind ≠ .float64)) → envOp t rcut rs = .error .assertFail) ∧
    (∀ (t : Se4pwIn) (u : List ℤ), t.batch ≠ 0 → t.nums.shows = .ok u →
      (t.ilist.kind ≠ .int32 ∨ t.numneigh.kind ≠ .int32 ∨ t.firstneigh.kind ≠ .int32 ∨
        t.types.kind ≠ .int32 ∨ t.nums.kind ≠ .int32) →
      se4pwOp t rcut rs = .error .exception ∧ primOp t = .error .exception) ∧
    (∀ (t : Se4pwIn) (u : List ℤ), t.batch ≠ 0 → t.nums.shows = .ok u →
      (t.x.kind ≠ .float32 ∧ t.x.kind ≠ .float64) → se4pwOp t rcut rs = .error .exception) := by
  have key : ∀ (t : Se4pwIn) (tot : ℕ) (out : List Se4pwSlot), (t.ilist.kind ≠ .int32 ∨
      t.numneigh.kind ≠ .int32 ∨ t.firstneigh.kind ≠ .int32 ∨ t.types.kind ≠ .int32 ∨
      t.nums.kind ≠ .int32 ∨ (t.x.kind ≠ .float32 ∧ t.x.kind ≠ .float64)) →
      se4pwOpFrame t rcut rs tot out 0 = .error .exception := by
    intro t tot out hbad
    unfold se4pwOpFrame
    rcases Ten.frame_cases t.ilist .int32 0 with ⟨l1, e1, k1⟩ | e1
    swap
    · rw [e1, error_bind]
    rw [e1, ok_bind]
    rcases Ten.frame_cases t.numneigh .int32 0 with ⟨l2, e2, k2⟩ | e2
    swap
    · rw [e2, error_bind]
    rw [e2, ok_bind]
    rcases Ten.frame_cases t.firstneigh .int32 0 with ⟨l3, e3, k3⟩ | e3
    swap
    · rw [e3, error_bind]
    rw [e3, ok_bind]
    rcases Ten.frame_cases t.x (if t.x.kind = .float32 then .float32 else .float64) 0 with ⟨l4, e4, k4⟩ | e4
    swap
    · rw [e4, error_bind]
    rw [e4, ok_bind]
    rcases Ten.frame_cases t.types .int32 0 with ⟨l5, e5, k5⟩ | e5
    swap
    · rw [e5, error_bind]
    rw [e5, ok_bind]
    unfold Ten.data
    by_cases k6 : t.nums.kind = .int32
    · exfalso
      rcases hbad with h | h | h | h | h | ⟨h, h'⟩
      · exact h k1
      · exact h k2
      · exact h k3
      · exact h k5
      · exact h k6
      · rw [if_neg h] at k4
        exact h' k4
    · rw [if_neg k6, error_bind]
  have key2 : ∀ (t : Se4pwIn) (tot : ℕ) (out : List ℤ), (t.ilist.kind ≠ .int32 ∨
      t.numneigh.kind ≠ .int32 ∨ t.firstneigh.kind ≠ .int32 ∨ t.types.kind ≠ .int32 ∨
      t.nums.kind ≠ .int32) → primOpFrame t tot out 0 = .error .exception := by
    intro t tot out hbad
    unfold primOpFrame
    rcases Ten.frame_cases t.ilist .int32 0 with ⟨l1, e1, k1⟩ | e1
    swap
    · rw [e1, error_bind]
    rw [e1, ok_bind]
    rcases Ten.frame_cases t.numneigh .int32 0 with ⟨l2, e2, k2⟩ | e2
    swap
    · rw [e2, error_bind]
    rw [e2, ok_bind]
    rcases Ten.frame_cases t.firstneigh .int32 0 with ⟨l3, e3, k3⟩ | e3
    swap
    · rw [e3, error_bind]
    rw [e3, ok_bind]
    rcases Ten.frame_cases t.types .int32 0 with ⟨l5, e5, k5⟩ | e5
    swap
    · rw [e5, error_bind]
    rw [e5, ok_bind]
    unfold Ten.data
    by_cases k6 : t.nums.kind = .int32
    · exfalso
      rcases hbad with h | h | h | h | h
      · exact h k1
      · exact h k2
      · exact h k3
      · exact h k5
      · exact h k6
    · rw [if_neg k6, error_bind]
  have fwd : ∀ (t : Se4pwIn) (u : List ℤ), t.batch ≠ 0 → t.nums.shows = .ok u →
      (t.ilist.kind ≠ .int32 ∨ t.numneigh.kind ≠ .int32 ∨ t.firstneigh.kind ≠ .int32 ∨
        t.types.kind ≠ .int32 ∨ t.nums.kind ≠ .int32 ∨ (t.x.kind ≠ .float32 ∧ t.x.kind ≠ .float64)) →
      se4pwOp t rcut rs = .error .exception := by
    intro t u hb hu hbad
    unfold se4pwOp
    rw [hu, ok_bind]
    show (if u.sum < 0 then _ else _) = _
    split
    · rfl
    · exact foldlM_first_error (key t _ _ hbad) hb
  refine ⟨fun t hbad => if_neg ?_, fun t u hb hu hbad => ⟨fwd t u hb hu (by tauto), ?_⟩,
    fun t u hb hu hbad => fwd t u hb hu (by tauto)⟩
  · rintro ⟨a1, a2, a3, a4, a5, a6⟩
    tauto
  · unfold primOp
    rw [hu, ok_bind]
    show (if u.sum < 0 then _ else _) = _
    split
    · rfl
    · exact foldlM_first_error (key2 t _ _ hbad) hb

example := (C154_kinds 3 1).1 { exBatch 2 with types := ⟨.int64, [0, 0], 0, [2, 1], [1, 1]⟩ } (by
  right; right; right; left; decide)

example (a b c d : Vec ℝ) := (C154_kinds 3 1).2.1
  { exTwo a b c d with types := ⟨.int64, [0, 0, 0, 0], 0, [2, 2], [2, 1]⟩ } [1] (by simp [exTwo]) rfl (by
  right; right; right; left; simp)

/-! ## C155: storage -/

/-- C155 as far as it holds: tensors which hold the same frames give the same result, wherever the frames
lie, as long as the elements of a frame lie one after the other. -/
theorem C155_storage_partial (rcut rs : ℝ) :
    (∀ (t t' : EnvOpIn) (inum ntypes : ℕ) (u : ℤ) (fs : List EnvFrame), t.Holds inum ntypes fs →
      t'.Holds inum ntypes fs → fs ≠ [] → (∀ f ∈ fs, f.umax.sum = u) →
      (∀ f ∈ fs, ∃ o, f.alone inum rcut rs = .ok o) →
      envOp t rcut rs = envOp t' rcut rs ∧ ∃ out, envOp t rcut rs = .ok out) ∧
    (∀ (t t' : Se4pwIn) (umax : List ℤ) (fs : List Se4pwFrame), t.Holds umax fs → t'.Holds umax fs →
      t'.inum = t.inum → fs ≠ [] → (∀ f ∈ fs, ∃ o, f.alone t.inum umax rcut rs = .ok o) →
      se4pwOp t rcut rs = se4pwOp t' rcut rs ∧ ∃ out, se4pwOp t rcut rs = .ok out) := by
  have ex : ∀ {ι σ : Type} (R : ι → σ → Prop) (l : List ι), (∀ f ∈ l, ∃ o, R f o) →
      ∃ m, List.Forall₂ R l m := by
    intro ι σ R l
    induction l with
    | nil => exact fun _ => ⟨[], .nil⟩
    | cons a l ih =>
      intro h
      obtain ⟨o, ho⟩ := h a (by simp)
      obtain ⟨m, hm⟩ := ih fun f hf => h f (by simp [hf])
      exact ⟨o :: m, .cons ho hm⟩
  constructor
  · intro t t' inum ntypes u fs h h' hne hu ho
    obtain ⟨m, hm⟩ := ex _ fs ho
    rw [envOp_ok h hne hu hm, envOp_ok h' hne hu hm]
    exact ⟨rfl, _, rfl⟩
  · intro t t' umax fs h h' hi hne ho
    obtain ⟨m, hm⟩ := ex _ fs ho
    rw [se4pwOp_ok h hne hm, se4pwOp_ok h' hne (by rw [hi]; exact hm)]
    exact ⟨rfl, _, rfl⟩

/-- The tensors of `exTwo` with a gap in memory between the two frames of coordinates. -/
def exTwoGap (a b c d : Vec ℝ) : Se4pwIn :=
  { exTwo a b c d with x := ⟨.float64,
      [a 0, a 1, a 2, b 0, b 1, b 2, 5, 5, c 0, c 1, c 2, d 0, d 1, d 2], 0, [2, 2, 3], [8, 3, 1]⟩ }

theorem exTwoGap_holds (a b c d : Vec ℝ) : (exTwoGap a b c d).Holds [1] (exTwoFrames a b c d) := by
  refine ⟨rfl, ?_, ?_, ?_, Or.inr ?_, ?_, rfl, rfl, rfl, rfl⟩ <;>
    exact ⟨rfl, rfl, rfl, rfl, by simp [exTwoFrames, exTwo, exTwoGap], rfl⟩

example (a b c d : Vec ℝ) := (C155_storage_partial 3 1).2 (exTwo a b c d) (exTwoGap a b c d) [1]
  (exTwoFrames a b c d) (exTwo_holds a b c d) (exTwoGap_holds a b c d) rfl (by simp [exTwoFrames]) (by
    intro f hf
    simp only [exTwoFrames, List.mem_cons, List.not_mem_nil, or_false] at hf
    rcases hf with rfl | rfl <;>
    simp [Se4pwFrame.alone, se4pwGenerate, exTwo, slotFill, slotStep, SlotIn.width, nstartIdxs, cGet, cSet,
      cVec3, List.range_succ, bind, Except.bind, pure, Except.pure])

/-- One centre with one neighbour; the relative coordinates are every `s`-th element of `mem`. -/
def exStride (mem : List ℝ) (s : ℕ) : EnvOpIn where
  ilist := ⟨.int32, [0], 0, [1, 1], [1, 1]⟩
  numneigh := ⟨.int32, [1], 0, [1, 1], [1, 1]⟩
  firstneigh := ⟨.int32, [0], 0, [1, 1, 1], [1, 1, 1]⟩
  rel := ⟨.float64, mem, 0, [1, 1, 1, 3], [3 * s, 3 * s, 3 * s, s]⟩
  types := ⟨.int32, [0], 0, [1, 1], [1, 1]⟩
  umax := ⟨.int32, [1], 0, [1, 1], [1, 1]⟩

/-- C155 fails: two tensors which show the same relative coordinates, one of them a slice with stride 2,
give different rows; what lies between the elements is taken for coordinates. -/
theorem C155_violated_strides (v : Vec ℝ) (a b rcut rs : ℝ) :
    (exStride [v 0, v 1, v 2] 1).rel.shows = .ok [v 0, v 1, v 2] ∧
    (exStride [v 0, a, v 1, b, v 2] 2).rel.shows = .ok [v 0, v 1, v 2] ∧
    (envOp (exStride [v 0, v 1, v 2] 1) rcut rs).map (List.map Prod.fst) = .ok [envAt rcut rs v 0] ∧
    (envOp (exStride [v 0, a, v 1, b, v 2] 2) rcut rs).map (List.map Prod.fst) =
      .ok [envAt rcut rs ![v 0, a, v 1] 0] := by
  have hv : ![v 0, v 1, v 2] = v := by
    funext i
    fin_cases i <;> rfl
  rw [← cEnvRow_envAt_zero, ← cEnvRow_envAt_zero]
  refine ⟨?_, ?_, ?_, ?_⟩ <;>
  simp [envOp, exStride, EnvOpIn.kindsOk, Ten.size, Ten.row, Ten.shows, tenOffs, envOpFrame, Ten.frame, Ten.data,
    cFirst, frameOn, slotFillOn, slotStep, SlotIn.width, nstartIdxs, cGet, cSet, List.range_succ, bind,
    Except.bind, pure, Except.pure, Except.map, cVec3, hv]

/-! ## C156: gradients -/

/-- C156 fails: the row of a neighbour depends on its relative coordinates, its derivative is not zero,
but the backward pass never gives a gradient for any argument. -/
theorem C156_violated :
    (∀ y : Vec ℝ, (envOp (exStride [y 0, y 1, y 2] 1) 3 2).map (List.map Prod.fst) = .ok [envAt 3 2 y 0]) ∧
    (∃ D : Vec ℝ →L[ℝ] (Fin 4 → ℝ), HasFDerivAt (fun y => envAt 3 2 y 0) D ![1, 0, 0] ∧ D ≠ 0) ∧
    ∀ (grads : List EnvSlot), ∀ g ∈ envOpBackward grads, g = none := by
  refine ⟨fun y => (C155_violated_strides y 0 0 3 2).2.2.1,
    ⟨(Matrix.mulVecLin (cEnvDeriv 3 2 ![1, 0, 0])).toContinuousLinearMap, ?_, ?_⟩, fun g => by simp [envOpBackward]⟩
  · have := hasFDerivAt_envRow (rcut := 3) (rs := 2) (by norm_num) ![1, 0, 0] (norm3_pos (fun h => by
      simpa using congrFun h 0))
    simp only [cEnvRow_envAt_zero] at this
    exact this
  · intro h
    have := congrFun (congrArg (fun D : Vec ℝ →L[ℝ] (Fin 4 → ℝ) => D ![1, 0, 0]) h) 0
    simp [cEnvDeriv, Matrix.mulVec, dotProduct, Fin.sum_univ_three, cRecip, cSwitch, cSwitchDeriv] at this

end MaterSDK
