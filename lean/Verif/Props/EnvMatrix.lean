import Verif.Lemmas.EnvMatrixAux
import Verif.Lemmas.EnvMatrixUse
import Verif.Lemmas.EnvStructure
import Verif.Lemmas.Averages
import Verif.Lemmas.CellListAux
import Verif.Lemmas.CellListMore
import Mathlib.Tactic.FinCases
import Mathlib.Tactic.NormNum

/-! # C++ environment matrix: properties C90 to C94 -/

namespace MaterSDK



open Classical

/-! ## C90, C91 -/

/-- C90: when every type has room for the neighbours of that type, `tilde_r` holds for every centre and
every type the DeepPot-SE rows of exactly the neighbours of that type, in the order of the neighbour
list, then zeros. -/
theorem C90_env_values (p : SlotIn) (umax : List ℕ) (n : ℕ) (nbrs : ℕ → List (ℕ × Vec ℝ)) (rel : List ℝ)
    (rcut rs : ℝ) (ty : ℕ → ℤ)
    (hl : ListsNbrs p umax n (fun ii => (nbrs ii).map Prod.fst))
    (hty : ∀ ii < n, ∀ e ∈ nbrs ii, p.types[e.1]? = some (ty e.1))
    (hrel : ∀ ii < n, ∀ (jj : ℕ) (e : ℕ × Vec ℝ), (nbrs ii)[jj]? = some e →
      StoredAt rel (ii * umax.sum + jj) e.2)
    (hroom : ∀ ii < n, RoomFor umax ((nbrs ii).map (fun e => (ty e.1, e.2)))) :
    ∃ out, envFind p rel rcut rs = .ok out ∧ out.length = n * umax.sum ∧
      out.map Prod.fst = (List.range n).flatMap (fun ii =>
        typeBlocks 0 umax ((nbrs ii).map (fun e => (ty e.1, envAt rcut rs e.2 0)))) := by
  refine ⟨_, envFind_ok p umax n nbrs rel rcut rs ty hl hty hrel hroom, ?_, ?_⟩
  · rw [flatMap_uniform_length _ _ umax.sum, List.length_range]
    intro ii hii
    apply typeBlocks_length
    have h := hroom ii (List.mem_range.1 hii)
    have := (roomFor_map (fun v : Vec ℝ => (cEnvRow rcut rs v, cEnvDeriv rcut rs v)) umax _).2 h
    rw [List.map_map] at this
    exact this
  · rw [List.map_flatMap]
    refine List.flatMap_congr ?_
    intro ii _
    rw [typeBlocks_map, List.map_map]
    congr 1
    refine List.map_congr_left ?_
    intro e _
    show (ty e.1, cEnvRow rcut rs e.2) = _
    rw [cEnvRow_envAt_zero]

/-- C91: every block of `tilde_r_deriv` is the derivative of the row in the same slot of `tilde_r` with
respect to the relative position of the neighbour, at any non-zero distance, also at the two ends of
the switching interval and beyond the cutoff; blocks without a neighbour are zero. -/
theorem C91_env_derivative (p : SlotIn) (umax : List ℕ) (n : ℕ) (nbrs : ℕ → List (ℕ × Vec ℝ))
    (rel : List ℝ) (rcut rs : ℝ) (ty : ℕ → ℤ) (h : rs < rcut)
    (hl : ListsNbrs p umax n (fun ii => (nbrs ii).map Prod.fst))
    (hty : ∀ ii < n, ∀ e ∈ nbrs ii, p.types[e.1]? = some (ty e.1))
    (hrel : ∀ ii < n, ∀ (jj : ℕ) (e : ℕ × Vec ℝ), (nbrs ii)[jj]? = some e →
      StoredAt rel (ii * umax.sum + jj) e.2)
    (hroom : ∀ ii < n, RoomFor umax ((nbrs ii).map (fun e => (ty e.1, e.2)))) :
    ∃ out, envFind p rel rcut rs = .ok out ∧ ∃ J : Vec ℝ → Matrix (Fin 4) (Fin 3) ℝ,
      (∀ v, v ≠ 0 → HasFDerivAt (fun y => envAt rcut rs y 0)
        ((Matrix.mulVecLin (J v)).toContinuousLinearMap) v) ∧
      out.map Prod.snd = (List.range n).flatMap (fun ii =>
        typeBlocks 0 umax ((nbrs ii).map (fun e => (ty e.1, J e.2)))) := by
  refine ⟨_, envFind_ok p umax n nbrs rel rcut rs ty hl hty hrel hroom, cEnvDeriv rcut rs, ?_, ?_⟩
  · intro v hv
    have := hasFDerivAt_envRow h v (norm3_pos hv)
    simp only [cEnvRow_envAt_zero] at this
    exact this
  · rw [List.map_flatMap]
    refine List.flatMap_congr ?_
    intro ii _
    rw [typeBlocks_map, List.map_map]
    rfl

example := C90_env_values exSlots [1, 3] 2 exSlotNbrs exSlotRel 3 1 (fun k => (k : ℤ))
  exSlots_lists exSlots_types exSlots_rel exSlots_room

example := C91_env_derivative exSlots [1, 3] 2 exSlotNbrs exSlotRel 3 1 (fun k => (k : ℤ)) (by norm_num)
  exSlots_lists exSlots_types exSlots_rel exSlots_room

/-! ## C92 -/

/-- C92 fails: with one slot per type and two neighbours of type 0, the second one is stored in the slot
of type 1 and nothing is reported. -/
theorem C92_violated_spill (v w : Vec ℝ) (rcut rs : ℝ) :
    (envFind ⟨1, [2], [0, 1], [0, 0], [1, 1]⟩ [v 0, v 1, v 2, w 0, w 1, w 2] rcut rs).map
      (List.map Prod.fst) = .ok [envAt rcut rs v 0, envAt rcut rs w 0] := by
  have hv : cVec3 [v 0, v 1, v 2, w 0, w 1, w 2] 0 = .ok v := cVec3_ok (k := 0) ⟨rfl, rfl, rfl⟩
  have hw : cVec3 [v 0, v 1, v 2, w 0, w 1, w 2] 1 = .ok w := cVec3_ok (k := 1) ⟨rfl, rfl, rfl⟩
  rw [← cEnvRow_envAt_zero, ← cEnvRow_envAt_zero]
  simp [envFind, slotFill, slotStep, SlotIn.width, nstartIdxs, cGet, cSet, List.range_succ, bind,
    Except.bind, pure, Except.pure, hv, hw, Except.map]

/-- C92 fails: with one slot for type 0 and two for type 1, neighbours of types 0, 0 and 1 end up in two
slots; the second neighbour is overwritten by the third and nothing is reported. -/
theorem C92_violated_overwrite (u v w : Vec ℝ) (rcut rs : ℝ) :
    (envFind ⟨1, [3], [0, 1, 2], [0, 0, 1], [1, 2]⟩ [u 0, u 1, u 2, v 0, v 1, v 2, w 0, w 1, w 2] rcut
      rs).map (List.map Prod.fst) = .ok [envAt rcut rs u 0, envAt rcut rs w 0, 0] := by
  have hu : cVec3 [u 0, u 1, u 2, v 0, v 1, v 2, w 0, w 1, w 2] 0 = .ok u := cVec3_ok (k := 0) ⟨rfl, rfl, rfl⟩
  have hv : cVec3 [u 0, u 1, u 2, v 0, v 1, v 2, w 0, w 1, w 2] 1 = .ok v := cVec3_ok (k := 1) ⟨rfl, rfl, rfl⟩
  have hw : cVec3 [u 0, u 1, u 2, v 0, v 1, v 2, w 0, w 1, w 2] 2 = .ok w := cVec3_ok (k := 2) ⟨rfl, rfl, rfl⟩
  rw [← cEnvRow_envAt_zero, ← cEnvRow_envAt_zero]
  simp [envFind, slotFill, slotStep, SlotIn.width, nstartIdxs, cGet, cSet, List.range_succ, bind,
    Except.bind, pure, Except.pure, hu, hv, hw, Except.map]

/-- C92 as far as it holds: neighbours of a type without slots at all (a type number that is negative or
not below the number of types) never produce a result. -/
theorem C92_unknown_type_partial (p : SlotIn) (rel : List ℝ) (rcut rs : ℝ) (ii jj : ℕ) (m : ℤ) (nb : ℤ) (t : ℤ)
    (hii : (ii : ℤ) < p.inum) (hm : p.numneigh[ii]? = some m) (hjj : (jj : ℤ) < m)
    (hnb : cGet p.firstneigh (ii * p.width + jj) = .ok nb) (ht : cGet p.types nb = .ok t)
    (hbad : t < 0 ∨ (p.umax.length : ℤ) ≤ t) (out : List ((Fin 4 → ℝ) × Matrix (Fin 4) (Fin 3) ℝ)) :
    envFind p rel rcut rs ≠ .ok out := by
  intro h
  unfold envFind slotFill at h
  split at h
  · exact absurd h (by simp)
  · obtain ⟨st, st', hst⟩ := foldlM_step_ok h (List.mem_range.2 (show ii < p.inum.toNat by omega))
    rw [ok_bind, cGet_nat hm, ok_bind, bind_eq_ok] at hst
    obtain ⟨a, ha, _⟩ := hst
    obtain ⟨st2, st3, hst2⟩ := foldlM_step_ok ha (List.mem_range.2 (show jj < m.toNat by omega))
    unfold slotStep at hst2
    rw [hnb, ok_bind, ht, ok_bind, bind_eq_ok] at hst2
    obtain ⟨_, _, hst2⟩ := hst2
    rw [cGet_oob (by unfold nstartIdxs; simpa using hbad), error_bind] at hst2
    exact absurd hst2 (by simp)

example (rel : List ℝ) := C92_unknown_type_partial ⟨1, [1], [0], [5], [1, 1]⟩ rel 3 1 0 0 1 0 5
  (by decide) rfl (by decide) rfl rfl (Or.inr (by decide))

/-! ## C93 -/

/-- C93: `Se4pw::generate` and `Se4pw::get_prim_indices_from_matersdk` put every neighbour in the same
slot: its DeepPot-SE row, the derivative of that row with respect to the position of the centre, its
relative position, and the index of the cell atom it is an image of; slots without a neighbour hold
zeros and `-1`. -/
theorem C93_se4pw (p : SlotIn) (umax : List ℕ) (n : ℕ) (nbrs : ℕ → List ℕ) (ilist : List ℤ) (x : List ℝ)
    (rcut rs : ℝ) (ty : ℕ → ℤ) (ctr : ℕ → ℕ) (pos : ℕ → Vec ℝ) (h : rs < rcut)
    (hl : ListsNbrs p umax n nbrs) (hty : ∀ ii < n, ∀ k ∈ nbrs ii, p.types[k]? = some (ty k))
    (hi : ∀ ii < n, ilist[ii]? = some (ctr ii : ℤ)) (hx : ∀ ii < n, StoredAt x (ctr ii) (pos (ctr ii)))
    (hxn : ∀ ii < n, ∀ k ∈ nbrs ii, StoredAt x k (pos k))
    (hroom : ∀ ii < n, RoomFor umax ((nbrs ii).map (fun k => (ty k, k)))) :
    ∃ out idx, se4pwGenerate p ilist x rcut rs = .ok out ∧ primIndices p ilist = .ok idx ∧
      out.map Prod.fst = (List.range n).flatMap (fun ii => typeBlocks 0 umax
        ((nbrs ii).map (fun k => (ty k, envAt rcut rs (pos k) (pos (ctr ii)))))) ∧
      (∃ J : Vec ℝ → Vec ℝ → Matrix (Fin 4) (Fin 3) ℝ,
        (∀ q c, q ≠ c → HasFDerivAt (fun y => envAt rcut rs q y)
          ((Matrix.mulVecLin (J q c)).toContinuousLinearMap) c) ∧
        out.map (fun e => e.2.1) = (List.range n).flatMap (fun ii => typeBlocks 0 umax
          ((nbrs ii).map (fun k => (ty k, J (pos k) (pos (ctr ii))))))) ∧
      out.map (fun e => e.2.2) = (List.range n).flatMap (fun ii => typeBlocks 0 umax
        ((nbrs ii).map (fun k => (ty k, pos k - pos (ctr ii))))) ∧
      idx = (List.range n).flatMap (fun ii => typeBlocks (-1) umax
        ((nbrs ii).map (fun k => (ty k, ((k % n : ℕ) : ℤ))))) := by
  obtain ⟨h1, h2⟩ := se4pw_ok p umax n nbrs ilist x rcut rs ty ctr pos hl hty hi hx hxn hroom
  refine ⟨_, _, h1, h2, ?_, ⟨fun q c => cSe4pwDeriv rcut rs (q - c), ?_, ?_⟩, ?_, rfl⟩
  · rw [List.map_flatMap]
    refine List.flatMap_congr ?_
    intro ii _
    rw [typeBlocks_map, List.map_map]
    congr 1
    refine List.map_congr_left ?_
    intro k _
    show (ty k, cEnvRow rcut rs (pos k - pos (ctr ii))) = _
    rw [cEnvRow_envAt]
  · intro q c hqc
    have e := hasFDerivAt_envRow h (q - c) (norm3_pos (sub_ne_zero.2 hqc))
    have s : HasFDerivAt (fun y : Vec ℝ => q - y) (-ContinuousLinearMap.id ℝ (Vec ℝ)) c :=
      (hasFDerivAt_id c).const_sub q
    have k := e.comp c s
    refine HasFDerivAt.congr_fderiv (k.congr_of_eventuallyEq ?_) ?_
    · filter_upwards with y
      exact (cEnvRow_envAt rcut rs q y).symm
    · ext w
      simp [se4pwDeriv_neg]
  · rw [List.map_flatMap]
    refine List.flatMap_congr ?_
    intro ii _
    rw [typeBlocks_map, List.map_map]
    rfl
  · rw [List.map_flatMap]
    refine List.flatMap_congr ?_
    intro ii _
    rw [typeBlocks_map, List.map_map]
    rfl

example := C93_se4pw ⟨1, [2], [2, 1, -1], [0, 1, 1], [1, 2]⟩ [1, 2] 1 (fun _ => [2, 1]) [0]
  [0, 0, 0, 1, 0, 0, 0, 2, 0] 3 1 (fun k => if k = 0 then 0 else 1) (fun _ => 0) exPos (by norm_num)
  ⟨rfl, rfl, by
    intro ii hii
    interval_cases ii
    refine ⟨rfl, ?_⟩
    intro jj k hk
    rcases jj with _ | _ | jj <;> simp at hk <;> subst hk <;> rfl⟩
  (by
    intro ii _ k hk
    simp only [List.mem_cons, List.not_mem_nil, or_false] at hk
    rcases hk with rfl | rfl <;> rfl)
  (by
    intro ii hii
    interval_cases ii
    rfl)
  (by
    intro ii _
    simp [StoredAt, exPos])
  (by
    intro ii _ k hk
    simp only [List.mem_cons, List.not_mem_nil, or_false] at hk
    rcases hk with rfl | rfl <;> simp [StoredAt, exPos])
  (by
    intro ii _
    refine ⟨by simp, ?_⟩
    intro t m hm
    rcases t with _ | _ | t <;> simp at hm <;> subst hm <;> simp)

/-! ## C94 -/

/-- C94: from a structure to its environment matrix. For cells the neighbour list handles, atoms whose
numbers are types, and enough slots for every type, the tables of `find_info4mlff` handed to
`EnvMatrix::find_value_deriv` give for every atom and type the DeepPot-SE rows of exactly the periodic
images of that type closer than the cutoff, each once, followed by zeros. -/
theorem C94_structure_to_env_partial (A : ArgSort) (L : Fin 3 → Vec ℝ) (atoms : List (ℤ × Vec ℝ)) (rcut rs : ℝ)
    (pbc : Fin 3 → Bool) (sort : Bool) (hok : CellOk L atoms pbc) (hr : 0 < rcut)
    (hap : ApartImages L (atoms.map Prod.snd)) (umax : List ℕ)
    (hty : ∀ a ∈ atoms, 0 ≤ a.1 ∧ a.1 < umax.length)
    (hroom : ∀ (i : ℕ) (c : ℤ × Vec ℝ), atoms[i]? = some c → ∀ (t m : ℕ), umax[t]? = some m →
      ∀ l : List (ℕ × (Fin 3 → ℤ)), l.Nodup → (∀ e ∈ l, NearBy L pbc (atoms.map Prod.snd) rcut c.2 e ∧
        e ≠ (i, 0) ∧ (atoms[e.1]?).map Prod.fst = some (t : ℤ)) → l.length ≤ m) :
    ∃ N info out, NbrLists.make A (CStruct.make L atoms true) rcut pbc sort = .ok N ∧
      N.findInfo umax.sum = .ok info ∧
      envFind ⟨info.inum, info.numneigh.map (fun k : ℕ => (k : ℤ)), info.firstneigh, info.types,
        umax.map (fun m : ℕ => (m : ℤ))⟩ info.rel rcut rs = .ok out ∧
      ∀ (i : ℕ) (c : ℤ × Vec ℝ), atoms[i]? = some c → ∃ imgs : List (ℕ × (Fin 3 → ℤ)), imgs.Nodup ∧
        (∀ e, e ∈ imgs ↔ NearBy L pbc (atoms.map Prod.snd) rcut c.2 e ∧ e ≠ (i, 0)) ∧
        flatRow (out.map Prod.fst) umax.sum i
          = typeBlocks 0 umax (imgs.map (imageEnv L atoms rcut rs c.2)) := by
  obtain ⟨N, info, out, h1, h2, h3, h4⟩ := env_core A L atoms rcut rs pbc sort hok hr hap umax hty hroom
  refine ⟨N, info, out, h1, h2, h3, ?_⟩
  intro i c hc
  obtain ⟨imgs, g1, g2, _, g3, _⟩ := h4 i c hc
  refine ⟨imgs, g1, g2, ?_⟩
  rw [flatRow_map, g3, typeBlocks_map, List.map_map]
  congr 1
  refine List.map_congr_left ?_
  intro e he
  obtain ⟨⟨_, p, hp, _⟩, _⟩ := (g2 e).1 he
  rw [List.getElem?_map] at hp
  obtain ⟨a, ha, _⟩ := Option.map_eq_some_iff.1 hp
  simp only [Function.comp, imageBoth, imageEnv, ha, cEnvRow_envAt]

example (A : ArgSort) := C94_structure_to_env_partial A exL exTyped 3 1 (fun _ => true) true exTyped_ok
  (by norm_num) exL_apart [2, 2]
  (by
    intro a ha
    simp only [exTyped, List.mem_cons, List.not_mem_nil, or_false] at ha
    rcases ha with rfl | rfl <;> simp)
  (by
    intro i c hc t m hm l hl h
    have hm2 : m = 2 := by
      rcases t with _ | _ | t <;> simp at hm <;> exact hm.symm
    subst hm2
    exact (hl.subperm (fun e he => exTyped_near i c hc e (h e he).1 (h e he).2.1)).length_le)

/-- C94 fails for the tables `find_info4mlff` hands out: their types are atomic numbers, used as positions
in the list of slots per type. Whenever some atom has a neighbour whose atomic number is not below the
number of types, no list with enough slots gives a result. -/
theorem C94_violated_atomic_numbers (A : ArgSort) (L : Fin 3 → Vec ℝ) (atoms : List (ℤ × Vec ℝ)) (rcut rs : ℝ)
    (pbc : Fin 3 → Bool) (sort : Bool) (hok : CellOk L atoms pbc) (hr : 0 < rcut) (i : ℕ)
    (c a : ℤ × Vec ℝ) (e : ℕ × (Fin 3 → ℤ)) (hc : atoms[i]? = some c) (ha : atoms[e.1]? = some a)
    (hn : NearBy L pbc (atoms.map Prod.snd) rcut c.2 e)
    (hfar : 1 / 1000 < dist3 (imagePos L a.2 e.2) c.2 ^ 2) :
    ∃ N, NbrLists.make A (CStruct.make L atoms true) rcut pbc sort = .ok N ∧
      ∀ umax : List ℕ, N.maxNum ≤ umax.sum → (umax.length : ℤ) ≤ a.1 →
        ∃ info, N.findInfo umax.sum = .ok info ∧ info.types = atoms.map Prod.fst ∧
          ∀ out, envFind ⟨info.inum, info.numneigh.map (fun k : ℕ => (k : ℤ)), info.firstneigh, info.types,
            umax.map (fun m : ℕ => (m : ℤ))⟩ info.rel rcut rs ≠ .ok out := by
  obtain ⟨N, h1, h2, _, I, h4, h5, _, h6⟩ := nbr_exact A L atoms rcut pbc sort hok hr
  refine ⟨N, h1, ?_⟩
  intro umax hmax hbad
  have hI : ∀ imgs ∈ I, imgs.length ≤ umax.sum := by
    intro imgs hi
    refine le_trans ?_ hmax
    unfold NbrLists.maxNum
    rw [h4]
    exact le_runningMax (List.mem_map_of_mem hi)
  obtain ⟨info, f1, f2, _, f3, _, f4, f5⟩ := h6 umax.sum hI
  refine ⟨info, f1, f3, ?_⟩
  intro out
  obtain ⟨imgs, g1, _, g3, _⟩ := h5 i c hc
  have hmem : e ∈ imgs := by
    rw [g3]
    refine ⟨hn, ?_⟩
    intro p hp
    rw [List.getElem?_map, ha] at hp
    cases hp
    exact hfar
  obtain ⟨jj, hjj⟩ := List.mem_iff_getElem?.1 hmem
  have hjl : jj < imgs.length := (List.getElem?_eq_some_iff.1 hjj).1
  have hju : jj < umax.sum := lt_of_lt_of_le hjl (hI _ (List.mem_of_getElem? g1))
  have hil : i < atoms.length := (List.getElem?_eq_some_iff.1 hc).1
  have hw : (umax.map (fun m : ℕ => (m : ℤ))).sum = (umax.sum : ℤ) := by
    exact (Nat.cast_list_sum umax).symm
  refine C92_unknown_type_partial _ _ rcut rs i jj imgs.length (e.1 : ℤ) a.1 ?_ ?_ ?_ ?_ ?_ (Or.inr ?_) out
  · show (i : ℤ) < (info.inum : ℤ)
    rw [f2]
    exact_mod_cast hil
  · show (info.numneigh.map _)[i]? = _
    rw [f4, List.map_map, List.getElem?_map, g1]
    rfl
  · exact_mod_cast hjl
  · show cGet info.firstneigh (i * (umax.map (fun m : ℕ => (m : ℤ))).sum + jj) = _
    rw [hw]
    have := (f5 i c imgs hc g1).1
    have hg := flatRow_get info.firstneigh umax.sum i jj hju
    rw [this, List.getElem?_append_left (by simpa using hjl), List.getElem?_map, hjj] at hg
    have := cGet_nat hg.symm
    rw [Nat.cast_add, Nat.cast_mul] at this
    exact this
  · show cGet info.types _ = _
    rw [f3]
    exact cGet_nat (by rw [List.getElem?_map, ha]; rfl)
  · simpa using hbad

-- Li and O, two types: the slots of `exL` at cutoff 3 suffice, but 3 and 8 are not below 2
example (A : ArgSort) := C94_violated_atomic_numbers A exL exAtoms 3 1 (fun _ => true) true (exL_ok _ (Or.inl rfl))
  (by norm_num) 0 (3, ![0, 0, 0]) (8, ![2, 1, 1]) (1, 0) rfl rfl
  ⟨by simp, ![2, 1, 1], rfl, by
    rw [imagePos_zero]
    unfold dist3
    rw [Real.sqrt_lt' (by norm_num)]
    rw [Fin.sum_univ_three]
    simp
    norm_num⟩
  (by
    rw [imagePos_zero, dist3_sq_comp]
    simp
    norm_num)

end MaterSDK
