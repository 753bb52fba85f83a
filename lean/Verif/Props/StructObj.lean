import Verif.Lemmas.StructObj
import Mathlib.Tactic.NormNum

/-!
# C128 - C131: objects of the neighbour list classes
-/

namespace MaterSDK

variable {α β : Type}

/-- The general form of C128 - C131: what a program sees is what it would see with values, except
for the assignment of an object to itself. -/
theorem objRun_view (cls : ObjClass α β) (ops : List (ObjOp α β)) :
    (objRun cls ops).map ObjState.view = valRun cls (wrecked cls.d cls.isList) ops :=
  (objRun_rel cls ops _ _ (objInv_start cls)).1

theorem objRun_live (cls : ObjClass α β) (ops : List (ObjOp α β)) (s : ObjState α β)
    (hz : ∀ op ∈ ops, op.noZero) (hs : objRun cls ops = .ok s) :
    liveBlocks s.heap = shownArrays s.view := by
  obtain ⟨L, hi, hL⟩ := (objRun_rel cls ops _ _ (objInv_start cls)).2 s hs
  rw [countP_live _ _ hi.owns, hL hz, List.append_nil, allPtrs_length]

theorem objRun_safe (cls : ObjClass α β) (ops : List (ObjOp α β)) (hf : ∀ op ∈ ops, op.fits cls) :
    (∃ s, objRun cls ops = .ok s) ↔ UsesAlive ops := by
  have h1 := objRun_view cls ops
  have h2 := valRun_life cls (wrecked cls.d cls.isList) ops [] hf
  unfold UsesAlive
  have e : alive ([] : List (Option (ObjVal α β))) = [] := rfl
  rw [e] at h2
  unfold valRun at h1
  rcases h2 with ⟨p, h3, h4⟩ | ⟨h3, h4⟩
  · rw [h3] at h1
    rw [h4]
    cases h : objRun cls ops with
    | ok s => simp
    | error e => rw [h] at h1; cases h1
  · rw [h3] at h1
    rw [h4]
    cases h : objRun cls ops with
    | ok s => rw [h] at h1; cases h1
    | error e => simp

/-! ## C128 -/

/-- C128 (partial: no statement assigns an object to itself).  Whatever a program does with
structures - default construction, construction from data or from a number of atoms, copying,
assignment, `make_supercell`, destruction, in any order - every living structure shows what it would
show if structures were plain values: a copy keeps its data when the original is changed or
destroyed.  A statement goes wrong exactly when it would on values: it uses a structure which is not
alive, or makes a supercell of an empty one. -/
theorem C128_values_partial (ops : List (ObjOp Unit CStruct)) (h : ∀ op ∈ ops, op.notSelf) :
    (objRun structureClass ops).map ObjState.view = valRun structureClass id ops := by
  rw [objRun_view]
  exact valRun_notSelf _ _ _ _ h

/-- C128 is false for `x = x`: whatever the program did before, a structure assigned to itself is
empty afterwards. -/
theorem C128_self_assignment (ops : List (ObjOp Unit CStruct)) (x : ℕ) (b : Block CStruct)
    (s : ObjState Unit CStruct) (hs : objRun structureClass ops = .ok s)
    (hx : s.view[x]? = some (some [((), some b)])) :
    ∃ s', objRun structureClass (ops ++ [.assign x x]) = .ok s' ∧
      s'.view = s.view.set x (some [((), none)]) := by
  have h1 := objRun_view structureClass ops
  have h2 := objRun_view structureClass (ops ++ [.assign x x])
  rw [hs] at h1
  have h3 : valRun structureClass (wrecked structureClass.d structureClass.isList)
      (ops ++ [.assign x x]) = .ok (s.view.set x (some [((), none)])) := by
    unfold valRun at h1 ⊢
    rw [List.foldlM_append, ← h1]
    simp only [Except.map, ok_bind, List.foldlM_cons, List.foldlM_nil, valStep]
    have : valGet s.view x = .ok [((), some b)] := by unfold valGet; rw [hx]
    simp only [this, ok_bind, if_true]
    rfl
  rw [h3] at h2
  cases h : objRun structureClass (ops ++ [.assign x x]) with
  | ok s' =>
    rw [h] at h2
    exact ⟨s', rfl, Except.ok.inj h2⟩
  | error e => rw [h] at h2; cases h2

/-- A structure with one atom. -/
noncomputable def oneAtom : CStruct := ⟨fun i j => if i = j then 2 else 0, 0, [(29, ![0, 0, 0])]⟩

/-- A program for C128: a copy survives its original, which is enlarged and then destroyed. -/
example : (objRun structureClass
      [.make [((), oneAtom)], .copy 0, .dflt, .supercell 0 ![2, 1, 1], .assign 2 0, .destroy 0]).map
      ObjState.view =
    .ok [none, some [((), some (.val oneAtom))],
      some [((), some (.val (oneAtom.makeSupercell fun i => ((![2, 1, 1] : Fin 3 → ℕ) i : ℤ))))]] := by
  rw [C128_values_partial _ (by simp [ObjOp.notSelf])]
  rfl

/-- A program for `C128_self_assignment`. -/
example : ∃ s, objRun structureClass [.make [((), oneAtom)]] = .ok s ∧
    s.view[0]? = some (some [((), some (.val oneAtom))]) := ⟨_, rfl, rfl⟩

/-! ## C129 -/

/-- C129 (partial: no supercell with a factor 0).  A program with structures, even one with
`x = x`, has allocated at any time exactly the arrays of its living, nonempty structures; when all
are destroyed, nothing is left. -/
theorem C129_no_leak_partial (ops : List (ObjOp Unit CStruct)) (s : ObjState Unit CStruct)
    (hz : ∀ op ∈ ops, op.noZero) (hs : objRun structureClass ops = .ok s) :
    liveBlocks s.heap = shownArrays s.view ∧ ((∀ o ∈ s.view, o = none) → liveBlocks s.heap = 0) := by
  have h := objRun_live structureClass ops s hz hs
  refine ⟨h, fun hn => ?_⟩
  rw [h]
  unfold shownArrays
  rw [List.sum_eq_zero]
  intro n hn'
  obtain ⟨o, ho, rfl⟩ := List.mem_map.1 hn'
  rw [hn o ho]
  rfl

/-- Without `make_supercell`, a program with structures goes wrong only if it uses a structure which
is not alive: nothing is freed twice, and nothing is read after it was freed. -/
theorem C129_safe (ops : List (ObjOp Unit CStruct)) (hf : ∀ op ∈ ops, op.fits structureClass) :
    (∃ s, objRun structureClass ops = .ok s) ↔ UsesAlive ops :=
  objRun_safe structureClass ops hf

/-- C129 is false for a factor 0: the structure counts as empty and its arrays are never freed. -/
theorem C129_zero_factor_leaks (c : CStruct) (sc : Fin 3 → ℕ) (h : ∃ i, sc i = 0) :
    ∃ s, objRun structureClass [.make [((), c)], .supercell 0 sc, .destroy 0] = .ok s ∧
      s.view = [none] ∧ liveBlocks s.heap = 1 := by
  have h0 : sc 0 * sc 1 * sc 2 = 0 := by
    obtain ⟨i, hi⟩ := h
    fin_cases i <;> simp_all
  refine ⟨⟨[some (.val c)], [none]⟩, ?_, rfl, rfl⟩
  simp only [objRun, List.foldlM_cons, List.foldlM_nil, objStep, structureClass]
  simp [makeObj, objAlloc, objGet, objRead, h0, destroyObj, freeOwn, pure, Except.pure, bind,
    Except.bind]

/-- `make_supercell` of an empty structure is undefined: the pointers it frees were never set. -/
theorem C129_empty_supercell (sc : Fin 3 → ℕ) :
    objRun structureClass [.dflt, .supercell 0 sc] = .error .undefined := rfl

example : ∃ s, objRun structureClass
      [.make [((), oneAtom)], .copy 0, .assign 1 1, .supercell 0 ![2, 1, 1]] = .ok s ∧
    shownArrays s.view = 1 := ⟨_, rfl, by simp [shownArrays, ObjState.view, objView, makeObj]⟩

/-! ## C130 -/

/-- C130 (partial: no statement assigns an object to itself).  Objects of `Supercell`,
`BinLinkedList` and `NeighborList` (`supercellClass`, `binListClass`, `neighborListClass`) behave
like values, with everything inside them. -/
theorem C130_values_partial (cls : ObjClass α β) (ops : List (ObjOp α β))
    (h : ∀ op ∈ ops, op.notSelf) :
    (objRun cls ops).map ObjState.view = valRun cls id ops := by
  rw [objRun_view]
  exact valRun_notSelf _ _ _ _ h

/-- C130 is false for `x = x`: a neighbour list assigned to itself keeps its counts, but all its
lists are empty, the bins and the indices of its atoms are not initialised, and the structure inside
is empty. -/
theorem C130_self_assignment (d : α) (v0 v1 v2 v3 : α × β) :
    (objRun (neighborListClass d) [.make [v0, v1, v2, v3], .assign 0 0]).map ObjState.view =
      .ok [some [(v0.1, some .emptied), (v1.1, some .uninit), (v2.1, some .uninit), (d, none)]] := by
  rw [objRun_view]
  rfl

/-- The same for the two classes inside. -/
theorem C130_self_assignment_inner (d : α) (v1 v2 v3 : α × β) :
    (objRun (binListClass d) [.make [v1, v2, v3], .assign 0 0]).map ObjState.view =
      .ok [some [(v1.1, some .uninit), (v2.1, some .uninit), (d, none)]] ∧
    (objRun (supercellClass d) [.make [v2, v3], .assign 0 0]).map ObjState.view =
      .ok [some [(v2.1, some .uninit), (d, none)]] := by
  rw [objRun_view, objRun_view]
  exact ⟨rfl, rfl⟩

/-- A program for C130: assign to a list, then destroy the one it was assigned from. -/
example : (objRun (neighborListClass 0)
      [.make [(1, 10), (2, 20), (3, 30), (4, 40)], .dflt, .assign 1 0, .destroy 0]).map
      ObjState.view =
    .ok [none, some [(1, some (.val 10)), (2, some (.val 20)), (3, some (.val 30)),
      (4, some (.val 40))]] := by
  rw [C130_values_partial _ _ (by simp [ObjOp.notSelf])]
  rfl

/-! ## C131 -/

/-- C131.  A program with objects of `Supercell`, `BinLinkedList` or `NeighborList`, even one with
`x = x`, goes wrong only if it uses an object which is not alive: nothing is freed twice, and nothing
is read after it was freed. -/
theorem C131_safe (cls : ObjClass α β) (ops : List (ObjOp α β))
    (hf : ∀ op ∈ ops, op.fits cls) :
    (∃ s, objRun cls ops = .ok s) ↔ UsesAlive ops :=
  objRun_safe cls ops hf

/-- C131.  At any time exactly the arrays of the living objects are allocated; when all objects are
destroyed, nothing is left. -/
theorem C131_no_leak (cls : ObjClass α β) (ops : List (ObjOp α β))
    (s : ObjState α β) (hf : ∀ op ∈ ops, op.fits cls) (hs : objRun cls ops = .ok s) :
    liveBlocks s.heap = shownArrays s.view ∧ ((∀ o ∈ s.view, o = none) → liveBlocks s.heap = 0) := by
  have hz : ∀ op ∈ ops, op.noZero := by
    intro op hop
    have := hf op hop
    cases op with
    | supercell x sc => exact absurd this (by simp [ObjOp.fits])
    | _ => trivial
  have h := objRun_live cls ops s hz hs
  refine ⟨h, fun hn => ?_⟩
  rw [h]
  unfold shownArrays
  rw [List.sum_eq_zero]
  intro n hn'
  obtain ⟨o, ho, rfl⟩ := List.mem_map.1 hn'
  rw [hn o ho]
  rfl

/-- A program for C131: it fits, uses living objects only, and ends with eight arrays. -/
example : (∀ op ∈ ([.make [(1, 10), (2, 20), (3, 30), (4, 40)], .copy 0, .assign 0 1] :
      List (ObjOp ℕ ℕ)), op.fits (neighborListClass 0)) ∧
    UsesAlive ([.make [(1, 10), (2, 20), (3, 30), (4, 40)], .copy 0, .assign 0 1] :
      List (ObjOp ℕ ℕ)) ∧
    ∃ s, objRun (neighborListClass 0) ([.make [(1, 10), (2, 20), (3, 30), (4, 40)], .copy 0,
      .assign 0 1] : List (ObjOp ℕ ℕ)) = .ok s ∧ liveBlocks s.heap = 8 :=
  ⟨by simp [ObjOp.fits, neighborListClass], by unfold UsesAlive; decide, _, rfl, by decide⟩

end MaterSDK
