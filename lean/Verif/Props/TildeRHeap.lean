import Verif.Lemmas.TildeRHeap

/-!
# C138 - C139: copies and assignments of `TildeR` objects
-/

namespace MaterSDK

variable {α : Type}

/-- What a program sees, for all statements with centre types exactly where there are neighbour
types. -/
theorem tildeRun_view (d : α) (wreck : α → α) (ops : List (TildeOp α))
    (hb : ∀ op ∈ ops, op.balanced) :
    (tildeRun d wreck ops).map TildeState.view =
      (tildeValRun d (tildeWrecked wreck) oneType ops).map
        (fun pool => pool.map (Option.map some)) := by
  unfold tildeRun tildeValRun
  rcases tildeRun_rel d wreck ops _ _ [] 0 tRel_start rfl hb with
    ⟨e, h1, h2, _⟩ | ⟨s, pool, L, h1, h2, _, h4⟩
  · rw [h1, h2]; rfl
  · rw [h1, h2]
    simp only [Except.map, h4.view]

/-! ## C138 -/

/-- C138 (partial: no copy constructor, no `x = x`, and types of both kinds or none).  Whatever a
program does with `TildeR` objects - construction, assignment, destruction, in any order - every
living object shows what it would show if it were a plain value, and a statement goes wrong exactly
when it would on values: it uses an object which is not alive. -/
theorem C138_values_partial (d : α) (wreck : α → α) (ops : List (TildeOp α))
    (hb : ∀ op ∈ ops, op.balanced) (hs : ∀ op ∈ ops, op.notSelf) (hc : ∀ op ∈ ops, op.notCopy) :
    (tildeRun d wreck ops).map TildeState.view =
      (tildeValRun d id (fun _ => true) ops).map (fun pool => pool.map (Option.map some)) := by
  rw [tildeRun_view d wreck ops hb, tildeValRun_congr d _ id _ (fun _ => true) ops hs (Or.inr hc)]

/-- C138 (partial: no `x = x`, and types of both kinds or none).  With the copy constructor the same
holds as long as it copies objects with at most one centre and one neighbour type; every other copy
writes behind its block. -/
theorem C138_copies_partial (d : α) (wreck : α → α) (ops : List (TildeOp α))
    (hb : ∀ op ∈ ops, op.balanced) (hs : ∀ op ∈ ops, op.notSelf) :
    (tildeRun d wreck ops).map TildeState.view =
      (tildeValRun d id oneType ops).map (fun pool => pool.map (Option.map some)) := by
  rw [tildeRun_view d wreck ops hb, tildeValRun_congr d _ id _ oneType ops hs (Or.inl rfl)]

/-- C138 is false for copies: copying an object with two or more centre types, or two or more
neighbour types, writes behind the block. -/
theorem C138_violated_copy (d : α) (wreck : α → α) (a : α) (c ca n na : List ℤ)
    (h1 : ca.length = c.length) (h2 : na.length = n.length) (hc : c ≠ []) (hn : n ≠ [])
    (h : 2 ≤ c.length ∨ 2 ≤ n.length) :
    tildeRun d wreck [.make a c ca n na, .copy 0] = .error .outOfBounds := by
  have hv := tildeRun_view d wreck [.make a c ca n na, .copy 0] (by
    intro op hop
    simp only [List.mem_cons, List.not_mem_nil, or_false] at hop
    rcases hop with rfl | rfl
    · exact ⟨fun h => absurd h hc, fun h => absurd h hn⟩
    · trivial)
  have hf : oneType (⟨a, c, ca, n, na⟩ : TildeVal α) = false := by
    simp only [oneType, decide_eq_false_iff_not]
    omega
  have hr : tildeValRun d (tildeWrecked wreck) oneType [.make a c ca n na, .copy 0] =
      .error .outOfBounds := by
    simp [tildeValRun, tildeValStep, h1, h2, poolGet, hf, bind, Except.bind]
  rw [hr] at hv
  cases hx : tildeRun d wreck [.make a c ca n na, .copy 0] with
  | ok s => rw [hx] at hv; cases hv
  | error e => rw [hx] at hv; cases hv; rfl

/-- C138 is false for `x = x`: whatever the program did before, an object assigned to itself has no
types any more. -/
theorem C138_violated_self (d : α) (wreck : α → α) (ops : List (TildeOp α)) (x : ℕ)
    (s : TildeState α) (v : TildeVal α) (hb : ∀ op ∈ ops, op.balanced)
    (hs : tildeRun d wreck ops = .ok s) (hx : s.view[x]? = some (some (some v))) :
    ∃ s', tildeRun d wreck (ops ++ [.assign x x]) = .ok s' ∧
      s'.view = s.view.set x (some (some ⟨wreck v.nbr, [], [], [], []⟩)) := by
  have h1 := tildeRun_view d wreck ops hb
  have h2 := tildeRun_view d wreck (ops ++ [.assign x x]) (by
    intro op hop
    rcases List.mem_append.1 hop with h | h
    · exact hb op h
    · obtain rfl : op = .assign x x := by simpa using h
      trivial)
  rw [hs] at h1
  cases hp : tildeValRun d (tildeWrecked wreck) oneType ops with
  | error e => rw [hp] at h1; cases h1
  | ok pool =>
    rw [hp] at h1
    have hv : s.view = pool.map (Option.map some) := Except.ok.inj h1
    have hg : poolGet pool x = .ok v := by
      rw [hv, List.getElem?_map] at hx
      cases hq : pool[x]? with
      | none => rw [hq] at hx; simp at hx
      | some o =>
        rw [hq] at hx
        cases o with
        | none => simp at hx
        | some v' =>
          obtain rfl : v' = v := by simpa using hx
          simp [poolGet, hq]
    have h3 : tildeValRun d (tildeWrecked wreck) oneType (ops ++ [.assign x x]) =
        .ok (pool.set x (some (tildeWrecked wreck v))) := by
      unfold tildeValRun at hp ⊢
      rw [List.foldlM_append, hp, ok_bind]
      simp only [List.foldlM_cons, List.foldlM_nil, tildeValStep, hg, ok_bind, if_true]
      rfl
    rw [h3] at h2
    cases h : tildeRun d wreck (ops ++ [.assign x x]) with
    | error e => rw [h] at h2; cases h2
    | ok s' =>
      rw [h] at h2
      refine ⟨s', rfl, ?_⟩
      have : s'.view = (pool.set x (some (tildeWrecked wreck v))).map (Option.map some) :=
        Except.ok.inj h2
      rw [this, List.map_set, hv]
      rfl

/-- A program for C138: an object with two types is assigned to an empty one and to one with one
type, then destroyed. -/
example : (tildeRun 0 id [.make 7 [29, 8] [4, 4] [29, 8] [20, 30], .dflt, .make 5 [1] [2] [1] [9],
      .assign 1 0, .assign 2 1, .destroy 0, .assign 1 2]).map TildeState.view =
    .ok [none, some (some ⟨7, [29, 8], [4, 4], [29, 8], [20, 30]⟩),
      some (some ⟨7, [29, 8], [4, 4], [29, 8], [20, 30]⟩)] := by
  rw [C138_values_partial _ _ _ (by simp [TildeOp.balanced]) (by simp [TildeOp.notSelf])
    (by simp [TildeOp.notCopy])]
  rfl

/-- A program for `C138_copies_partial`: one type, copied. -/
example : (tildeRun 0 id [.make 5 [1] [2] [1] [9], .copy 0, .destroy 0]).map TildeState.view =
    .ok [none, some (some ⟨5, [1], [2], [1], [9]⟩)] := by
  rw [C138_copies_partial _ _ _ (by simp [TildeOp.balanced]) (by simp [TildeOp.notSelf])]
  rfl

/-- Data for `C138_violated_copy` and `C138_violated_self`. -/
example : (2 ≤ ([29, 8] : List ℤ).length) ∧
    ∃ s, tildeRun 0 id [.make 7 [29, 8] [4, 4] [29, 8] [20, 30]] = .ok s ∧
      s.view[0]? = some (some (some ⟨7, [29, 8], [4, 4], [29, 8], [20, 30]⟩)) :=
  ⟨by decide, _, rfl, by decide⟩

/-! ## C139 -/

/-- Exactly what is allocated at any time: four arrays for each living object with types, and four
for each object without types which was made by the copy constructor or by a constructor with
arguments, whether it is still alive or not. -/
theorem tildeRun_live (d : α) (wreck : α → α) (ops : List (TildeOp α)) (s : TildeState α)
    (hb : ∀ op ∈ ops, op.balanced) (hs : tildeRun d wreck ops = .ok s) :
    ∃ pool w, tildeWasteRun d (tildeWrecked wreck) oneType ops = .ok (pool, w) ∧
      s.view = pool.map (Option.map some) ∧ liveBlocks s.heap = shownInts pool + w := by
  rcases tildeRun_rel d wreck ops _ _ [] 0 tRel_start rfl hb with
    ⟨e, h1, _, _⟩ | ⟨s', pool, L, h1, _, h3, h4⟩
  · unfold tildeRun at hs; rw [h1] at hs; cases hs
  · unfold tildeRun at hs
    rw [h1] at hs
    cases hs
    exact ⟨pool, L.length, h3, h4.view, h4.live⟩

/-- C139 (partial: no copy constructor, and the other constructors get types of both kinds).  At any
time exactly the arrays of the living objects with types are allocated, four each; when all objects
are destroyed, nothing is left. -/
theorem C139_no_leak_partial (d : α) (wreck : α → α) (ops : List (TildeOp α)) (s : TildeState α)
    (ht : ∀ op ∈ ops, op.typed) (hc : ∀ op ∈ ops, op.notCopy) (hs : tildeRun d wreck ops = .ok s) :
    liveBlocks s.heap = 4 * s.view.countP (fun o => o.any fun v => v.any fun v => !v.c.isEmpty) ∧
      ((∀ o ∈ s.view, o = none) → liveBlocks s.heap = 0) := by
  have hb : ∀ op ∈ ops, op.balanced := by
    intro op hop
    have := ht op hop
    cases op with
    | make a c ca n na => exact ⟨fun h => absurd h this.1, fun h => absurd h this.2⟩
    | _ => trivial
  obtain ⟨pool, w, h1, h2, h3⟩ := tildeRun_live d wreck ops s hb hs
  have hw : w = 0 := by
    have step : ∀ (p : List (Option (TildeVal α))) (op : TildeOp α), op.typed → op.notCopy →
        tildeWaste p op = 0 := by
      intro p op h1 h2
      cases op with
      | make a c ca n na => simp [tildeWaste, h1.1]
      | copy y => exact absurd h2 (by simp [TildeOp.notCopy])
      | _ => rfl
    have run : ∀ (ops : List (TildeOp α)) (pw : List (Option (TildeVal α)) × ℕ) (p' : _) (w' : ℕ),
        (∀ op ∈ ops, op.typed) → (∀ op ∈ ops, op.notCopy) →
        ops.foldlM (fun pw op => do
          let p ← tildeValStep d (tildeWrecked wreck) oneType pw.1 op
          return (p, pw.2 + tildeWaste pw.1 op)) pw = (.ok (p', w') : Except CErr _) →
        w' = pw.2 := by
      intro ops
      induction ops with
      | nil =>
        intro pw p' w' _ _ h
        have := Except.ok.inj h
        rw [this]
      | cons op ops ih =>
        intro pw p' w' h1 h2 h
        rw [List.foldlM_cons] at h
        cases hv : tildeValStep d (tildeWrecked wreck) oneType pw.1 op with
        | error e => rw [hv] at h; cases h
        | ok p =>
          rw [hv] at h
          have := ih (p, pw.2 + tildeWaste pw.1 op) p' w' (fun o ho => h1 o (by simp [ho]))
            (fun o ho => h2 o (by simp [ho])) h
          rw [this, step _ op (h1 op (by simp)) (h2 op (by simp))]
          rfl
    exact run ops ([], 0) pool w ht hc h1
  have hcount : shownInts pool =
      4 * s.view.countP (fun o => o.any fun v => v.any fun v => !v.c.isEmpty) := by
    rw [h2, List.countP_map]
    unfold shownInts
    congr 1
    apply List.countP_congr
    intro o _
    cases o <;> simp
  rw [h3, hw, hcount]
  refine ⟨rfl, fun hn => ?_⟩
  have : s.view.countP (fun o => o.any fun v => v.any fun v => !v.c.isEmpty) = 0 := by
    rw [List.countP_eq_zero]
    intro o ho
    rw [hn o ho]
    simp
  rw [this]

/-- C139 is false without types: the four arrays of an object made with empty lists of types, or
copied from a default constructed one, are never freed. -/
theorem C139_violated_no_types (d : α) (wreck : α → α) (a : α) :
    (∃ s, tildeRun d wreck [.make a [] [] [] [], .destroy 0] = .ok s ∧ s.view = [none] ∧
      liveBlocks s.heap = 4) ∧
    (∃ s, tildeRun d wreck [.dflt, .copy 0, .destroy 0, .destroy 1] = .ok s ∧
      s.view = [none, none] ∧ liveBlocks s.heap = 4) :=
  ⟨⟨_, rfl, rfl, rfl⟩, ⟨_, rfl, rfl, rfl⟩⟩

/-- C139 is false with centre types only: after such an object was assigned to one with both kinds,
the next assignment frees the neighbour arrays a second time. -/
theorem C139_violated_double_free (d : α) (wreck : α → α) (a b : α) (c ca n na c' ca' : List ℤ)
    (h1 : ca.length = c.length) (h2 : na.length = n.length) (h3 : ca'.length = c'.length)
    (hc : c ≠ []) (hc' : c' ≠ []) :
    (∃ s, tildeRun d wreck [.make a c ca n na, .make b c' ca' [] [], .assign 0 1] = .ok s) ∧
    tildeRun d wreck [.make a c ca n na, .make b c' ca' [] [], .assign 0 1, .assign 0 1] =
      .error .undefined := by
  have l1 : c.length ≠ 0 := by simpa using hc
  have l2 : c'.length ≠ 0 := by simpa using hc'
  have key : tildeRun d wreck [.make a c ca n na, .make b c' ca' [] [], .assign 0 1] =
      .ok ⟨[none, none, none, none, some (.val c'), some (.val []), some (.val ca'),
          some (.val []), some (.val c'), some (.val ca')],
        [some ⟨b, c'.length, 0, some 8, some 9, some 1, some 3⟩,
          some ⟨b, c'.length, 0, some 4, some 6, some 5, some 7⟩]⟩ := by
    simp [tildeRun, tildeStep, h1, h2, h3, tildeMake, objAlloc, objGet, tildeAssign, tildeRelease,
      hc, hc', freePtr, objFree, copyInts, objRead, pure, Except.pure, bind, Except.bind]
  refine ⟨⟨_, key⟩, ?_⟩
  have e : ([.make a c ca n na, .make b c' ca' [] [], .assign 0 1, .assign 0 1] :
      List (TildeOp α)) = [.make a c ca n na, .make b c' ca' [] [], .assign 0 1] ++ [.assign 0 1] :=
    rfl
  unfold tildeRun at key ⊢
  rw [e, List.foldlM_append, key]
  simp [tildeStep, objGet, tildeAssign, tildeRelease, hc', freePtr, objFree, bind, Except.bind]

/-- C139 is false with neighbour types only: the two arrays of no length which the object got for the
centres are never freed, and an assignment to it loses its two neighbour arrays as well. -/
theorem C139_violated_neighbours_only (d : α) (wreck : α → α) (a : α) (n na : List ℤ)
    (h2 : na.length = n.length) (hn : n ≠ []) :
    (∃ s, tildeRun d wreck [.make a [] [] n na, .destroy 0] = .ok s ∧
      s.view = [none] ∧ liveBlocks s.heap = 2) ∧
    ∃ s, tildeRun d wreck [.make a [] [] n na, .dflt, .assign 0 1, .destroy 0, .destroy 1] = .ok s ∧
      s.view = [none, none] ∧ liveBlocks s.heap = 4 := by
  refine ⟨⟨⟨[some (.val []), none, some (.val []), none], [none]⟩, ?_, rfl, rfl⟩,
    ⟨[some (.val []), some (.val n), some (.val []), some (.val na)], [none, none]⟩, ?_, rfl, rfl⟩
  · simp [tildeRun, tildeStep, h2, tildeMake, objAlloc, objGet, tildeDestroy, hn, freePtr, objFree,
      pure, Except.pure, bind, Except.bind]
  · simp [tildeRun, tildeStep, h2, tildeMake, objAlloc, objGet, tildeAssign, tildeRelease,
      tildeDestroy, tildeDflt, pure, Except.pure, bind, Except.bind]

/-- A program for C139, with `x = x`: eight arrays at the end. -/
example : ∃ s, tildeRun 0 id [.make 7 [29, 8] [4, 4] [29, 8] [20, 30], .dflt,
      .make 5 [1] [2] [1] [9], .assign 1 0, .assign 2 2, .assign 2 1, .destroy 0] = .ok s ∧
    liveBlocks s.heap = 8 := ⟨_, rfl, rfl⟩

/-- Data for `C139_violated_double_free`. -/
example : ([29, 8] : List ℤ) ≠ [] ∧ ([1] : List ℤ) ≠ [] := by decide

end MaterSDK
