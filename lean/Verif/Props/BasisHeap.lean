import Verif.Lemmas.BasisHeap
import Verif.Lemmas.MtpRadial

/-!
# C146 - C150: copies and assignments of radial basis objects
-/

namespace MaterSDK

variable {α γ δ : Type}

/-- The `n` rows of a built object. -/
def BasisRule.rows (B : BasisRule α γ δ) (n : ℕ) (a : α) (d : δ) : List γ :=
  (List.range n).map (B.row a d)

/-! ## C146 `RB_Chebyshev` -/

/-- C146 (partial: no `x = x`, no objects of size 0, and no assignment of an object without rows to
one with rows).  Whatever a program does with `RB_Chebyshev` objects, every living object shows what
it would show if it were a plain value, and a statement goes wrong exactly when it would on values:
it uses an object which is not alive, or `build` gets a distance outside the cutoffs. -/
theorem C146_values_partial (z : α) (zero : γ) (F : BasisFill α γ δ) (ops : List (BasisOp α δ))
    (ha : basisAvoids z zero F.poly rbGuard [] ops) :
    (basisRun (rbClass z zero F) ops).map (BasisState.view (rbClass z zero F)) =
      (basisValRun z zero F.poly ops).map (fun pool => pool.map (Option.map .ok)) :=
  (rbOK z zero F).run_view ops ha

/-- C146, the rows: for the cutoffs `(rmax, rmin)` `build` stores the Chebyshev polynomials of the
scaled distance and their derivatives, and fails outside the cutoffs. -/
theorem C146_rows (n : ℕ) (rmax rmin d : ℝ) :
    rbBuild n rmax rmin d = if rbFillReal.poly.dom (rmax, rmin) d = true
      then .ok (rbFillReal.poly.rows n (rmax, rmin) d) else .error .assertFail := by
  have hd : rbFillReal.poly.dom (rmax, rmin) d = true ↔ rmin ≤ d ∧ d ≤ rmax := by
    simp [rbFillReal, BasisFill.poly]
  by_cases h : rmin ≤ d ∧ d ≤ rmax
  · rw [if_pos (hd.2 h), rbBuild_ok n h.1 h.2]
    refine congrArg _ (List.map_congr_left fun k _ => ?_)
    simp only [BasisFill.poly, rbFillReal, chebLoop_eq]
    simp [scaled]
  · rw [if_neg fun hc => h (hd.1 hc)]
    unfold rbBuild
    rw [if_neg h]

/-- C146 is false for `x = x`: the object has lost its rows and its cutoffs, and the end of its life
frees its arrays a second time. -/
theorem C146_violated_self (z : α) (zero : γ) (F : BasisFill α γ δ) (a : α) (n : ℕ) (hn : n ≠ 0) :
    (basisRun (rbClass z zero F) [.make a n, .assign 0 0]).map (BasisState.view (rbClass z zero F))
        = .ok [some (.ok ⟨z, []⟩)] ∧
      basisRun (rbClass z zero F) [.make a n, .assign 0 0, .destroy 0] = .error .undefined := by
  constructor <;>
  simp [basisRun, basisStep, rbClass, polyMake, objAlloc, objGet, rbSelf, polyRelease, hn, rowFree,
    objFree, polyDestroy, BasisState.view, rowRead, Except.map, bind, Except.bind, pure, Except.pure]

/-- C146 is false for the assignment of an empty object: the target keeps its freed arrays, and the
end of its life frees them a second time. -/
theorem C146_violated_empty (z : α) (zero : γ) (F : BasisFill α γ δ) (a : α) (n : ℕ) (hn : n ≠ 0) :
    (basisRun (rbClass z zero F) [.make a n, .dflt, .assign 0 1]).map
        (BasisState.view (rbClass z zero F)) = .ok [some (.ok ⟨z, []⟩), some (.ok ⟨z, []⟩)] ∧
      basisRun (rbClass z zero F) [.make a n, .dflt, .assign 0 1, .destroy 0] = .error .undefined := by
  constructor <;>
  simp [basisRun, basisStep, rbClass, polyMake, objAlloc, objGet, rbAssign, polyRelease, hn, rowFree,
    objFree, polyDestroy, BasisState.view, rowRead, Except.map, bind, Except.bind, pure, Except.pure,
    polyDflt]

/-! ## C147 `RQ_Chebyshev` -/

/-- C147 (partial: no `x = x`, no objects of size 0, and objects without rows are neither copied nor
assigned nor built).  Whatever a program does with `RQ_Chebyshev` objects, every living object shows
what it would show if it were a plain value, and a statement goes wrong exactly when it would on
values. -/
theorem C147_values_partial (z : α) (zero : γ) (F : BasisFill α γ δ) (ops : List (BasisOp α δ))
    (ha : basisAvoids z zero F.full rqGuard [] ops) :
    (basisRun (rqClass z zero F) ops).map (BasisState.view (rqClass z zero F)) =
      (basisValRun z zero F.full ops).map (fun pool => pool.map (Option.map .ok)) :=
  (rqOK z zero F).run_view ops ha

/-- C147, the rows: for the cutoffs `(rmax, rmin)` `build` stores the products with the switching
function and their derivatives. -/
theorem C147_rows (n : ℕ) (rmax rmin d : ℝ) (hr : rmin < rmax) :
    rqBuild n rmax rmin d = if rbFillReal.full.dom (rmax, rmin) d = true
      then .ok (rbFillReal.full.rows n (rmax, rmin) d) else .error .assertFail := by
  have hd : rbFillReal.full.dom (rmax, rmin) d = true ↔ rmin ≤ d ∧ d ≤ rmax := by
    simp [rbFillReal, BasisFill.full]
  by_cases h : rmin ≤ d ∧ d ≤ rmax
  · rw [if_pos (hd.2 h), rqBuild_ok n hr h.1 h.2]
    refine congrArg _ (List.map_congr_left fun k _ => ?_)
    simp only [BasisFill.full, rbFillReal, chebLoop_eq, sfVal_ok hr h.1 h.2, sfDer_ok hr h.1 h.2]
    simp [rqVal, rqDer, scaled]
  · rw [if_neg fun hc => h (hd.1 hc)]
    unfold rqBuild
    rw [if_neg h]

/-- C147 is false for empty objects: copying a default constructed object, assigning it to any
object, and building it all use a null pointer. -/
theorem C147_violated_empty (z : α) (zero : γ) (F : BasisFill α γ δ) (a : α) (n : ℕ) (d : δ) :
    basisRun (rqClass z zero F) [.dflt, .copy 0] = .error .undefined ∧
      basisRun (rqClass z zero F) [.dflt, .make a n, .assign 1 0] = .error .undefined ∧
      (F.dom z d = true → basisRun (rqClass z zero F) [.dflt, .build 0 d] = .error .undefined) := by
  refine ⟨?_, ?_, fun hd => ?_⟩
  · simp [basisRun, basisStep, rqClass, objGet, rqFrom, rqDflt, bind, Except.bind, pure, Except.pure]
  · by_cases hn : n = 0 <;>
    simp [basisRun, basisStep, rqClass, objGet, rqFrom, rqDflt, rqMake, rqAssign, rqRelease, polyMake,
      objAlloc, rbDelete, polyDestroy, rowFree, objFree, hn, bind, Except.bind, pure, Except.pure]
  · simp [basisRun, basisStep, rqClass, objGet, rqDflt, rqBuildObj, hd, bind, Except.bind, pure,
      Except.pure]

/-- C147 is false for moved-from objects: they cannot be copied. -/
theorem C147_violated_moved (z : α) (zero : γ) (F : BasisFill α γ δ) (a : α) (n : ℕ) :
    basisRun (rqClass z zero F) [.make a n, .move 0, .copy 0] = .error .undefined := by
  simp [basisRun, basisStep, rqClass, objGet, rqFrom, rqMake, rqMove, polyMake, objAlloc,
    bind, Except.bind, pure, Except.pure]

/-- C147 is false for `x = x`: the object has lost its rows and its cutoffs; and a block is lost when
it is assigned to later. -/
theorem C147_violated_self (z : α) (zero : γ) (F : BasisFill α γ δ) (a : α) (n : ℕ) (hn : n ≠ 0) :
    (basisRun (rqClass z zero F) [.make a n, .assign 0 0]).map (BasisState.view (rqClass z zero F))
        = .ok [some (.ok ⟨z, []⟩)] ∧
      (basisRun (rqClass z zero F) [.make a n, .assign 0 0, .make a n, .assign 0 1, .destroy 0,
        .destroy 1]).map (fun s => liveBlocks s.heap) = .ok 1 := by
  constructor <;>
  simp [basisRun, basisStep, rqClass, objGet, rqFrom, rqMake, rqSelf, rqAssign, rqRelease, rqDestroy,
    polyMake, objAlloc, rbDelete, polyDestroy, rowFree, objFree, rbSelf, rbAssign, rowCopy, objRead,
    polyRelease, polyDflt, hn, BasisState.view, rowRead, liveBlocks,
    Except.map, bind, Except.bind, pure, Except.pure]

/-! ## C148 `ChebyshevPoly` -/

/-- C148 (partial: no `x = x`).  Whatever a program does with `ChebyshevPoly` objects, every living
object shows what it would show if it were a plain value, and a statement goes wrong exactly when it
would on values. -/
theorem C148_values_partial (z : α) (zero : γ) (F : BasisFill α γ δ) (ops : List (BasisOp α δ))
    (ha : basisAvoids z zero F.poly anyGuard [] ops) :
    (basisRun (chebClass z zero F) ops).map (BasisState.view (chebClass z zero F)) =
      (basisValRun z zero F.poly ops).map (fun pool => pool.map (Option.map .ok)) :=
  (chebOK false z zero F).run_view ops ha

/-- The condition of C148 in terms of the program text. -/
theorem avoids_any (z : α) (zero : γ) (B : BasisRule α γ δ) (ops : List (BasisOp α δ))
    (hs : ∀ x, .assign x x ∉ ops) (pool : List (Option (BasisVal α γ))) :
    basisAvoids z zero B anyGuard pool ops := by
  induction ops generalizing pool with
  | nil => trivial
  | cons op ops ih =>
    refine ⟨?_, fun pool' _ => ih (fun x hx => hs x (by simp [hx])) pool'⟩
    cases op with
    | assign x y =>
      have hxy : x ≠ y := by
        rintro rfl
        exact hs x (by simp)
      simp [basisAllowed, anyGuard, hxy]
    | _ => simp [basisAllowed, anyGuard]

/-- C148 (partial: no `x = x` in the program). -/
theorem C148_text_partial (z : α) (zero : γ) (F : BasisFill α γ δ) (ops : List (BasisOp α δ))
    (hs : ∀ x, .assign x x ∉ ops) :
    (basisRun (chebClass z zero F) ops).map (BasisState.view (chebClass z zero F)) =
      (basisValRun z zero F.poly ops).map (fun pool => pool.map (Option.map .ok)) :=
  C148_values_partial z zero F ops (avoids_any z zero F.poly ops hs [])

/-- C148, the rows: for the cutoffs `(rcut, rcut_smooth)` `build` accepts every distance. -/
theorem C148_rows (n : ℕ) (rcut rs d : ℝ) :
    mtpCheb n rcut rs d = chebFillReal.poly.rows n (rcut, rs) d := by
  unfold mtpCheb
  by_cases h : rs ≤ d ∧ d < rcut
  · rw [if_pos h, chebLoop_eq, List.map_map]
    refine List.map_congr_left fun k _ => ?_
    simp only [BasisFill.poly, chebFillReal, if_pos h, chebLoop_eq]
    simp
  · rw [if_neg h]
    refine (List.eq_replicate_iff.2 ⟨by simp [BasisRule.rows], fun e he => ?_⟩).symm
    obtain ⟨k, _, rfl⟩ := List.mem_map.1 he
    simp only [BasisFill.poly, chebFillReal, if_neg h]

/-- C148 is false for `x = x`: the object has lost its rows. -/
theorem C148_violated_self (z : α) (zero : γ) (F : BasisFill α γ δ) (a : α) (n : ℕ) (hn : n ≠ 0) :
    (basisRun (chebClass z zero F) [.make a n, .assign 0 0]).map
        (BasisState.view (chebClass z zero F)) = .ok [some (.ok ⟨z, []⟩)] := by
  simp [basisRun, basisStep, chebClass, polyMake, objAlloc, objGet, chSelf, polyRelease, hn, rowFree,
    objFree, rowCopy, BasisState.view, rowRead, Except.map, bind, Except.bind, pure, Except.pure]

/-! ## C149 `MtpQ` -/

/-- C149 (partial: no default construction, no `x = x`).  Whatever a program does with `MtpQ`
objects, every living object shows what it would show if it were a plain value, and a statement goes
wrong exactly when it would on values. -/
theorem C149_values_partial (z : α) (zero : γ) (F : BasisFill α γ δ) (hF : ∀ a d, F.dom a d = true)
    (ops : List (BasisOp α δ)) (hs : ∀ x, .assign x x ∉ ops) (hd : .dflt ∉ ops) :
    (basisRun (mtpqClass z zero F) ops).map (BasisState.view (mtpqClass z zero F)) =
      (basisValRun z zero F.full ops).map (fun pool => pool.map (Option.map .ok)) := by
  refine (mtpqOK false z zero F hF).run_view ops ?_
  suffices h : ∀ pool, basisAvoids z zero F.full mtpqGuard pool ops from h []
  intro pool
  induction ops generalizing pool with
  | nil => trivial
  | cons op ops ih =>
    refine ⟨?_, fun pool' _ => ih (fun x hx => hs x (by simp [hx])) (fun h => hd (by simp [h])) pool'⟩
    cases op with
    | dflt => exact absurd (by simp) hd
    | assign x y =>
      have hxy : x ≠ y := by
        rintro rfl
        exact hs x (by simp)
      simp [basisAllowed, mtpqGuard, hxy]
    | _ => simp [basisAllowed, mtpqGuard]

/-- C149, the rows. -/
theorem C149_rows (n : ℕ) (rcut rs d : ℝ) :
    mtpQ n rcut rs d = chebFillReal.full.rows n (rcut, rs) d := by
  unfold mtpQ
  simp only [C148_rows, BasisRule.rows, List.map_map]
  rfl

/-- C149 is false for default constructed objects: at the end of their life they free pointers which
never had a value. -/
theorem C149_violated_dflt (z : α) (zero : γ) (F : BasisFill α γ δ) :
    basisRun (mtpqClass z zero F) [.dflt, .destroy 0] = .error .undefined := by
  simp [basisRun, basisStep, mtpqClass, mtpqDflt, mtpqDestroy, objGet, rowFree, bind, Except.bind,
    pure, Except.pure]

/-- C149 is false for `x = x`: the object has lost its rows. -/
theorem C149_violated_self (z : α) (zero : γ) (F : BasisFill α γ δ) (a : α) (n : ℕ) (hn : n ≠ 0) :
    (basisRun (mtpqClass z zero F) [.make a n, .assign 0 0]).map
        (BasisState.view (mtpqClass z zero F)) = .ok [some (.ok ⟨a, []⟩)] := by
  simp [basisRun, basisStep, mtpqClass, mtpqMake, mtpqSelf, mtpqRelease, polyMake, polyMoveAssign,
    polyDestroy, polyDflt, objAlloc, objGet, chSelf, polyRelease, hn, rowFree, objFree, rowCopy,
    BasisState.view, rowRead, Except.map, bind, Except.bind, pure, Except.pure]

/-! ## C150 -/

/-- C150 (partial: the conditions of C146).  The memory of a program with `RB_Chebyshev` objects is
exactly the arrays of its living objects with rows. -/
theorem C150_rb_partial (z : α) (zero : γ) (F : BasisFill α γ δ) (ops : List (BasisOp α δ))
    (ha : basisAvoids z zero F.poly rbGuard [] ops) (s : BasisState (PolyObj α) γ)
    (hs : basisRun (rbClass z zero F) ops = .ok s) :
    ∃ pool, basisValRun z zero F.poly ops = .ok pool ∧ liveBlocks s.heap = withRows pool := by
  simpa using (rbOK z zero F).run_live rfl ops ha s hs

/-- C150 (partial: the conditions of C147).  `RQ_Chebyshev`: three blocks for every object. -/
theorem C150_rq_partial (z : α) (zero : γ) (F : BasisFill α γ δ) (ops : List (BasisOp α δ))
    (ha : basisAvoids z zero F.full rqGuard [] ops) (s : BasisState (RqObj α) γ)
    (hs : basisRun (rqClass z zero F) ops = .ok s) :
    ∃ pool, basisValRun z zero F.full ops = .ok pool ∧ liveBlocks s.heap = 3 * withRows pool :=
  (rqOK z zero F).run_live rfl ops ha s hs

/-- C150 (partial: no `x = x`, no objects of size 0, and empty objects are not copied or assigned).
`ChebyshevPoly`. -/
theorem C150_cheb_partial (z : α) (zero : γ) (F : BasisFill α γ δ) (ops : List (BasisOp α δ))
    (ha : basisAvoids z zero F.poly chebGuard [] ops) (s : BasisState (PolyObj α) γ)
    (hs : basisRun (chebClass z zero F) ops = .ok s) :
    ∃ pool, basisValRun z zero F.poly ops = .ok pool ∧ liveBlocks s.heap = withRows pool := by
  simpa using (chebOK true z zero F).run_live rfl ops ha s hs

/-- C150 (partial: no `x = x`, no objects of size 0, no default construction, and empty objects are
not copied, assigned or moved).  `MtpQ`: two blocks for every object. -/
theorem C150_mtpq_partial (z : α) (zero : γ) (F : BasisFill α γ δ) (hF : ∀ a d, F.dom a d = true)
    (ops : List (BasisOp α δ)) (ha : basisAvoids z zero F.full mtpqTight [] ops)
    (s : BasisState (MtpqObj α) γ) (hs : basisRun (mtpqClass z zero F) ops = .ok s) :
    ∃ pool, basisValRun z zero F.full ops = .ok pool ∧ liveBlocks s.heap = 2 * withRows pool :=
  (mtpqOK true z zero F hF).run_live rfl ops ha s hs

/-- C150 is false for empty `ChebyshevPoly` objects: when a default constructed object is copied and
something is assigned to the copy, a block is lost, also when all objects are destroyed. -/
theorem C150_violated_cheb (z : α) (zero : γ) (F : BasisFill α γ δ) (a : α) (n : ℕ) (hn : n ≠ 0) :
    (basisRun (chebClass z zero F) [.dflt, .copy 0, .make a n, .assign 1 2, .destroy 0, .destroy 1,
      .destroy 2]).map (fun s => (s.objs.all Option.isNone, liveBlocks s.heap)) = .ok (true, 1) := by
  simp [basisRun, basisStep, chebClass, chCopy, chAssign, polyMake, objAlloc, objGet, polyRelease,
    polyDestroy, polyDflt, hn, rowFree, objFree, rowCopy, objRead, liveBlocks, Except.map, bind,
    Except.bind, pure, Except.pure]

/-- C150 is false for moved-from `MtpQ` objects: when such an object is moved from again a block is
lost with it. -/
theorem C150_violated_mtpq (z : α) (zero : γ) (F : BasisFill α γ δ) (a : α) (n : ℕ) (hn : n ≠ 0) :
    (basisRun (mtpqClass z zero F) [.make a n, .move 0, .move 0, .make a n, .assign 2 3, .destroy 0,
      .destroy 1, .destroy 2, .destroy 3]).map
        (fun s => (s.objs.all Option.isNone, liveBlocks s.heap)) = .ok (true, 1) := by
  simp [basisRun, basisStep, mtpqClass, mtpqMake, mtpqMove, mtpqEmptied, mtpqAssign, mtpqRelease,
    mtpqDestroy, polyMoveAssign, chAssign, polyMake, objAlloc, objGet, polyRelease,
    polyDestroy, polyDflt, hn, rowFree, objFree, rowCopy, objRead, liveBlocks, Except.map, bind,
    Except.bind, pure, Except.pure]

/-! ## Examples -/

/-- Rows `(cutoff, distance, index)`; distances up to the cutoff are accepted. -/
private def exFill : BasisFill ℕ (ℕ × ℕ × ℕ) ℕ where
  dom a d := decide (d ≤ a)
  row a _ d ii := (a, d, ii)
  out _ d e := (e.1, e.2.1 + d, e.2.2)

private def exAll : BasisFill ℕ (ℕ × ℕ × ℕ) ℕ := { exFill with dom := fun _ _ => true }

/-- Two objects are built, one is copied, moved, assigned and built again; all are independent. -/
private def exOps : List (BasisOp ℕ ℕ) :=
  [.make 9 2, .build 0 4, .make 7 1, .copy 0, .build 2 5, .move 0, .assign 1 3, .moveAssign 0 2,
    .build 1 8, .destroy 3]

/-- The program meets the conditions of C146, C147 and C150 and its outcome is not trivial. -/
example : (basisRun (rbClass 0 (0, 0, 0) exFill) exOps).map
    (BasisState.view (rbClass 0 (0, 0, 0) exFill)) =
      .ok [some (.ok ⟨9, [(9, 5, 0), (9, 5, 1)]⟩), some (.ok ⟨9, [(9, 8, 0), (9, 8, 1)]⟩),
        some (.ok ⟨0, []⟩), none] := by rfl

example : (basisRun (rqClass 0 (0, 0, 0) exFill) exOps).map
    (BasisState.view (rqClass 0 (0, 0, 0) exFill)) =
      .ok [some (.ok ⟨9, [(9, 10, 0), (9, 10, 1)]⟩), some (.ok ⟨9, [(9, 16, 0), (9, 16, 1)]⟩),
        some (.ok ⟨0, []⟩), none] := by rfl

example : (basisRun (mtpqClass 0 (0, 0, 0) exAll) exOps).map
    (fun s => (s.view (mtpqClass 0 (0, 0, 0) exAll), liveBlocks s.heap)) =
      .ok ([some (.ok ⟨9, [(9, 10, 0), (9, 10, 1)]⟩), some (.ok ⟨9, [(9, 16, 0), (9, 16, 1)]⟩),
        some (.ok ⟨0, []⟩), none], 4) := by rfl

/-- A distance outside the cutoffs is refused. -/
example : basisRun (rbClass 0 (0, 0, 0) exFill) [.make 9 2, .build 0 10] = .error .assertFail := by rfl

/-- The condition holds for the program: checked statement by statement. -/
def basisAvoidsB (z : α) (zero : γ) (B : BasisRule α γ δ) (g : BasisGuard) :
    List (Option (BasisVal α γ)) → List (BasisOp α δ) → Bool
  | _, [] => true
  | pool, op :: ops => basisAllowed g pool op &&
      match basisValStep z zero B pool op with
      | .ok pool' => basisAvoidsB z zero B g pool' ops
      | .error _ => true

theorem avoids_of_b (z : α) (zero : γ) (B : BasisRule α γ δ) (g : BasisGuard)
    (ops : List (BasisOp α δ)) (pool : List (Option (BasisVal α γ)))
    (h : basisAvoidsB z zero B g pool ops = true) : basisAvoids z zero B g pool ops := by
  induction ops generalizing pool with
  | nil => trivial
  | cons op ops ih =>
    simp only [basisAvoidsB, Bool.and_eq_true] at h
    refine ⟨h.1, fun pool' hp => ih pool' ?_⟩
    have h2 := h.2
    rw [hp] at h2
    exact h2

example : basisAvoids 0 (0, 0, 0) exFill.poly rbGuard [] exOps :=
  avoids_of_b _ _ _ _ _ _ (by rfl)

example : basisAvoids 0 (0, 0, 0) exFill.full rqGuard [] exOps :=
  avoids_of_b _ _ _ _ _ _ (by rfl)

example : basisAvoids 0 (0, 0, 0) exFill.poly chebGuard [] exOps :=
  avoids_of_b _ _ _ _ _ _ (by rfl)

example : basisAvoids 0 (0, 0, 0) exAll.full mtpqTight [] exOps :=
  avoids_of_b _ _ _ _ _ _ (by rfl)

end MaterSDK
