import Verif.Lemmas.BasisHeap
import Verif.Spec.BasisSelf

/-! # Programs with `x = x` on radial basis objects -/

namespace MaterSDK

variable {O α γ δ : Type}

/-- What `x = x` does to a single object. -/
def SelfOK {C : BasisClass O α γ δ} {z : α} {zero : γ} {B : BasisRule α γ δ} {g : BasisGuard}
    {exact : Bool} {need : ℕ} (K : ClassOK C z zero B g exact need)
    (lose : BasisVal α γ → BasisVal α γ) : Prop :=
  ∀ {h : RowHeap γ} {R : List ℕ} {x v}, OwnsAll h (K.own x ++ R) → K.inv h x v →
    ∃ h' x' L, C.self h x = .ok (h', x') ∧ OwnsAll h' (K.own x' ++ (L ++ R)) ∧
      (∀ q ∈ R, h'[q]? = h[q]?) ∧ K.inv h' x' (lose v)

namespace ClassOK

variable {C : BasisClass O α γ δ} {z : α} {zero : γ} {B : BasisRule α γ δ} {g : BasisGuard}
  {exact : Bool} {need : ℕ} {K : ClassOK C z zero B g exact need}

theorem step_self {lose : BasisVal α γ → BasisVal α γ} (hK : SelfOK K lose)
    {s : BasisState O γ} {pool : List (Option (BasisVal α γ))} {L : List ℕ}
    (hr : K.Rel s pool L) (op : BasisOp α δ)
    (hg : (∃ x, op = .assign x x) ∨ basisAllowed g pool op = true) :
    (∃ e, basisStep C s op = .error e ∧ basisValStepSelf lose z zero B pool op = .error e) ∨
    (∃ s' pool' L', basisStep C s op = .ok s' ∧ basisValStepSelf lose z zero B pool op = .ok pool' ∧
      K.Rel s' pool' L') := by
  by_cases hs : ∃ x, op = .assign x x
  · obtain ⟨x, rfl⟩ := hs
    rcases hr.get x with ⟨o, v, g1, g2, g3, g4, i⟩ | ⟨g1, g2⟩
    · obtain ⟨h', x', M, e1, o1, k1, i1⟩ := hK (hr.split g3) i
      refine Or.inr ⟨_, _, M ++ L, by simp only [basisStep, g1, e1, ok_bind, if_true]; rfl,
        by simp only [basisValStepSelf, g2, ok_bind, if_true]; rfl, ?_⟩
      refine hr.setAt (lt_of_get g3) (o := some x') ?_ (fun q hq => k1 q (by simp [hq])) i1
      refine OwnsAll.perm ?_ o1
      simp only [Option.map_some, Option.getD_some]
      exact List.Perm.append_left _ (List.perm_append_comm_assoc _ _ _)
    · exact Or.inl ⟨.undefined, by simp only [basisStep, g1]; rfl,
        by simp only [basisValStepSelf, g2, if_true]; rfl⟩
  · have hg' : basisAllowed g pool op = true := hg.resolve_left hs
    have e : basisValStepSelf lose z zero B pool op = basisValStep z zero B pool op := by
      cases op with
      | assign x y =>
        have : x ≠ y := fun h => hs ⟨x, by rw [h]⟩
        simp only [basisValStepSelf, if_neg this]
      | _ => rfl
    rw [e]
    rcases step_rel hr op hg' with h | ⟨s1, p1, L1, h1, h2, h3, _⟩
    · exact Or.inl h
    · exact Or.inr ⟨s1, p1, L1, h1, h2, h3⟩

theorem run_self {lose : BasisVal α γ → BasisVal α γ} (hK : SelfOK K lose) :
    ∀ (ops : List (BasisOp α δ)) (_ : ∀ op ∈ ops, (∃ x, op = .assign x x) ∨
      ∀ pool : List (Option (BasisVal α γ)), basisAllowed g pool op = true)
    (s : BasisState O γ) (pool : List (Option (BasisVal α γ))) (L : List ℕ), K.Rel s pool L →
    (∃ e, ops.foldlM (basisStep C) s = .error e ∧
      ops.foldlM (basisValStepSelf lose z zero B) pool = .error e) ∨
    (∃ s' pool' L', ops.foldlM (basisStep C) s = .ok s' ∧
      ops.foldlM (basisValStepSelf lose z zero B) pool = .ok pool' ∧ K.Rel s' pool' L')
  | [], _, s, pool, L, hr => Or.inr ⟨s, pool, L, rfl, rfl, hr⟩
  | op :: ops, ha, s, pool, L, hr => by
    simp only [List.foldlM_cons]
    rcases step_self hK hr op ((ha op (by simp)).imp id fun h => h pool) with
      ⟨e, h1, h2⟩ | ⟨s1, p1, L1, h1, h2, h3⟩
    · exact Or.inl ⟨e, by rw [h1]; rfl, by rw [h2]; rfl⟩
    · rw [h1, h2, ok_bind, ok_bind]
      exact run_self hK ops (fun op' h => ha op' (by simp [h])) s1 p1 L1 h3

theorem view_self {lose : BasisVal α γ → BasisVal α γ} (hK : SelfOK K lose) (ops : List (BasisOp α δ))
    (ha : ∀ op ∈ ops, (∃ x, op = .assign x x) ∨
      ∀ pool : List (Option (BasisVal α γ)), basisAllowed g pool op = true) :
    (basisRun C ops).map (BasisState.view C) =
      (ops.foldlM (basisValStepSelf lose z zero B) []).map (fun pool => pool.map (Option.map .ok)) := by
  unfold basisRun
  rcases run_self hK ops ha _ _ [] K.rel_start with ⟨e, h1, h2⟩ | ⟨s, p, L, h1, h2, h3⟩
  · rw [h1, h2]; rfl
  · rw [h1, h2]
    simp only [Except.map, h3.view]

end ClassOK

/-! ## The two classes -/

theorem chSelf_spec (z : α) {h : RowHeap γ} {R : List ℕ} {x : PolyObj α} {v : BasisVal α γ}
    (ho : OwnsAll h (ptrList x.ptr ++ R)) (hx : PolyHolds false h x v) :
    ∃ h' q L, chSelf z h x = .ok (h', ⟨if x.size ≠ 0 then z else x.par, x.sw, 0, .addr q⟩) ∧
      OwnsAll h' (q :: (L ++ R)) ∧ (∀ a ∈ R, h'[a]? = h[a]?) ∧
      PolyHolds false h' ⟨if x.size ≠ 0 then z else x.par, x.sw, 0, .addr q⟩
        ⟨if x.size ≠ 0 then z else x.par, []⟩ := by
  obtain ⟨h1, L, e1, o1, k1, _⟩ := polyRelease_spec ho hx
  obtain ⟨h2, q, e2, o2, k2, c2⟩ := alloc_spec (.val ([] : List γ)) o1
  refine ⟨h2, q, L, ?_, o2, fun a ha => (k2 a (by simp [ha])).trans (k1 a ha), ?_⟩
  · unfold chSelf rowCopy
    rw [e1, ok_bind]
    simp only [if_true, e2]
    rfl
  · exact ⟨rfl, rfl, by simp, by simp, hasRows_addr c2⟩

theorem cheb_self (z : α) (zero : γ) (F : BasisFill α γ δ) :
    SelfOK (chebOK false z zero F) (fun v => if v.rows = [] then v else ⟨z, []⟩) := by
  intro h R x v ho hx
  have hx : PolyHolds false h x v := hx
  obtain ⟨h', q, L, e, o1, k1, i1⟩ := chSelf_spec z ho hx
  refine ⟨h', _, L, e, o1, k1, ?_⟩
  show PolyHolds false h' _ _
  by_cases hv : v.rows = []
  · simp only [hx.size, hv, List.length_nil, ne_eq, not_true_eq_false, if_false, if_true, hx.par] at i1 ⊢
    have : v = ⟨v.par, []⟩ := by cases v; simp_all
    rw [this]
    exact i1
  · have hs : x.size ≠ 0 := by rw [hx.size]; simpa using hv
    rw [if_pos hs] at i1 ⊢
    simp only [if_neg hv]
    exact i1

theorem mtpq_self (z : α) (zero : γ) (F : BasisFill α γ δ) (hF : ∀ a d, F.dom a d = true) :
    SelfOK (mtpqOK false z zero F hF) (fun v => ⟨v.par, []⟩) := by
  intro h R x v ho hx
  have hx : MtpqHolds false h x v := hx
  have ho : OwnsAll h (mtpqOwn x ++ R) := ho
  obtain ⟨a, inner, h1, h2, h3⟩ := hx.cheb
  obtain ⟨g1, L1, e1, o1, k1, _⟩ := mtpqRelease_spec (R := ptrList x.cheb.ptr ++ R)
    (by simpa [mtpqOwn] using ho) hx
  have o1' : OwnsAll g1 (ptrList x.cheb.ptr ++ (L1 ++ R)) := by
    refine OwnsAll.perm ?_ o1
    exact List.perm_iff_count.2 fun a => by simp only [List.count_append]; omega
  obtain ⟨g2, q2, L2, e2, o2, k2, i2⟩ := chSelf_spec z o1'
    (h3.congr fun q hq => k1 q (by simp [hq]))
  obtain ⟨g3, q3, e3, o3, k3, c3⟩ := alloc_spec (.val ([] : List γ)) o2
  refine ⟨g3, ⟨x.sw, 0, ⟨if x.cheb.size ≠ 0 then z else x.cheb.par, x.cheb.sw, 0, .addr q2⟩, .addr q3⟩,
    L2 ++ L1, ?_, ?_,
    fun q hq => (k3 q (by simp [hq])).trans ((k2 q (by simp [hq])).trans (k1 q (by simp [hq]))), ?_⟩
  · show mtpqSelf z h x = _
    unfold mtpqSelf
    rw [e1, ok_bind, e2, ok_bind]
    simp only [rowCopy, if_true, e3]
    rfl
  · show OwnsAll g3 (mtpqOwn _ ++ _)
    simpa [mtpqOwn, ptrList] using o3
  · show MtpqHolds false g3 _ _
    refine ⟨hx.sw, rfl, by simp, hasRows_addr c3, _, [], rfl, by simp, i2.congr fun q hq => k3 q ?_⟩
    have : q = q2 := by simpa [ptrList] using hq
    simp [this]

end MaterSDK
