import Verif.Lemmas.Factory

/-! # C178: the factories of the descriptors -/

namespace MaterSDK

/-- What a statement registers with a factory under a name. -/
def FactoryOp.registers {C : Type} (factory name : Str) : FactoryOp C → Option (Option C)
  | .decorated f n _ c => if f = factory ∧ n = name then some (some c) else none
  | .call f n v => if f = factory ∧ n = name then some v else none

theorem factoryStep_get {C : Type} (st : FactoryState C) (op : FactoryOp C) (factory name : Str) :
    pyDictGet ((factoryStep st op).regs factory) name =
      match op.registers factory name with
      | some v => .ok v
      | none => pyDictGet (st.regs factory) name := by
  have aux : ∀ (f n : Str) (v : Option C),
      pyDictGet (Function.update st.regs f (dictSet (st.regs f) n v) factory) name =
      match (if f = factory ∧ n = name then some v else none : Option (Option C)) with
      | some v => .ok v
      | none => pyDictGet (st.regs factory) name := by
    intro f n v
    by_cases hf : f = factory
    · subst hf
      rw [Function.update_self, pyDictGet_dictSet]
      by_cases hn : n = name <;> simp [hn]
    · rw [Function.update_of_ne (Ne.symm hf)]
      simp [hf]
  cases op with
  | decorated f n K c => exact aux f n (some c)
  | call f n v => exact aux f n v

theorem factoryRun_get {C : Type} (ops : List (FactoryOp C)) (factory name : Str) :
    pyDictGet ((factoryRun ops).regs factory) name =
      match ops.reverse.findSome? (FactoryOp.registers factory name) with
      | some v => .ok v
      | none => .error .keyError := by
  induction ops using List.reverseRecOn with
  | nil => rfl
  | append_singleton l op ih =>
    unfold factoryRun at ih ⊢
    rw [List.foldl_append, List.foldl_cons, List.foldl_nil, factoryStep_get, List.reverse_append,
      List.reverse_singleton, List.singleton_append, List.findSome?_cons, ih]
    cases op.registers factory name <;> rfl

/-- C178, registered names: after any program, a name gives the class of the last registration under
this name with this factory; registrations under other names or with other factories do not matter.
Missing: unknown names, see `C178_violated_unknown`. -/
theorem C178_last_registration_partial {C Args Obj : Type} (make : C → Args → Except PyErr Obj)
    (before after : List (FactoryOp C)) (op : FactoryOp C) (factory name : Str) (v : Option C) (args : Args)
    (hop : (∃ K c, op = .decorated factory name K c ∧ v = some c) ∨ op = .call factory name v)
    (hafter : ∀ o ∈ after, (∀ f n K c, o = .decorated f n K c → f ≠ factory ∨ n ≠ name) ∧
      ∀ f n w, o = .call f n w → f ≠ factory ∨ n ≠ name) :
    factoryCreate make (factoryRun (before ++ op :: after)) factory name args =
      match v with
      | some c => make c args
      | none => .error .valueError := by
  unfold factoryCreate
  rw [factoryRun_get, List.reverse_append, List.reverse_cons, List.append_assoc, List.findSome?_append]
  have h1 : after.reverse.findSome? (FactoryOp.registers factory name) = none := by
    rw [List.findSome?_eq_none_iff]
    intro o ho
    obtain ⟨h1, h2⟩ := hafter o (List.mem_reverse.1 ho)
    cases o with
    | decorated f n K c =>
      simp only [FactoryOp.registers]
      rw [if_neg]
      have := h1 f n K c rfl
      tauto
    | call f n w =>
      simp only [FactoryOp.registers]
      rw [if_neg]
      have := h2 f n w rfl
      tauto
  have h2 : op.registers factory name = some v := by
    rcases hop with ⟨K, c, rfl, rfl⟩ | rfl <;> simp [FactoryOp.registers]
  rw [h1, List.singleton_append, List.findSome?_cons, h2]
  simp only [Option.none_or, ok_bind]
  cases v <;> rfl

/-- C178 fails for unknown names: the code has a branch raising a `ValueError` with the message that
nothing is registered, but the lookup before it raises a `KeyError`, after any program. -/
theorem C178_violated_unknown {C Args Obj : Type} (make : C → Args → Except PyErr Obj)
    (ops : List (FactoryOp C)) (factory name : Str) (args : Args)
    (h : ∀ o ∈ ops, (∀ f n K c, o = .decorated f n K c → f ≠ factory ∨ n ≠ name) ∧
      ∀ f n w, o = .call f n w → f ≠ factory ∨ n ≠ name) :
    factoryCreate make (factoryRun ops) factory name args = .error .keyError := by
  unfold factoryCreate
  rw [factoryRun_get]
  have h1 : ops.reverse.findSome? (FactoryOp.registers factory name) = none := by
    rw [List.findSome?_eq_none_iff]
    intro o ho
    obtain ⟨h1, h2⟩ := h o (List.mem_reverse.1 ho)
    cases o with
    | decorated f n K c =>
      simp only [FactoryOp.registers]
      rw [if_neg]
      have := h1 f n K c rfl
      tauto
    | call f n w =>
      simp only [FactoryOp.registers]
      rw [if_neg]
      have := h2 f n w rfl
      tauto
  rw [h1]
  rfl

/-- C178 fails for the name of the class: after `@F.register(name) class K` the name `K` is `None`; a
call of `K` is refused with a `TypeError` whatever the class does, while `F.create(name)` makes the
object. -/
theorem C178_violated_class_name {C Args Obj : Type} (make : C → Args → Except PyErr Obj)
    (ops : List (FactoryOp C)) (factory name K : Str) (c : C) (args : Args) :
    factoryCallName make (factoryRun (ops ++ [.decorated factory name K c])) K args
      = some (.error .typeError) ∧
    factoryCreate make (factoryRun (ops ++ [.decorated factory name K c])) factory name args
      = make c args := by
  constructor
  · unfold factoryCallName factoryRun
    rw [List.foldl_append, List.foldl_cons, List.foldl_nil]
    simp only [factoryStep, factoryRegister]
    rw [pyDictGet_dictSet, if_pos rfl]
  · exact C178_last_registration_partial make ops [] _ factory name (some c) args
      (.inl ⟨K, c, rfl, rfl⟩) (by simp)

/-- The two modules se_pair.py and se.py: both register a class under `v1`, with different factories. -/
example : factoryCreate (fun (c : ℕ) (a : ℕ) => Except.ok (c + a))
    (factoryRun [.decorated (chars% "DpseTildeRPairDescriptor") (chars% "v1") (chars% "DpseTildeRPairV1") 10,
      .decorated (chars% "DpseTildeRDescriptor") (chars% "v1") (chars% "DpseTildeRPairV1") 20])
    (chars% "DpseTildeRPairDescriptor") (chars% "v1") 5 = .ok 15 :=
  C178_last_registration_partial _ [] _ _ _ _ (some 10) 5 (.inl ⟨_, _, rfl, rfl⟩) (by
    intro o ho
    simp only [List.mem_singleton] at ho
    subst ho
    constructor
    · intro f n K c h
      cases h
      left
      decide
    · intro f n w h
      cases h)

/-- Nothing is registered under `v2`. -/
example : factoryCreate (fun (c : ℕ) (a : ℕ) => Except.ok (c + a))
    (factoryRun [.decorated (chars% "DpseTildeRDescriptor") (chars% "v1") (chars% "DpseTildeRPairV1") 20])
    (chars% "DpseTildeRDescriptor") (chars% "v2") 5 = .error .keyError :=
  C178_violated_unknown _ _ _ _ _ (by
    intro o ho
    simp only [List.mem_singleton] at ho
    subst ho
    constructor
    · intro f n K c h
      cases h
      right
      decide
    · intro f n w h
      cases h)

end MaterSDK
