import Verif.Model.Dataset

/-! # The factories of the descriptors

/repo/matersdk/io/publicLayer/neigh.py 275-288 (`StructureNeighborsDescriptor`),
/repo/matersdk/feature/deepmd/premise.py 24-38 (`DpFeaturePairPremiseDescriptor`), se_pair.py 27-40
(`DpseTildeRPairDescriptor`) and se.py 17-30 (`DpseTildeRDescriptor`): four copies of the same code with
a registry each. A class is a value of an arbitrary type `C`; `make c args` is the call of the class. -/

namespace MaterSDK

/-- The registries of the factories, by factory, and the names of the module; `none` is python's `None`. -/
structure FactoryState (C : Type) where
  regs : Str → List (Str × Option C)
  names : List (Str × Option C)

/-- The statements of a program that matter here. -/
inductive FactoryOp (C : Type)
  /-- `@F.register(name)` above `class K`. -/
  | decorated (factory name K : Str) (c : C)
  /-- `F.register(name)(v)`. -/
  | call (factory name : Str) (v : Option C)

/-- `F.register(name)(v)`, neigh.py 277-281: the registry is updated; the wrapper has no `return`, so
the result is `None`. -/
def factoryRegister {C : Type} (st : FactoryState C) (factory name : Str) (v : Option C) :
    FactoryState C × Option C :=
  ({ st with regs := Function.update st.regs factory (dictSet (st.regs factory) name v) }, none)

/-- One statement. A decorated class binds its name to what the decorator returns. -/
def factoryStep {C : Type} (st : FactoryState C) : FactoryOp C → FactoryState C
  | .decorated factory name K c =>
    let r := factoryRegister st factory name (some c)
    { r.1 with names := dictSet r.1.names K r.2 }
  | .call factory name v => (factoryRegister st factory name v).1

/-- A program, starting from empty registries. -/
def factoryRun {C : Type} (ops : List (FactoryOp C)) : FactoryState C :=
  ops.foldl factoryStep ⟨fun _ => [], []⟩

/-- `F.create(name, *args)`, neigh.py 283-288. -/
def factoryCreate {C Args Obj : Type} (make : C → Args → Except PyErr Obj) (st : FactoryState C)
    (factory name : Str) (args : Args) : Except PyErr Obj := do
  match ← pyDictGet (st.regs factory) name with
  | none => .error .valueError
  | some c => make c args

/-- `K(*args)` for a name `K` of the module; `None` cannot be called. An unbound name is a `NameError`,
here `none`. -/
def factoryCallName {C Args Obj : Type} (make : C → Args → Except PyErr Obj) (st : FactoryState C)
    (K : Str) (args : Args) : Option (Except PyErr Obj) :=
  match pyDictGet st.names K with
  | .error _ => none
  | .ok none => some (.error .typeError)
  | .ok (some c) => some (make c args)

end MaterSDK
