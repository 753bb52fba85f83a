import Verif.Spec.MtpParam

/-! # Blocks of memory that a program with `MtpParam` objects loses -/

namespace MaterSDK

/-- For which of its three tables an object has a block; a block may be there for an empty table. -/
structure MtpBlocks where
  basic : Bool
  times : Bool
  mapping : Bool

/-- The number of blocks of an object. -/
def MtpBlocks.size (b : MtpBlocks) : ℕ := b.basic.toNat + b.times.toNat + b.mapping.toNat

/-- What an operation does to the blocks `k` of objects that hold the tables `v`: a load has no block only for empty
products, a copy always has three, a moved object takes its blocks along, and an assignment makes a block for each table
that is not empty and keeps the other ones. -/
def blocksStep (v : List (Option MtpTables)) (k : List (Option MtpBlocks)) : MtpOp → List (Option MtpBlocks)
  | .dflt => k ++ [some ⟨false, false, false⟩]
  | .load t => k ++ [some ⟨true, decide (t.timesCount ≠ 0), true⟩]
  | .copy _ => k ++ [some ⟨true, true, true⟩]
  | .move y => k.set y (some ⟨false, false, false⟩) ++ [k[y]?.join]
  | .assign x y =>
    match k[x]?.join, v[y]?.join with
    | some b, some t => k.set x (some ⟨b.basic || decide (t.basicCount ≠ 0), b.times || decide (t.timesCount ≠ 0),
        b.mapping || decide (t.scalarCount ≠ 0)⟩)
    | _, _ => k
  | .moveAssign _ _ => k
  | .destroy x => k.set x none

/-- A table of length 0 that has a block is replaced by one that is not empty. -/
def lostTable (b : Bool) (old new : ℤ) : ℕ := if b = true ∧ old = 0 ∧ new ≠ 0 then 1 else 0

/-- The number of blocks an operation loses. -/
def blocksLost (v : List (Option MtpTables)) (k : List (Option MtpBlocks)) : MtpOp → ℕ
  | .assign x y =>
    match k[x]?.join, v[x]?.join, v[y]?.join with
    | some b, some a, some t => lostTable b.basic a.basicCount t.basicCount + lostTable b.times a.timesCount t.timesCount +
        lostTable b.mapping a.scalarCount t.scalarCount
    | _, _, _ => 0
  | _ => 0

/-- The number of blocks a program loses. -/
def lostRun (v : List (Option MtpTables)) (k : List (Option MtpBlocks)) : List MtpOp → ℕ
  | [] => 0
  | op :: ops => blocksLost v k op +
      match valueStep v op with
      | some v' => lostRun v' (blocksStep v k op) ops
      | none => 0

end MaterSDK
