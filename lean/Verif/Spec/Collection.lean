import Verif.Model.Collection

/-!
# What collections should do
-/

namespace MaterSDK

/-- The lowest index of a slice with positive step. -/
def sliceLow (s : PySliceObj) (n : ℕ) : ℤ :=
  match s.start with
  | none => 0
  | some a => if a < 0 then max 0 (a + n) else a

/-- The highest index of a slice with negative step. -/
def sliceHigh (s : PySliceObj) (n : ℕ) : ℤ :=
  match s.start with
  | none => n - 1
  | some a => if a < 0 then a + n else min a (n - 1)

/-- `i` is before the end of the slice, for a slice with positive step. -/
def BeforeStop (s : PySliceObj) (n : ℕ) (i : ℤ) : Prop :=
  match s.stop with
  | none => True
  | some b => if b < 0 then i < b + n else i < b

/-- `i` is before the end of the slice, for a slice with negative step. -/
def AboveStop (s : PySliceObj) (n : ℕ) (i : ℤ) : Prop :=
  match s.stop with
  | none => True
  | some b => if b < 0 then b + n < i else b < i

/-- The positions a Python slice selects from a sequence of length `n`, in order (the Python language
reference, "the slice of s from i to j with step k"): negative bounds count from the end, every
`step`-th position from the first bound on. -/
def Selects (s : PySliceObj) (n : ℕ) (idx : List ℤ) : Prop :=
  let step := s.step.getD 1
  if 0 < step then
    idx.Pairwise (· < ·) ∧
      ∀ i, i ∈ idx ↔ 0 ≤ i ∧ i < n ∧ sliceLow s n ≤ i ∧ BeforeStop s n i ∧ step ∣ i - sliceLow s n
  else
    idx.Pairwise (· > ·) ∧
      ∀ i, i ∈ idx ↔ 0 ≤ i ∧ i < n ∧ i ≤ sliceHigh s n ∧ AboveStop s n i ∧ step ∣ i - sliceHigh s n

/-- A collection with one entry per frame in every array. -/
def CollObj.Aligned (c : CollObj) : Prop :=
  c.etot.length = c.frames.length ∧ c.ep.length = c.frames.length ∧ c.ek.length = c.frames.length ∧
    c.virial.length = c.frames.length

/-- Every site of the structure has a force and a non-empty atomic energy. -/
def StructV.Complete (s : StructV) (F : List (List ℚ)) (E : List ℚ) : Prop :=
  s.sites.map SiteObj.force = F.map some ∧ s.sites.map (fun t => t.energy.bind List.head?) = E.map some

end MaterSDK
