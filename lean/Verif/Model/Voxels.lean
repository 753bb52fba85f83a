import Verif.Model.CellList

/-!
# Voxels

Model of `CpuNeighborList::Voxels`, `/repo/source/nblist/include/CpuNeighborList.h` 32-128 and
`/repo/source/nblist/src/CpuNeighborList.cc`.

Simplifications.
* `float` and `double` are rational numbers, without rounding; `int` is unbounded.
* The source does not compile as it stands: `VoxelIndex` has private members and no constructor. Taken
  here is the class with public members and a constructor from two numbers.
* The members `blockSize`, `maxy`, `maxz`, `triclinic`, `periodicBoxSize` are stored and not used; they
  are left out.
* `ny = 0` or `nz = 0` make a voxel size infinite; dividing by it gives 0. Here the size is then 0 and
  division by 0 gives 0.
* `std::sort` on pairs of numbers is a sort; equal pairs cannot be told apart.
-/

namespace MaterSDK

/-- `CpuNeighborList::Voxels`; a bin is a list of x coordinates and atoms. -/
structure Voxels where
  sizeY : ℚ
  sizeZ : ℚ
  miny : ℚ
  minz : ℚ
  ny : ℤ
  nz : ℤ
  box : Fin 3 → Vec ℚ
  periodic : Bool
  bins : List (List (List (ℚ × ℤ)))

/-- `Voxels(...)`, CpuNeighborList.cc 21-66. Without periodicity `ny` and `nz` have no value (55-57). -/
def Voxels.make (vsy vsz miny minz : ℚ) (box : Fin 3 → Vec ℚ) (periodic : Bool) : Except CErr Voxels :=
  if box 0 0 = 0 ∨ box 1 1 = 0 ∨ box 2 2 = 0 ∨ vsy = 0 ∨ vsz = 0 then .error .undefined
  else if periodic = false then .error .undefined
  else
    let ny := ⌊box 1 1 / vsy + 1 / 2⌋
    let nz := ⌊box 2 2 / vsz + 1 / 2⌋
    -- the first of two assignments to `voxelSizeY`, 53-54, is overwritten
    let sizeY := box 2 2 / nz
    if ny < 0 ∨ nz < 0 then .error .exception
    else .ok { sizeY := sizeY, sizeZ := vsz, miny := miny, minz := minz, ny := ny, nz := nz, box := box,
               periodic := periodic, bins := List.replicate ny.toNat (List.replicate nz.toNat []) }

/-- `y_periodic` and `z_periodic`, CpuNeighborList.cc 77-87. -/
def Voxels.wrapped (V : Voxels) (loc : Vec ℚ) : ℚ × ℚ :=
  if V.periodic = false then (loc 1 - V.miny, loc 2 - V.minz)
  else
    let shiftZ : ℤ := ⌊loc 2 * (1 / V.box 2 2)⌋
    let z := loc 2 - V.box 2 2 * shiftZ
    let y := loc 1 - V.box 2 1 * shiftZ
    let shiftY : ℤ := ⌊y * (1 / V.box 1 1)⌋
    (y - V.box 1 1 * shiftY, z)

/-- `getVoxelIndex`, CpuNeighborList.cc 75-92. -/
def Voxels.index (V : Voxels) (loc : Vec ℚ) : ℤ × ℤ :=
  let w := V.wrapped loc
  (max 0 (min (V.ny - 1) ⌊w.1 / V.sizeY⌋), max 0 (min (V.nz - 1) ⌊w.2 / V.sizeZ⌋))

/-- `insert`, CpuNeighborList.cc 101-105. -/
def Voxels.insert (V : Voxels) (p : ℤ × Vec ℚ) : Except CErr Voxels := do
  let i := V.index p.2
  let row ← cGet V.bins i.1
  let bin ← cGet row i.2
  let row' ← cSet row i.2 (bin ++ [(p.2 0, p.1)])
  let bins ← cSet V.bins i.1 row'
  return { V with bins := bins }

/-- `operator<` of pairs, as `≤`. -/
def pairLe (a b : ℚ × ℤ) : Bool := decide (a.1 < b.1 ∨ (a.1 = b.1 ∧ a.2 ≤ b.2))

/-- `sortItems`, CpuNeighborList.cc 116-122. -/
def Voxels.sortItems (V : Voxels) : Voxels :=
  { V with bins := V.bins.map (fun row => row.map (fun bin => bin.insertionSort (fun a b => pairLe a b))) }

/-- The loop of `findLowerBound`, CpuNeighborList.cc 139-146; `undefined` stands for a loop that does not
end. -/
def lowerLoop (bin : List (ℚ × ℤ)) (x : ℚ) : ℕ → ℤ → ℤ → Except CErr ℤ
  | 0, lower, upper => if lower < upper then .error .undefined else .ok lower
  | n + 1, lower, upper =>
    if lower < upper then do
      let middle := (lower + upper).tdiv 2
      let e ← cGet bin middle
      if e.1 < x then lowerLoop bin x n (middle + 1) upper else lowerLoop bin x n lower middle
    else .ok lower

/-- The loop of `findUpperBound`, CpuNeighborList.cc 163-170. -/
def upperLoop (bin : List (ℚ × ℤ)) (x : ℚ) : ℕ → ℤ → ℤ → Except CErr ℤ
  | 0, lower, upper => if lower < upper then .error .undefined else .ok upper
  | n + 1, lower, upper =>
    if lower < upper then do
      let middle := (lower + upper).tdiv 2
      let e ← cGet bin middle
      if e.1 > x then upperLoop bin x n lower middle else upperLoop bin x n (middle + 1) upper
    else .ok upper

/-- `findLowerBound`, CpuNeighborList.cc 136-148. -/
def Voxels.findLower (V : Voxels) (y z : ℤ) (x : ℚ) (lower upper : ℤ) : Except CErr ℤ := do
  let row ← cGet V.bins y
  let bin ← cGet row z
  lowerLoop bin x (upper - lower).toNat lower upper

/-- `findUpperBound`, CpuNeighborList.cc 160-172. -/
def Voxels.findUpper (V : Voxels) (y z : ℤ) (x : ℚ) (lower upper : ℤ) : Except CErr ℤ := do
  let row ← cGet V.bins y
  let bin ← cGet row z
  upperLoop bin x (upper - lower).toNat lower upper

end MaterSDK
