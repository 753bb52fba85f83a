import Verif.Model.EnvMatrix
import Verif.Spec.DeepMD
import Verif.Spec.CellList

/-! # Specification vocabulary for the C++ environment matrix -/

namespace MaterSDK

/-- Slots of one centre: for every type, first the neighbours of that type in the order of the list,
then padding up to the number of slots of the type. `nbrs` holds the type and the value of every
neighbour. -/
def typeBlocks {α : Type} (zero : α) (umax : List ℕ) (nbrs : List (ℤ × α)) : List α :=
  umax.zipIdx.flatMap (fun e : ℕ × ℕ =>
    (nbrs.filter (fun q => q.1 = (e.2 : ℤ))).map Prod.snd ++
      List.replicate (e.1 - nbrs.countP (fun q => q.1 = (e.2 : ℤ))) zero)

/-- Every neighbour has a type with slots, and no type has more neighbours than slots. -/
def RoomFor {α : Type} (umax : List ℕ) (nbrs : List (ℤ × α)) : Prop :=
  (∀ q ∈ nbrs, 0 ≤ q.1 ∧ q.1 < umax.length) ∧
    ∀ (t m : ℕ), umax[t]? = some m → nbrs.countP (fun q => q.1 = (t : ℤ)) ≤ m

/-- The arrays describe `n` centres whose neighbours have the listed indices, in this order: row `ii`
of `firstneigh` (rows as long as there are slots) starts with them and `numneigh` counts them. -/
def ListsNbrs (p : SlotIn) (umax : List ℕ) (n : ℕ) (nbrs : ℕ → List ℕ) : Prop :=
  p.inum = (n : ℤ) ∧ p.umax = umax.map (fun m : ℕ => (m : ℤ)) ∧
    ∀ ii < n, p.numneigh[ii]? = some ((nbrs ii).length : ℤ) ∧
      ∀ (jj k : ℕ), (nbrs ii)[jj]? = some k → p.firstneigh[ii * umax.sum + jj]? = some (k : ℤ)

/-- The vector `v` is stored as entries `3 k`, `3 k + 1`, `3 k + 2`. -/
def StoredAt (arr : List ℝ) (k : ℕ) (v : Vec ℝ) : Prop :=
  arr[k * 3]? = some (v 0) ∧ arr[k * 3 + 1]? = some (v 1) ∧ arr[k * 3 + 2]? = some (v 2)

/-- Type and environment row of a periodic image seen from the point `c`. -/
noncomputable def imageEnv (L : Fin 3 → Vec ℝ) (atoms : List (ℤ × Vec ℝ)) (rcut rs : ℝ) (c : Vec ℝ)
    (e : ℕ × (Fin 3 → ℤ)) : ℤ × (Fin 4 → ℝ) :=
  match atoms[e.1]? with
  | some a => (a.1, envAt rcut rs (imagePos L a.2 e.2) c)
  | none => (0, 0)

end MaterSDK
