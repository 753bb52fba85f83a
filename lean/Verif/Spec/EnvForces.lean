import Verif.Model.Se4pwInput
import Verif.Spec.CrystalCpp
import Verif.Spec.Cross
import Mathlib.Analysis.Calculus.FDeriv.Add
import Mathlib.Analysis.Normed.Module.FiniteDimension

/-! # Specification vocabulary for forces from the tables of environment matrices -/

namespace MaterSDK

/-- Atoms of types `z` at the positions `x`. -/
def atomsAt {n : ℕ} (z : Fin n → ℤ) (x : Fin n → Vec ℝ) : List (ℤ × Vec ℝ) := List.ofFn (fun i => (z i, x i))

/-- Positions the neighbour list handles: atoms in the cell, not too close to each other, with slots for all
neighbours closer than `rcut`. -/
def envPositions (L : Fin 3 → Vec ℝ) {n : ℕ} (z : Fin n → ℤ) (umax : List ℕ) (rcut : ℝ) : Set (Fin n → Vec ℝ) :=
  {x | CellOk L (atomsAt z x) (fun _ => true) ∧ ApartImages L ((atomsAt z x).map Prod.snd) ∧
    CrystalRoom (typedCrystal L (atomsAt z x)) umax rcut}

/-- The point `p` lies inside the cell, not on its boundary. -/
def StrictlyInside (L : Fin 3 → Vec ℝ) (p : Vec ℝ) : Prop :=
  ∃ f : Vec ℝ, (∀ i, 0 < f i ∧ f i < 1) ∧ p = cartOf L f

/-- The change of the position of atom `j` relative to atom `i` when atoms are displaced. -/
noncomputable def relMove {n : ℕ} (j i : Fin n) : (Fin n → Vec ℝ) →L[ℝ] Vec ℝ :=
  ContinuousLinearMap.proj (R := ℝ) (φ := fun _ : Fin n => Vec ℝ) j
    - ContinuousLinearMap.proj (R := ℝ) (φ := fun _ : Fin n => Vec ℝ) i

/-- The slots of type `k` of centre `i`, each with the index of the atom of the cell it belongs to. -/
def indexedSlots {α : Type} (umax : List ℕ) (out : List α) (idx : List ℤ) (i k : ℕ) : List (α × ℤ) :=
  (typeSlots umax k (flatRow out umax.sum i)).zip (typeSlots umax k (flatRow idx umax.sum i))

/-- What a slot of centre `i` contributes to the change of a function with derivative `d` at its row, when its
neighbour is an image of atom `j` (nothing, if `j` is no atom of the cell) and `M` is the derivative of the row by
the position of the centre. -/
noncomputable def slotMove {W : Type} [NormedAddCommGroup W] [NormedSpace ℝ W] {n : ℕ} (d : (Fin 4 → ℝ) →L[ℝ] W)
    (M : Matrix (Fin 4) (Fin 3) ℝ) (i : Fin n) (j : ℤ) : (Fin n → Vec ℝ) →L[ℝ] W :=
  if h : 0 ≤ j ∧ j < n then d.comp ((Matrix.mulVecLin M).toContinuousLinearMap.comp (relMove i ⟨j.toNat, by omega⟩))
  else 0

/-- The slope of the energy when atom `j` moves along `v`, assembled from the tables of `Se4pw`: `d i k` is the
derivative of the energy by a row of type `k` of centre `i`. A slot acts on its centre and, with the opposite
sign, on the atom its index names. -/
noncomputable def tableGrad {n : ℕ} (umax : List ℕ)
    (out : List ((Fin 4 → ℝ) × Matrix (Fin 4) (Fin 3) ℝ × Vec ℝ)) (idx : List ℤ)
    (d : Fin n → Fin umax.length → (Fin 4 → ℝ) → (Fin 4 → ℝ) →L[ℝ] ℝ) (j : Fin n) (v : Vec ℝ) : ℝ :=
  ∑ i : Fin n, ∑ k : Fin umax.length, ((indexedSlots umax out idx i k).map (fun s =>
    d i k s.1.1 (s.1.2.1.mulVec v) * ((if i = j then 1 else 0) - (if s.2 = (j : ℤ) then 1 else 0)))).sum

/-- `out` and `idx` are the tables of `Se4pw` for the structure with the positions `x`: neighbour list, arguments
taken from it, `generate` and `get_prim_indices_from_matersdk` all succeed and give them. -/
def Se4pwTable (A : ArgSort) (sort : Bool) (L : Fin 3 → Vec ℝ) {n : ℕ} (z : Fin n → ℤ) (umax : List ℕ)
    (rcut rs : ℝ) (x : Fin n → Vec ℝ) (out : List ((Fin 4 → ℝ) × Matrix (Fin 4) (Fin 3) ℝ × Vec ℝ))
    (idx : List ℤ) : Prop :=
  ∃ N a, NbrLists.make A (CStruct.make L (atomsAt z x) true) rcut (fun _ => true) sort = .ok N ∧
    N.toSe4pw umax = .ok a ∧ se4pwGenerate a.slots a.ilist a.x rcut rs = .ok out ∧
    primIndices a.slots a.ilist = .ok idx

/-- `out` and `idx` are the tables of `Se4pw` as functions of the positions in `S`. -/
def Se4pwTables (A : ArgSort) (sort : Bool) (L : Fin 3 → Vec ℝ) {n : ℕ} (z : Fin n → ℤ) (umax : List ℕ)
    (rcut rs : ℝ) (S : Set (Fin n → Vec ℝ))
    (out : (Fin n → Vec ℝ) → List ((Fin 4 → ℝ) × Matrix (Fin 4) (Fin 3) ℝ × Vec ℝ))
    (idx : (Fin n → Vec ℝ) → List ℤ) : Prop :=
  ∀ x ∈ S, Se4pwTable A sort L z umax rcut rs x (out x) (idx x)

/-- Cell vectors or positions after the deformation that takes `v` to `v + η v`. -/
def strained {ι : Type} (η : Vec ℝ →L[ℝ] Vec ℝ) (p : ι → Vec ℝ) : ι → Vec ℝ := fun i => p i + η (p i)

/-- The deformations after which the neighbour list handles the structure. -/
def envStrains (L : Fin 3 → Vec ℝ) {n : ℕ} (z : Fin n → ℤ) (umax : List ℕ) (rcut : ℝ) (x : Fin n → Vec ℝ) :
    Set (Vec ℝ →L[ℝ] Vec ℝ) :=
  {η | strained η x ∈ envPositions (strained η L) z umax rcut}

/-- `out` and `idx` are the tables of `Se4pw` for the deformed structures, as functions of the deformation. -/
def Se4pwStrainTables (A : ArgSort) (sort : Bool) (L : Fin 3 → Vec ℝ) {n : ℕ} (z : Fin n → ℤ) (umax : List ℕ)
    (rcut rs : ℝ) (x : Fin n → Vec ℝ)
    (out : (Vec ℝ →L[ℝ] Vec ℝ) → List ((Fin 4 → ℝ) × Matrix (Fin 4) (Fin 3) ℝ × Vec ℝ))
    (idx : (Vec ℝ →L[ℝ] Vec ℝ) → List ℤ) : Prop :=
  ∀ η ∈ envStrains L z umax rcut x,
    Se4pwTable A sort (strained η L) z umax rcut rs (strained η x) (out η) (idx η)

/-- The slope of the energy along the deformation `η`, assembled from the tables of `Se4pw`: `d i k` is the
derivative of the energy by a row of type `k` of centre `i`; a slot contributes with its derivative block and its
relative position. -/
noncomputable def tableVirial {n : ℕ} (umax : List ℕ)
    (out : List ((Fin 4 → ℝ) × Matrix (Fin 4) (Fin 3) ℝ × Vec ℝ))
    (d : Fin n → Fin umax.length → (Fin 4 → ℝ) → (Fin 4 → ℝ) →L[ℝ] ℝ) (η : Vec ℝ →L[ℝ] Vec ℝ) : ℝ :=
  -∑ i : Fin n, ∑ k : Fin umax.length, ((typeSlots umax k (flatRow out umax.sum i)).map (fun s =>
    d i k s.1 (s.2.1.mulVec (η s.2.2)))).sum

end MaterSDK
