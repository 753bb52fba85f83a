import Verif.Spec.CrystalCpp
import Verif.Model.MtpMoment
import Verif.Model.CellList

/-! # From a structure to the basis functions of the moment tensor potentials -/

namespace MaterSDK

/-- No atom of the crystal has more than `m` other atoms closer than `r`. -/
def CrystalSlots (C : Set (ℤ × Vec ℝ)) (m : ℕ) (r : ℝ) : Prop :=
  ∀ x ∈ C, ∀ l : List (ℤ × Vec ℝ), l.Nodup →
    (∀ y ∈ l, y ∈ C ∧ y.2 ≠ x.2 ∧ dist3 y.2 x.2 < r) → l.length ≤ m

/-- The numbers of a flat array in groups of three. -/
def coordRows : List ℝ → List (Vec ℝ)
  | x :: y :: z :: l => ![x, y, z] :: coordRows l
  | _ => []

/-- `MtpBModule::forward` on the tables of `find_info4mlff`, copied into tensors with one batch entry and
`w` neighbours per atom as in /repo/source/descriptor/mtp/tests/test_mtpBModule.cc 145-183. -/
noncomputable def mtpOfTables (P : MtpParams) (combs : List (List (ℕ × ℕ))) (info : MlffInfo) (w : ℕ) :
    Except CErr (List (List (List ℝ))) :=
  mtpForward P combs [info.ilist] [(List.range info.inum).map (flatRow info.firstneigh w)]
    [(List.range info.inum).map (fun i => coordRows (flatRow info.rel (w * 3) i))] info.types

end MaterSDK
