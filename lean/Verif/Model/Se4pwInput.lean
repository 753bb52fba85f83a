import Verif.Model.EnvMatrix
import Verif.Model.CellList

/-! # From a neighbour list to the arguments of `Se4pw` -/

namespace MaterSDK

/-- The arguments of `Se4pw::generate` and `Se4pw::get_prim_indices_from_matersdk`, se4pw.h 43-61, 211-219. -/
structure Se4pwArgs where
  slots : SlotIn
  ilist : List ℤ
  x : List ℝ

/-- The arguments taken from a neighbour list, the way
`/repo/source/descriptor/deepmd/test/demo_se4pw.cc` 113-151 does it: `firstneigh` holds one row of
`tot_num_neigh_atoms` numbers per centre, set to zero first. Simplified: a list of neighbours longer than a row
is an error here; the code writes on into the next row, and for the last centre behind the array. -/
def NbrLists.toSe4pw (N : NbrLists) (umax : List ℕ) : Except CErr Se4pwArgs :=
  if N.lists.any (fun l => decide (umax.sum < l.length)) then .error .outOfBounds
  else .ok {
    slots := {
      inum := (N.lists.length : ℤ)
      numneigh := N.lists.map (fun l => (l.length : ℤ))
      firstneigh := N.lists.flatMap (fun l => l ++ List.replicate (umax.sum - l.length) 0)
      types := N.bins.supercell.struct.atoms.map Prod.fst
      umax := umax.map (fun m : ℕ => (m : ℤ)) }
    ilist := (List.range N.lists.length).map (fun ii : ℕ =>
      (ii : ℤ) + N.bins.supercell.primIdx * N.bins.supercell.primNum)
    x := N.bins.supercell.struct.atoms.flatMap (fun a => [a.2 0, a.2 1, a.2 2]) }

end MaterSDK
