import Verif.Model.CellList

/-!
# What a neighbour list shows

Model of `/repo/source/nblist/include/neighborList.h` 345-432: `show_in_index`, `show_in_prim_index`,
`show_in_an` and `show_in_distances`.  A line is the number before the colon and the numbers after it;
the formats (`%4d`, `%6.6f`) and the last line with the cutoff are left out.  A list without atoms prints
no such line.
-/

namespace MaterSDK

/-- `show_in_index`, neighborList.h 345-360. -/
def NbrLists.showIndex (N : NbrLists) : List (ℤ × List ℤ) :=
  N.lists.zipIdx.map fun e => ((e.2 : ℤ), e.1)

/-- `show_in_prim_index`, neighborList.h 363-377. -/
def NbrLists.showPrimIndex (N : NbrLists) : List (ℤ × List ℤ) :=
  N.lists.zipIdx.map fun e => ((e.2 : ℤ), e.1.map fun k => k.tmod (N.bins.supercell.primNum : ℤ))

/-- `show_in_an`, neighborList.h 380-396. -/
def NbrLists.showAn (N : NbrLists) : Except CErr (List (ℤ × List ℤ)) :=
  N.lists.zipIdx.mapM fun e => do
    let c ← cGet N.bins.supercell.struct.atoms (e.2 : ℤ)
    let zs ← e.1.mapM fun k => do
      let a ← cGet N.bins.supercell.struct.atoms k
      return a.1
    return (c.1, zs)

/-- `show_in_distances`, neighborList.h 399-432. -/
noncomputable def NbrLists.showDistances (N : NbrLists) : Except CErr (List (ℤ × List ℝ)) :=
  N.lists.zipIdx.mapM fun e => do
    let z ← cGet N.bins.supercell.struct.atoms (e.2 : ℤ)
    let c ← cGet N.bins.supercell.struct.atoms
      ((e.2 : ℤ) + (N.bins.supercell.primNum : ℤ) * N.bins.supercell.primIdx)
    let ds ← e.1.mapM fun k => do
      let a ← cGet N.bins.supercell.struct.atoms k
      return Real.sqrt ((a.2 0 - c.2 0) ^ 2 + (a.2 1 - c.2 1) ^ 2 + (a.2 2 - c.2 2) ^ 2)
    return (z.1, ds)

end MaterSDK
