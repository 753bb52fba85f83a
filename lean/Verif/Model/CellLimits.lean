import Verif.Model.CellList

/-! # Box, widths and plane distances of a C++ structure, as handed out -/

namespace MaterSDK

/-- `get_projected_lengths`, structure.h 676-702: a null pointer for a structure without atoms. -/
noncomputable def CStruct.projectedLengths (s : CStruct) : Option (Fin 3 → ℝ) :=
  if s.atoms.length = 0 then none else some s.projected

/-- `get_interplanar_distances`, structure.h 711-736. -/
noncomputable def CStruct.interplanarDistances (s : CStruct) : Option (Fin 3 → ℝ) :=
  if s.atoms.length = 0 then none else some s.interplanar

/-- `get_limit_xyz`, structure.h 792-837. A structure without atoms has never set the pointers to its lattice and
its origin (structure.h 99, 111-131, 149), which `get_vertexes` follows. -/
noncomputable def CStruct.limitXyz (s : CStruct) : Except CErr (Fin 3 → ℝ × ℝ) :=
  if s.atoms.length = 0 then .error .undefined else .ok fun p => (s.minLimit p, s.maxLimit p)

end MaterSDK
