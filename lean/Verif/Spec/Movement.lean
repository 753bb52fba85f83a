import Verif.Py.Str

/-!
# Specification of a trajectory file

Written without the model: a file is a list of rows, a separator row contains 38 dashes in a row.
-/

namespace MaterSDK

/-- The row contains 38 consecutive dashes. -/
def IsSep (row : Str) : Prop := List.replicate 38 '-' <:+: row

/-- `rows` is cut into `groups` followed by `rest`: every group is a block of rows whose last row
is a separator and whose other rows are not; no row of `rest` is a separator. -/
structure CutAtSeparators (rows : List Str) (groups : List (List Str)) (rest : List Str) : Prop where
  whole : rows = groups.flatten ++ rest
  group : ∀ g ∈ groups, ∃ body last, g = body ++ [last] ∧ IsSep last ∧ ∀ r ∈ body, ¬ IsSep r
  tail : ∀ r ∈ rest, ¬ IsSep r

end MaterSDK
