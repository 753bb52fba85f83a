import Verif.Py.Str

/-!
# Row locators

Model of `/repo/matersdk/io/pwmat/utils/lineLocator.py`.
-/

namespace MaterSDK

/-- Loop of `LineLocator.locate_all_lines`, lineLocator.py 33-40. `rowNo` is the counter before the
increment of line 35. -/
def lineLocateFrom (content : Str) : Nat → List Str → List Nat
  | _, [] => []
  | rowNo, row :: rows =>
    let rowNo' := rowNo + 1
    if strIn content (upper row) then rowNo' :: lineLocateFrom content rowNo' rows
    else lineLocateFrom content rowNo' rows

/-- `LineLocator.locate_all_lines(file_path, content)`, lineLocator.py 10-40; the file is given by
its rows. Row numbers start at 1. -/
def lineLocate (rows : List Str) (content : Str) : List Nat := lineLocateFrom content 0 rows

/-- Loop of `ListLocator.locate_all_lines`, lineLocator.py 66-70. The Python counter starts at `-1`
and is incremented before use, so `strNo` here is the counter after the increment of line 67. -/
def listLocateFrom (content : Str) : Nat → List Str → List Nat
  | _, [] => []
  | strNo, s :: ss =>
    if strIn content (upper s) then strNo :: listLocateFrom content (strNo + 1) ss
    else listLocateFrom content (strNo + 1) ss

/-- `ListLocator.locate_all_lines(strs_lst, content)`, lineLocator.py 43-72. Indices start at 0. -/
def listLocate (strs : List Str) (content : Str) : List Nat := listLocateFrom content 0 strs

end MaterSDK
