import Verif.Py.Str

/-! # The periodic table, written down independently of the code -/

namespace MaterSDK

/-- Symbols by atomic number; entry 0 is the vacancy placeholder used by the SDK. -/
def periodicTable : List Str := [chars% "X0+",
  chars% "H", chars% "He", chars% "Li", chars% "Be", chars% "B", chars% "C", chars% "N", chars% "O", chars% "F", chars% "Ne", chars% "Na", chars% "Mg",
  chars% "Al", chars% "Si", chars% "P", chars% "S", chars% "Cl", chars% "Ar", chars% "K", chars% "Ca", chars% "Sc", chars% "Ti", chars% "V", chars% "Cr",
  chars% "Mn", chars% "Fe", chars% "Co", chars% "Ni", chars% "Cu", chars% "Zn", chars% "Ga", chars% "Ge", chars% "As", chars% "Se", chars% "Br", chars% "Kr",
  chars% "Rb", chars% "Sr", chars% "Y", chars% "Zr", chars% "Nb", chars% "Mo", chars% "Tc", chars% "Ru", chars% "Rh", chars% "Pd", chars% "Ag", chars% "Cd",
  chars% "In", chars% "Sn", chars% "Sb", chars% "Te", chars% "I", chars% "Xe", chars% "Cs", chars% "Ba", chars% "La", chars% "Ce", chars% "Pr", chars% "Nd",
  chars% "Pm", chars% "Sm", chars% "Eu", chars% "Gd", chars% "Tb", chars% "Dy", chars% "Ho", chars% "Er", chars% "Tm", chars% "Yb", chars% "Lu", chars% "Hf",
  chars% "Ta", chars% "W", chars% "Re", chars% "Os", chars% "Ir", chars% "Pt", chars% "Au", chars% "Hg", chars% "Tl", chars% "Pb", chars% "Bi", chars% "Po",
  chars% "At", chars% "Rn", chars% "Fr", chars% "Ra", chars% "Ac", chars% "Th", chars% "Pa", chars% "U", chars% "Np", chars% "Pu", chars% "Am", chars% "Cm",
  chars% "Bk", chars% "Cf", chars% "Es", chars% "Fm", chars% "Md", chars% "No", chars% "Lr", chars% "Rf", chars% "Db", chars% "Sg", chars% "Bh", chars% "Hs",
  chars% "Mt", chars% "Ds", chars% "Rg", chars% "Cn", chars% "Nh", chars% "Fl", chars% "Mc", chars% "Lv", chars% "Ts", chars% "Og"]

end MaterSDK
