import Verif.Py.Str

/-!
# Element tables

Model of `/repo/matersdk/io/pwmat/utils/parameters.py`; the two literals are transcribed entry by
entry.
-/

namespace MaterSDK

/-- `atomic_number2specie`, parameters.py 1-122. -/
def numberSpecieTable : List (Nat × Str) := [
  (0, chars% "X0+"),
  (1, chars% "H"),
  (2, chars% "He"),
  (3, chars% "Li"),
  (4, chars% "Be"),
  (5, chars% "B"),
  (6, chars% "C"),
  (7, chars% "N"),
  (8, chars% "O"),
  (9, chars% "F"),
  (10, chars% "Ne"),
  (11, chars% "Na"),
  (12, chars% "Mg"),
  (13, chars% "Al"),
  (14, chars% "Si"),
  (15, chars% "P"),
  (16, chars% "S"),
  (17, chars% "Cl"),
  (18, chars% "Ar"),
  (19, chars% "K"),
  (20, chars% "Ca"),
  (21, chars% "Sc"),
  (22, chars% "Ti"),
  (23, chars% "V"),
  (24, chars% "Cr"),
  (25, chars% "Mn"),
  (26, chars% "Fe"),
  (27, chars% "Co"),
  (28, chars% "Ni"),
  (29, chars% "Cu"),
  (30, chars% "Zn"),
  (31, chars% "Ga"),
  (32, chars% "Ge"),
  (33, chars% "As"),
  (34, chars% "Se"),
  (35, chars% "Br"),
  (36, chars% "Kr"),
  (37, chars% "Rb"),
  (38, chars% "Sr"),
  (39, chars% "Y"),
  (40, chars% "Zr"),
  (41, chars% "Nb"),
  (42, chars% "Mo"),
  (43, chars% "Tc"),
  (44, chars% "Ru"),
  (45, chars% "Rh"),
  (46, chars% "Pd"),
  (47, chars% "Ag"),
  (48, chars% "Cd"),
  (49, chars% "In"),
  (50, chars% "Sn"),
  (51, chars% "Sb"),
  (52, chars% "Te"),
  (53, chars% "I"),
  (54, chars% "Xe"),
  (55, chars% "Cs"),
  (56, chars% "Ba"),
  (57, chars% "La"),
  (58, chars% "Ce"),
  (59, chars% "Pr"),
  (60, chars% "Nd"),
  (61, chars% "Pm"),
  (62, chars% "Sm"),
  (63, chars% "Eu"),
  (64, chars% "Gd"),
  (65, chars% "Tb"),
  (66, chars% "Dy"),
  (67, chars% "Ho"),
  (68, chars% "Er"),
  (69, chars% "Tm"),
  (70, chars% "Yb"),
  (71, chars% "Lu"),
  (72, chars% "Hf"),
  (73, chars% "Ta"),
  (74, chars% "W"),
  (75, chars% "Re"),
  (76, chars% "Os"),
  (77, chars% "Ir"),
  (78, chars% "Pt"),
  (79, chars% "Au"),
  (80, chars% "Hg"),
  (81, chars% "Tl"),
  (82, chars% "Pb"),
  (83, chars% "Bi"),
  (84, chars% "Po"),
  (85, chars% "At"),
  (86, chars% "Rn"),
  (87, chars% "Fr"),
  (88, chars% "Ra"),
  (89, chars% "Ac"),
  (90, chars% "Th"),
  (91, chars% "Pa"),
  (92, chars% "U"),
  (93, chars% "Np"),
  (94, chars% "Pu"),
  (95, chars% "Am"),
  (96, chars% "Cm"),
  (97, chars% "Bk"),
  (98, chars% "Cf"),
  (99, chars% "Es"),
  (100, chars% "Fm"),
  (101, chars% "Md"),
  (102, chars% "No"),
  (103, chars% "Lr"),
  (104, chars% "Rf"),
  (105, chars% "Db"),
  (106, chars% "Sg"),
  (107, chars% "Bh"),
  (108, chars% "Hs"),
  (109, chars% "Mt"),
  (110, chars% "Ds"),
  (111, chars% "Rg"),
  (112, chars% "Cn"),
  (113, chars% "Nh"),
  (114, chars% "Fl"),
  (115, chars% "Mc"),
  (116, chars% "Lv"),
  (117, chars% "Ts"),
  (118, chars% "Og")]

/-- `specie2atomic_number`, parameters.py 125-246. -/
def specieNumberTable : List (Str × Nat) := [
  (chars% "X0+", 0),
  (chars% "H", 1),
  (chars% "He", 2),
  (chars% "Li", 3),
  (chars% "Be", 4),
  (chars% "B", 5),
  (chars% "C", 6),
  (chars% "N", 7),
  (chars% "O", 8),
  (chars% "F", 9),
  (chars% "Ne", 10),
  (chars% "Na", 11),
  (chars% "Mg", 12),
  (chars% "Al", 13),
  (chars% "Si", 14),
  (chars% "P", 15),
  (chars% "S", 16),
  (chars% "Cl", 17),
  (chars% "Ar", 18),
  (chars% "K", 19),
  (chars% "Ca", 20),
  (chars% "Sc", 21),
  (chars% "Ti", 22),
  (chars% "V", 23),
  (chars% "Cr", 24),
  (chars% "Mn", 25),
  (chars% "Fe", 26),
  (chars% "Co", 27),
  (chars% "Ni", 28),
  (chars% "Cu", 29),
  (chars% "Zn", 30),
  (chars% "Ga", 31),
  (chars% "Ge", 32),
  (chars% "As", 33),
  (chars% "Se", 34),
  (chars% "Br", 35),
  (chars% "Kr", 36),
  (chars% "Rb", 37),
  (chars% "Sr", 38),
  (chars% "Y", 39),
  (chars% "Zr", 40),
  (chars% "Nb", 41),
  (chars% "Mo", 42),
  (chars% "Tc", 43),
  (chars% "Ru", 44),
  (chars% "Rh", 45),
  (chars% "Pd", 46),
  (chars% "Ag", 47),
  (chars% "Cd", 48),
  (chars% "In", 49),
  (chars% "Sn", 50),
  (chars% "Sb", 51),
  (chars% "Te", 52),
  (chars% "I", 53),
  (chars% "Xe", 54),
  (chars% "Cs", 55),
  (chars% "Ba", 56),
  (chars% "La", 57),
  (chars% "Ce", 58),
  (chars% "Pr", 59),
  (chars% "Nd", 60),
  (chars% "Pm", 61),
  (chars% "Sm", 62),
  (chars% "Eu", 63),
  (chars% "Gd", 64),
  (chars% "Tb", 65),
  (chars% "Dy", 66),
  (chars% "Ho", 67),
  (chars% "Er", 68),
  (chars% "Tm", 69),
  (chars% "Yb", 70),
  (chars% "Lu", 71),
  (chars% "Hf", 72),
  (chars% "Ta", 73),
  (chars% "W", 74),
  (chars% "Re", 75),
  (chars% "Os", 76),
  (chars% "Ir", 77),
  (chars% "Pt", 78),
  (chars% "Au", 79),
  (chars% "Hg", 80),
  (chars% "Tl", 81),
  (chars% "Pb", 82),
  (chars% "Bi", 83),
  (chars% "Po", 84),
  (chars% "At", 85),
  (chars% "Rn", 86),
  (chars% "Fr", 87),
  (chars% "Ra", 88),
  (chars% "Ac", 89),
  (chars% "Th", 90),
  (chars% "Pa", 91),
  (chars% "U", 92),
  (chars% "Np", 93),
  (chars% "Pu", 94),
  (chars% "Am", 95),
  (chars% "Cm", 96),
  (chars% "Bk", 97),
  (chars% "Cf", 98),
  (chars% "Es", 99),
  (chars% "Fm", 100),
  (chars% "Md", 101),
  (chars% "No", 102),
  (chars% "Lr", 103),
  (chars% "Rf", 104),
  (chars% "Db", 105),
  (chars% "Sg", 106),
  (chars% "Bh", 107),
  (chars% "Hs", 108),
  (chars% "Mt", 109),
  (chars% "Ds", 110),
  (chars% "Rg", 111),
  (chars% "Cn", 112),
  (chars% "Nh", 113),
  (chars% "Fl", 114),
  (chars% "Mc", 115),
  (chars% "Lv", 116),
  (chars% "Ts", 117),
  (chars% "Og", 118)]

/-- `atomic_number2specie[n]` for a Python int `n`. -/
def specieOf (n : Int) : Except PyErr Str :=
  if n < 0 then .error .keyError else pyDictGet numberSpecieTable n.toNat

/-- `specie2atomic_number[s]`. -/
def numberOf (s : Str) : Except PyErr Nat := pyDictGet specieNumberTable s

end MaterSDK
