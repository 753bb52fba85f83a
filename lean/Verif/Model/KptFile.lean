import Verif.Model.Kpoints
import Verif.Model.Dos

/-!
# Small input files: k-points, density of states, external potentials

Model of `KpathSampler.output_HIGHK_file` and the text of `output_gen_kpt`
(`/repo/matersdk/calculation/kpath/kpathSampler.py` 74-165), of the remaining readers of `Inkpt`
(`/repo/matersdk/io/pwmat/input/inkpt.py` 131-199), of `DosInput`
(`/repo/matersdk/io/pwmat/input/dos_input.py`), `GenVext`
(`/repo/matersdk/io/pwmat/input/gen_vext.py`) and `Report.get_in_atom`
(`/repo/matersdk/io/pwmat/output/report.py` 142-158).

Simplifications.
* Texts Python makes of values the code does not look at (`structure.formula`, `str(density)`,
  `str(value)` of potential parameters and grid entries) are inputs.
* A number of points of 10^16 and more is printed by Python with an exponent; here always plainly.
* With density 0 a segment of length 0 gets the count `nan`, written here as `inf`; with a negative density a
  count can be written as `-0.0`, here `0.0`.
* A file is written completely: disk errors are left out.
-/

namespace MaterSDK

/-- `"{:>w}".format(s)`. -/
def rjust (w : Nat) (s : Str) : Str := List.replicate (w - s.length) ' ' ++ s

/-- `"    {0:>12.6f}\t{1:>12.6f}\t{2:>12.6f}\t{3}\n"`, kpathSampler.py 95-100, 150-163. -/
def kptRow (v : Vec ℚ) (label : Str) : Str :=
  (chars% "    ") ++ rjust 12 (fmtFixed 6 (v 0)) ++ (chars% "\t") ++ rjust 12 (fmtFixed 6 (v 1)) ++
    (chars% "\t") ++ rjust 12 (fmtFixed 6 (v 2)) ++ (chars% "\t") ++ label ++ (chars% "\n")

/-- `if os.path.exists(path): os.remove(path)`, kpathSampler.py 87-88, 112-113. -/
def removeFile (_old : Option Str) : Option Str := none

/-- Opening with mode `"a"` and writing. -/
def appendFile (old : Option Str) (text : Str) : Str := old.getD [] ++ text

/-- The header of HIGHK, kpathSampler.py 91. -/
def highkHeader (formula : Str) : Str :=
  (chars% "High symmetry kpoints generated by MaterSDK, structure:") ++ formula ++
    (chars% ", fractional coordinates in reciprocal lattice\n")

/-- `output_HIGHK_file`, kpathSampler.py 74-101: the file left, given the file found. -/
def highkFile (formula : Str) (kpts : KDict) (old : Option Str) : Str :=
  appendFile (removeFile old)
    (highkHeader formula ++ (kpts.map (fun p => kptRow p.2 p.1)).flatten)

/-- `"{0}\n".format(num_bandpoint)`, kpathSampler.py 149; `num_bandpoint` is a float. -/
def countRow : Option ℤ → Str
  | some n => showInt n ++ (chars% ".0\n")
  | none => chars% "inf\n"

/-- The rows of one segment, kpathSampler.py 149-163. -/
def segRows (s : KSegment) : List Str :=
  [countRow s.num, kptRow s.start.2 s.start.1, kptRow s.dest.2 s.dest.1]

/-- The header of gen.kpt, kpathSampler.py 126. -/
def genHeader (formula density : Str) : Str :=
  (chars% "K-path generated by MaterSDK, structure:") ++ formula ++ (chars% ", density:") ++ density ++
    (chars% ", fractional coordinates in reciprocal lattice\n")

/-- `output_gen_kpt`, kpathSampler.py 104-165: the file left when no label is missing. -/
noncomputable def genKptFile (formula densityText : Str) (kpts : KDict) (paths : List (List Str))
    (lat : Matrix (Fin 3) (Fin 3) ℝ) (density : ℝ) (old : Option Str) : Except PyErr Str := do
  let segs ← genKpt kpts paths lat density
  return appendFile (removeFile old)
    (genHeader formula densityText ++ (segs.flatMap segRows).flatten)

/-! ## IN.KPT -/

/-- `Inkpt.get_kpt_weights`, inkpt.py 153-169. -/
def kptWeights (rows : List Str) : Except PyErr (List ℚ) :=
  (rows.drop 2).mapM (fun r => do parseFloat (← pyGet (split r) 3))

/-- One round of the loop of `get_hsp`, inkpt.py 193-197. -/
def hspRow (r : Str) : Except PyErr (Str × List ℚ) := do
  let l ← pyGetI (split r) (-1)
  let x ← parseFloat (← pyGet (split r) 0)
  let y ← parseFloat (← pyGet (split r) 1)
  let z ← parseFloat (← pyGet (split r) 2)
  return (l, [x, y, z])

/-- `Inkpt.get_hsp`, inkpt.py 172-199: labels and coordinates. -/
def getHsp (rows : List Str) : Except PyErr (List Str × List (List ℚ)) := do
  let l ← ((rows.drop 2).filter (fun r => (split r).length = 5)).mapM hspRow
  return (l.map Prod.fst, l.map Prod.snd)

/-- `Inkpt.get_kpt_coords_Bohr`, inkpt.py 131-150. -/
noncomputable def kptCoordsBohr (rows : List Str) (lat : Matrix (Fin 3) (Fin 3) ℝ) :
    Except PyErr (List (Vec ℝ)) := do
  let cs ← kptCoordsA rows lat
  return cs.map (fun v => (529177249 / 1000000000 : ℝ) • v)

/-! ## DOS.input -/

/-- `DosInput.__init__`, dos_input.py 17-28. -/
structure DosInput where
  markAtoms : ℤ
  markMethod : ℤ
  ismear : ℚ
  numEnergies : ℤ
  /-- the texts of `grid_interp` -/
  grid : List Str

/-- `" ".join(l)`. -/
def joinSpace : List Str → Str
  | [] => []
  | [a] => a
  | a :: b :: l => a ++ ' ' :: joinSpace (b :: l)

/-- `DosInput.to`, dos_input.py 31-46: the rows written; the comments in the file are Chinese. -/
def DosInput.rows (d : DosInput) : List Str :=
  [showInt d.markAtoms ++ (chars% "  # 设置为0，则绘制所有原子的DOS；设置为1，则绘制部分原子的DOS，需要在atom.config文件POSITION部分的第8列设置原子权重\n"),
   showInt d.markMethod ++ (chars% "  # 设置为1，绘制DOS时使用插值；设置为0，使用高斯展宽(Gaussian broadening)，不做插值\n"),
   fmtFixed 5 d.ismear ++ (chars% "  ") ++ ljust 10 (showInt d.numEnergies) ++ (chars% " # 做插值的imsearing energy (单位：eV); 能量网格点数，默认为4000\n"),
   joinSpace d.grid ++ (chars% "  # NM1,NM2,NM3 插值的格子密度，每个格子包含在NQ1, NQ2, NQ3中\n"),
   chars% "0  # 只对TDDFT DOS绘制有用"]

/-- The text of DOS.input. -/
def DosInput.text (d : DosInput) : Str := d.rows.flatten

/-! ## gen.vext -/

/-- A `GenVext`, gen_vext.py 19-60, with the texts of the numbers. -/
structure GenVext where
  center : List Str
  vrType : ℤ
  addVr : Bool
  params : List Str

/-- `GenVext.__init__`, gen_vext.py 55-60. -/
def GenVext.make (center : List Str) (vrType : ℤ) (addVr : Bool) (params : List Str) :
    Except PyErr GenVext :=
  if vrType = 1 ∨ vrType = 2 ∨ vrType = 3 then .ok ⟨center, vrType, addVr, params⟩
  else .error .assertionError

/-- `GenVext.to`, gen_vext.py 63-83: the rows written. -/
def GenVext.rows (g : GenVext) : List Str :=
  [(chars% "VR_CENTER = ") ++ joinSpace g.center ++ (chars% "\n"),
   (chars% "VR_TYPE = ") ++ showInt g.vrType ++ (chars% "\n"),
   (chars% "VR_DETAIL = ") ++ joinSpace g.params ++ (chars% "\n"),
   (chars% "ADD_VR = ") ++ (if g.addVr then chars% "T" else chars% "F") ++ (chars% "\n")]

/-! ## REPORT -/

/-- `Report.get_in_atom`, report.py 142-158. -/
def getInAtom (f : RunFiles) : Except PyErr Str := do
  let idx ← pyGet (searchAim f.report (chars% "IN.ATOM")) 0
  pyGetI (split (getline f.cached idx)) (-1)

end MaterSDK
