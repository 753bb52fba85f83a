import Verif.Model.Dos

/-! # Notions used in the properties on densities of states, fat bands and job scripts -/

namespace MaterSDK

/-- The element symbol of a column name such as `Mo-4D`: the part before the first dash. -/
def symbolOf (name : Str) : Str := name.takeWhile (fun c => c ≠ '-')

/-- The sum of the columns of element `el` in a row of a table whose first `skip` columns do not belong to
elements. -/
def ownSum (skip : ℕ) (cols : List Str) (el : Str) (row : List ℚ) : ℚ :=
  ((((cols.zip row).drop skip).filter (fun cv => symbolOf cv.1 = el)).map Prod.snd).sum

/-- The sum of the columns that do not belong to `el` although their name starts with it. -/
def strangerSum (skip : ℕ) (cols : List Str) (el : Str) (row : List ℚ) : ℚ :=
  ((((cols.zip row).take skip).filter (fun cv => el.isPrefixOf cv.1)).map Prod.snd).sum
  + ((((cols.zip row).drop skip).filter
      (fun cv => el.isPrefixOf cv.1 ∧ symbolOf cv.1 ≠ el)).map Prod.snd).sum

/-- One band of a fat-band file: the row announcing it, the data rows, their numbers, and the blank rows
after them. -/
structure BandText where
  mark : Str
  data : List Str
  vals : List (List ℚ)
  blank : List Str

/-- A fat-band file in the layout of `plot_fatbandstructure.x`: the header, then the bands. -/
def fatText (hdr : Str) (bands : List BandText) : List Str :=
  hdr :: bands.flatMap (fun b => b.mark :: (b.data ++ b.blank))

/-- The band is written in the expected layout with `w` columns and `nk` k-points. -/
structure BandText.Wellformed (b : BandText) (w nk : ℕ) : Prop where
  mark : strIn (chars% "BAND") b.mark = true
  data_no_mark : ∀ r ∈ b.data, strIn (chars% "BAND") (upper r) = false
  blank_no_mark : ∀ r ∈ b.blank, strIn (chars% "BAND") (upper r) = false
  blank : ∀ r ∈ b.blank, split r = []
  reads : List.Forall₂ (fun r vs => List.Forall₂ (fun x v => parseFloat x = .ok v) (split r) vs) b.data b.vals
  width : ∀ vs ∈ b.vals, vs.length = w
  points : b.data.length = nk

/-- The rows of a table with the column `KPOINT` converted. -/
def scaleK (cols : List Str) (row : List ℚ) : List ℚ :=
  (cols.zip row).map (fun cv => if cv.1 = chars% "KPOINT" then cv.2 / (529177249 / 1000000000) else cv.2)

end MaterSDK
