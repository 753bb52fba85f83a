import Verif.Model.TildeR
import Verif.Spec.EnvMatrix

/-! # Specification vocabulary for `PairTildeR` and `TildeR` -/

namespace MaterSDK

/-- A centre: its element, its position, and element and position of its neighbours in order. -/
structure Centre where
  z : ℤ
  c : Vec ℝ
  nbrs : List (ℤ × Vec ℝ)

/-- The slots of one element around a centre: the neighbours of that element in order, then padding up
to the number of slots.  `e` holds the element and its number of slots. -/
def slotsOf {α : Type} (zero : α) (f : Vec ℝ → α) (nbrs : List (ℤ × Vec ℝ)) (e : ℤ × ℕ) : List α :=
  (nbrs.filter (fun q => decide (q.1 = e.1))).map (fun q => f q.2) ++
    List.replicate (e.2 - nbrs.countP (fun q => decide (q.1 = e.1))) zero

/-- The table of all centres: for every element of `cz` the centres of that element in order, and for
every centre the slots of the elements `nz` one after the other.  `f q c` is the value of a neighbour at
`q` of a centre at `c`. -/
def tildeTable {α : Type} (zero : α) (f : Vec ℝ → Vec ℝ → α) (cz : List ℤ) (nz : List (ℤ × ℕ))
    (sites : List Centre) : List (List α) :=
  cz.flatMap (fun z => (sites.filter (fun s => decide (s.z = z))).map (fun s =>
    nz.flatMap (slotsOf zero (fun q => f q s.c) s.nbrs)))

/-- Around every centre of an element of `cz` there are no more neighbours of an element than slots. -/
def HasSlots (cz : List ℤ) (nz : List (ℤ × ℕ)) (sites : List Centre) : Prop :=
  ∀ s ∈ sites, s.z ∈ cz → ∀ e ∈ nz, s.nbrs.countP (fun q => decide (q.1 = e.1)) ≤ e.2

/-- The arrays describe the centres: `ilist[ii]` is the index of the centre `ii`, `numneigh[ii]` counts
its neighbours, `firstneigh[ii]` starts with their indices, `types` and `x` hold element and position of
every atom. -/
def LmpIn.Describes (p : LmpIn) (sites : List Centre) : Prop :=
  p.inum = (sites.length : ℤ) ∧ ∀ (ii : ℕ) (s : Centre), sites[ii]? = some s →
    ∃ (i : ℕ) (fl : List ℤ), p.ilist[ii]? = some (i : ℤ) ∧ p.types[i]? = some s.z ∧ p.x[i]? = some s.c ∧
      p.numneigh[ii]? = some (s.nbrs.length : ℤ) ∧ p.firstneigh[ii]? = some fl ∧
      ∀ (jj : ℕ) (e : ℤ × Vec ℝ), s.nbrs[jj]? = some e →
        ∃ k : ℕ, fl[jj]? = some (k : ℤ) ∧ p.types[k]? = some e.1 ∧ p.x[k]? = some e.2

/-- Element and position of a periodic image. -/
noncomputable def imageAtom (L : Fin 3 → Vec ℝ) (atoms : List (ℤ × Vec ℝ)) (e : ℕ × (Fin 3 → ℤ)) :
    ℤ × Vec ℝ :=
  match atoms[e.1]? with
  | some a => (a.1, imagePos L a.2 e.2)
  | none => (0, 0)

/-- The atoms of a cell as centres, `I` lists the periodic images around each of them. -/
noncomputable def crystalCentres (L : Fin 3 → Vec ℝ) (atoms : List (ℤ × Vec ℝ))
    (I : List (List (ℕ × (Fin 3 → ℤ)))) : List Centre :=
  (atoms.zip I).map (fun x => ⟨x.1.1, x.1.2, x.2.map (imageAtom L atoms)⟩)

/-- `I` lists for every atom exactly the other periodic images closer than `r`, each once; from near to
far if `sort`. -/
def ListsImages (L : Fin 3 → Vec ℝ) (pbc : Fin 3 → Bool) (atoms : List (ℤ × Vec ℝ)) (r : ℝ) (sort : Bool)
    (I : List (List (ℕ × (Fin 3 → ℤ)))) : Prop :=
  I.length = atoms.length ∧
    ∀ (i : ℕ) (c : ℤ × Vec ℝ), atoms[i]? = some c → ∃ imgs, I[i]? = some imgs ∧ imgs.Nodup ∧
      (∀ e, e ∈ imgs ↔ NearBy L pbc (atoms.map Prod.snd) r c.2 e ∧ e ≠ (i, 0)) ∧
      (sort = true → imgs.Pairwise (fun e e' => dist3 (imageAtom L atoms e).2 c.2
        ≤ dist3 (imageAtom L atoms e').2 c.2))

end MaterSDK
