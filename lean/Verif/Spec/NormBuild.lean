import Verif.Spec.DeepMD

/-! # Specification vocabulary for the statistics of a normaliser -/

namespace MaterSDK

/-- Python's `structures[i]` is `s`: the `i`-th structure, or the `-i`-th from the end for negative `i`. -/
def Picks (structures : List (Struct ℝ)) (i : ℤ) (s : Struct ℝ) : Prop :=
  ∃ k : ℕ, structures[k]? = some s ∧ (i = k ∨ i = (k : ℤ) - structures.length)

/-- The environment row `(s, s x/r, s y/r, s z/r)` of a neighbour at `p` seen from `x`, with the weight
`1/r` up to `rs`, the switch between `rs` and `rcut`, and `1/r` at the cutoff itself (se_pair.py leaves
the weight of a neighbour exactly at the cutoff at `1/r`). -/
noncomputable def listedRow (rcut rs : ℝ) (p x : Vec ℝ) : Fin 4 → ℝ :=
  let r := dist3 p x
  let s := if r < rcut then smoothWeight rcut rs r else 1 / r
  ![s, s * (p 0 - x 0) / r, s * (p 1 - x 1) / r, s * (p 2 - x 2) / r]

/-- A frame and its supercell: a proper cell, no two atoms on the same place, at least one atom. -/
structure GoodFrame (sc : Fin 3 → ℤ) (f : Struct ℝ × Struct ℝ) : Prop where
  det : f.1.lattice.det ≠ 0
  sep : Separated f.1
  ne : f.1.sites ≠ []
  super : f.1.makeSupercell sc true = .ok f.2

/-- The environment rows of all atoms of the element in all frames (each with its supercell): one row
per neighbour of one of the listed elements within the cutoff. -/
noncomputable def sampleRows (rcut rs : ℝ) (frames : List (Struct ℝ × Struct ℝ)) (cz : ℕ)
    (nbrs : List ℕ) : List (Fin 4 → ℝ) :=
  frames.flatMap (fun f => (f.1.sites.filter (fun c => c.z = cz)).flatMap (fun c =>
    nbrs.flatMap (fun nz => (nbrsOf f.2 c.pos rcut nz).map (fun t => listedRow rcut rs t.pos c.pos))))

/-- Number of atoms of the element. -/
def atomCount (s : Struct ℝ) (cz : ℕ) : ℕ := s.sites.countP (fun c => c.z = cz)

/-- Variance of the weights over `n` slots, of which the given rows are filled and the others zero. -/
noncomputable def weightVar (rows : List (Fin 4 → ℝ)) (n : ℕ) : ℝ :=
  (rows.map (fun v => v 0 ^ 2)).sum / n - ((rows.map (fun v => v 0)).sum / n) ^ 2

/-- Mean weight over `n` slots. -/
noncomputable def weightMean (rows : List (Fin 4 → ℝ)) (n : ℕ) : ℝ := (rows.map (fun v => v 0)).sum / n

/-- Mean of the `3 n` angular entries. -/
noncomputable def angleMean (rows : List (Fin 4 → ℝ)) (n : ℕ) : ℝ :=
  (rows.map (fun v => v 1 + v 2 + v 3)).sum / (3 * n)

/-- Variance of the `3 n` angular entries. -/
noncomputable def angleVar (rows : List (Fin 4 → ℝ)) (n : ℕ) : ℝ :=
  (rows.map (fun v => v 1 ^ 2 + v 2 ^ 2 + v 3 ^ 2)).sum / (3 * n) - angleMean rows n ^ 2

/-- What the statistics of `n` slots should be, of which the given rows are filled and the others zero:
the mean weight (the code adds 1e-15 to the number of slots) and no average for the angular entries; the
standard deviation of the weights, and that of all angular entries together, but not less than 1e-2. -/
def IsStats (rows : List (Fin 4 → ℝ)) (n : ℕ) (davg : Fin 4 → ℝ) (dstd : Fin 4 → Option ℝ) : Prop :=
  davg 0 = (rows.map (fun v => v 0)).sum / (n + 1 / 10 ^ 15) ∧
  dstd 0 = some (max (1 / 100) (Real.sqrt (weightVar rows n))) ∧
  ∀ q, q ≠ 0 → davg q = 0 ∧ dstd q = some (max (1 / 100) (Real.sqrt (angleVar rows n)))

end MaterSDK
