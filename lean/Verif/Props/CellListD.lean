import Verif.Lemmas.CellListDAux

/-! # C++ neighbour list in doubles: properties C185 and C186 -/

namespace MaterSDK

open Classical Matrix

/-! ## C185 -/

/-- C185 fails: in the periodic cubic cell of edge 1 with cutoff 1, an atom whose third coordinate is the
largest double below 1 lies inside the cell, and building the list writes outside the array of bins. -/
theorem C185_violated (A : ArgSort) (sort : Bool) :
    InCell (cube 1) ![0, 0, belowOne] ∧ (∀ p, flR ((![0, 0, belowOne] : Vec ℝ) p) = ![0, 0, belowOne] p) ∧
    NbrLists.makeD flR A (CStruct.makeD flR (cube 1) [(1, ![0, 0, belowOne])] true) 1 (fun _ => true) sort
      = .error .outOfBounds := by
  refine ⟨⟨![0, 0, belowOne], ?_, ?_⟩, ?_, belowOne_oob A sort⟩
  · intro i
    fin_cases i
    · simp
    · simp
    · constructor
      · simp [belowOne]; norm_num
      · simp [belowOne]
  · unfold cartOf
    funext p
    fin_cases p <;> simp [Fin.sum_univ_three, cube]
  · intro p
    fin_cases p <;> simp [flR_zero, flR_belowOne]

/-- C185 for atoms that keep off the upper faces by the tolerance (`CellOkD`), for bins of any positive
size: the list is built, and every atom of the supercell is filed into a bin that exists.
Missing: atoms nearer to the upper faces, on which the code fails (`C185_violated`). -/
theorem C185_bins_in_range_partial (L : Fin 3 → Vec ℝ) (atoms : List (ℤ × Vec ℝ)) (pbc : Fin 3 → Bool)
    (rcut w : ℝ) (hok : CellOkD L atoms pbc rcut) (hw : 0 < w) :
    ∃ B, BinList.makeD flR (CStruct.makeD flR L atoms true) rcut (fun _ => w) pbc = .ok B ∧
      B.heads.length = (B.numBin 0 * B.numBin 1 * B.numBin 2).toNat ∧
      ∀ a ∈ B.supercell.struct.atoms, ∀ p, 0 ≤ binIdxD flR B.minLimit B.binSize a.2 p ∧
        binIdxD flR B.minLimit B.binSize a.2 p < B.numBin p := by
  obtain ⟨B, h1, h2, _⟩ := makeD_bins L atoms pbc rcut hok w hw
  exact ⟨B, h1, h2.heads, h2.inside⟩

example := C185_bins_in_range_partial exL exAtoms ![true, true, false] 3 (3 / 2)
  (exL_okD _ (Or.inr rfl)) (by norm_num)

/-! ## C186 -/

/-- C186: in doubles `find_info4mlff` lists, for every atom, each periodic image nearer than the cutoff by
the tolerance exactly once and no image farther than the cutoff by the tolerance; the relative coordinates
are accurate to the tolerance, and sorted lists are ordered up to the tolerance. -/
theorem C186_find_info_double (A : ArgSort) (L : Fin 3 → Vec ℝ) (atoms : List (ℤ × Vec ℝ)) (rcut : ℝ)
    (pbc : Fin 3 → Bool) (sort : Bool) (hok : CellOkD L atoms pbc rcut) (hrc : flR rcut = rcut)
    (hdbl : ∀ a ∈ atoms, ∀ p, flR (a.2 p) = a.2 p) (hap : FarImages L (atoms.map Prod.snd) (1 / 20)) :
    ∃ N, NbrLists.makeD flR A (CStruct.makeD flR L atoms true) rcut pbc sort = .ok N ∧
      ∀ umax : ℕ, N.maxNum ≤ umax → ∃ info, N.findInfoD flR umax = .ok info ∧
        info.inum = atoms.length ∧ info.ilist = (List.range atoms.length).map (fun i : ℕ => (i : ℤ)) ∧
        info.types = atoms.map Prod.fst ∧
        ∀ (i : ℕ) (c : ℤ × Vec ℝ), atoms[i]? = some c → ∃ imgs : List (ℕ × (Fin 3 → ℤ)), imgs.Nodup ∧
          (∀ e ∈ imgs, NearBy L pbc (atoms.map Prod.snd) (rcut + nbrTol L rcut) c.2 e ∧ e ≠ (i, 0)) ∧
          (∀ e, NearBy L pbc (atoms.map Prod.snd) (rcut - nbrTol L rcut) c.2 e → e ≠ (i, 0) → e ∈ imgs) ∧
          info.numneigh[i]? = some imgs.length ∧ imgs.length ≤ umax ∧
          (sort = true → imgs.Pairwise (fun e e' => ∀ p p', (atoms.map Prod.snd)[e.1]? = some p →
            (atoms.map Prod.snd)[e'.1]? = some p' →
            dist3 (imagePos L p e.2) c.2 ≤ dist3 (imagePos L p' e'.2) c.2 + nbrTol L rcut)) ∧
          flatRow info.firstneigh umax i =
            imgs.map (fun e => (e.1 : ℤ)) ++ List.replicate (umax - imgs.length) (-1) ∧
          ∃ v : ℕ × (Fin 3 → ℤ) → Vec ℝ,
            (∀ e ∈ imgs, ∀ x, (atoms.map Prod.snd)[e.1]? = some x → ∀ p,
              |v e p - (imagePos L x e.2 p - c.2 p)| ≤ nbrTol L rcut) ∧
            flatRow info.rel (umax * 3) i =
              imgs.flatMap (fun e => [v e 0, v e 1, v e 2]) ++
                List.replicate ((umax - imgs.length) * 3) 0 :=
  nbr_double L atoms pbc rcut hok A sort hrc hdbl hap

example (A : ArgSort) := C186_find_info_double A exL exAtoms 3 ![true, true, false] true
  (exL_okD _ (Or.inr rfl)) flR_three exAtoms_double exL_farD

/-- The tolerance of the example: `10⁻¹¹`. -/
example : nbrTol exL 3 ≤ 1 / 10 ^ 11 := exL_tol.2

end MaterSDK
