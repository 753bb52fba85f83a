import Verif.Lemmas.Readers

/-!
# C64: the file reader and the frame-string reader agree
-/

namespace MaterSDK

/-- C64: for a text that starts with a count row, on which both readers find the LATTICE and
POSITION rows with enough rows after them, everything the file reader returns is what the
frame-string reader returns. -/
theorem C64_readers_agree (g : Nat) (w rest : Str) (n : Nat) (hw : CountWord w n) (text : Str)
    (ht : text = blanks g ++ (w ++ ((chars% " atoms") ++ rest)))
    (info : ACInfo) (hi : acExtractor (fileLines text) (fileLines text) = .ok info)
    (l p : Nat) (hl : FirstRow (fileLines text) (chars% "LATTICE") l)
    (hp : FirstRow (fileLines text) (chars% "POSITION") p)
    (hl3 : l + 3 < (fileLines text).length) (hpn : p + n < (fileLines text).length) :
    info.numAtoms = n ∧ ∃ a, acStr text = .ok a ∧ a.numAtoms = n ∧ a.getBasis = .ok info.basis ∧
      a.getTypes = .ok info.types ∧ a.getCoords = .ok info.coords := by
  unfold acExtractor at hi
  rw [bind_eq_ok] at hi
  obtain ⟨n', h1, hi⟩ := hi
  rw [bind_eq_ok] at hi
  obtain ⟨b, h2, hi⟩ := hi
  rw [bind_eq_ok] at hi
  obtain ⟨t, h3, hi⟩ := hi
  rw [bind_eq_ok] at hi
  obtain ⟨c, h4, hi⟩ := hi
  cases hi
  -- the count
  have hcount : n' = (n : Int) := by
    obtain ⟨ls0, lss, hls⟩ : ∃ l0 ls, fileLines ((chars% "atoms") ++ rest) = l0 :: ls := by
      apply List.exists_cons_of_ne_nil
      intro h
      have := fileLines_flatten ((chars% "atoms") ++ rest)
      rw [h] at this; simp at this
    have hsp : fileLines (' ' :: ((chars% "atoms") ++ rest)) = (' ' :: ls0) :: lss :=
      fileLines_append_ne (u := [' ']) (by decide) hls
    have hb : '\n' ∉ blanks g ++ w := by
      rw [List.mem_append, not_or]
      refine ⟨?_, hw.not_mem (by decide)⟩
      intro h
      have := List.eq_of_mem_replicate h
      revert this; decide
    have hfirst : fileLines text = ((blanks g ++ w) ++ ' ' :: ls0) :: lss := by
      rw [ht, ← List.append_assoc]
      exact fileLines_append_ne hb hsp
    unfold acNumAtoms at h1
    rw [hfirst] at h1
    have hsplit : split ((blanks g ++ w) ++ ' ' :: ls0) = w :: split ls0 := by
      rw [List.append_assoc, split_blanks, split_word hw.1 hw.noSpace (by decide)]
    have hg1 : getline ((blanks g ++ w ++ ' ' :: ls0) :: lss) 1 = blanks g ++ w ++ ' ' :: ls0 := rfl
    rw [hg1, hsplit] at h1
    change parseInt w = .ok n' at h1
    rw [parseInt_count hw] at h1
    exact (Except.ok.inj h1).symm
  subst hcount
  have hsearch : searchAtoms text = .ok n := by
    rw [ht, searchAtoms_blanks, searchAtoms_count hw]
  have hL := firstRow_fileLines (by decide) (by decide) hl
  have hP := firstRow_fileLines (by decide) (by decide) hp
  have hblock : List.Forall₂ (fun r b => split r = split b) (((fileLines text).drop (p + 1)).take n)
      (((splitCh '\n' text).drop (p + 1)).take n) := slice_forall₂ text (p + 1) n (by omega)
  refine ⟨rfl, ⟨splitCh '\n' text, n⟩, by unfold acStr; rw [hsearch]; rfl, rfl, ?_, ?_, ?_⟩
  · unfold acBasis at h2
    rw [pyGet_lineLocate_zero.2 ⟨l, rfl, hl⟩, ok_bind] at h2
    rw [← h2]
    unfold ACStr.getBasis
    simp only [pyGet_listLocate_zero.2 hL, ok_bind]
    have hrow : ∀ k, l < k → k ≤ l + 3 →
        (do ((split (← pyGet (splitCh '\n' text) k)).take 3).mapM parseFloat) =
        ((split (getline (fileLines text) (k + 1))).take 3).mapM parseFloat := by
      intro k _ hk
      obtain ⟨bk, hbk, e⟩ := fileLines_splitCh text k _ (List.getElem?_eq_getElem (by omega))
      rw [pyGet_eq_ok.2 hbk, ok_bind]
      have : getline (fileLines text) (k + 1) = (fileLines text)[k]'(by omega) := by
        simp [getline, List.getElem?_eq_getElem (show k < (fileLines text).length by omega)]
      rw [this, split_fileRow e]
    have e1 := hrow (l + 1) (by omega) (by omega)
    have e2 := hrow (l + 2) (by omega) (by omega)
    have e3 := hrow (l + 3) (by omega) (by omega)
    simp only [List.mapM_cons, List.mapM_nil]
    rw [e1, e2, e3]
  · rw [← h3]
    unfold acTypes ACStr.getTypes
    rw [pyGet_lineLocate_zero.2 ⟨p, rfl, hp⟩]
    simp only [pyGet_listLocate_zero.2 hP, ok_bind]
    rw [sliceN_nonneg]
    unfold ACStr.block pySlice
    rw [show p + n + 1 - (p + 1) = n by omega]
    refine (mapM_forall₂_eq hblock ?_).symm
    intro r b hrb
    unfold rowType
    rw [hrb]
  · rw [← h4]
    unfold acCoords ACStr.getCoords
    rw [pyGet_lineLocate_zero.2 ⟨p, rfl, hp⟩]
    simp only [pyGet_listLocate_zero.2 hP, ok_bind]
    rw [sliceN_nonneg]
    unfold ACStr.block pySlice
    simp only
    rw [show p + n + 1 - (p + 1) = n by omega]
    rw [mapM_forall₂_eq hblock (g := rowCoord)]
    intro r b hrb
    unfold rowCoord
    rw [hrb]

/-- Outside these conditions the readers differ: on a text whose position block ends early with a
final newline the file reader returns the rows that exist, the string reader raises. -/
theorem C64_truncated_text_differs :
    (acExtractor (fileLines (chars% "2 atoms\nLattice\n1 0 0\n0 1 0\n0 0 1\nPosition\n14 0 0 0 1 1 1\n"))
      (fileLines (chars% "2 atoms\nLattice\n1 0 0\n0 1 0\n0 0 1\nPosition\n14 0 0 0 1 1 1\n"))).map
        (fun i => i.types) = .ok [14] ∧
    (acStr (chars% "2 atoms\nLattice\n1 0 0\n0 1 0\n0 0 1\nPosition\n14 0 0 0 1 1 1\n")).bind
      (fun a => a.getTypes) = .error .indexError := by
  constructor <;> decide +kernel

/-- A text meeting the hypotheses of `C64_readers_agree`. -/
def sampleBoth : Str :=
  chars% "  2 atoms,Iteration\nLattice vector\n 5.0E+00 0.0 0.0\n0 5.5 0\n0 0 6.25\nPosition (normalized)\n 14  0.25 0.5 0.75  1 1 1\n 8  0.1 -0.2 1e-1 1 1 1\n"
example : sampleBoth = blanks 2 ++ ((chars% "2") ++ ((chars% " atoms") ++ (sampleBoth.drop 9))) := by
  decide +kernel
example : acExtractor (fileLines sampleBoth) (fileLines sampleBoth) =
    .ok ⟨2, [5, 0, 0, 0, 11/2, 0, 0, 0, 25/4], [14, 8], [1/4, 1/2, 3/4, 1/10, -1/5, 1/10]⟩ ∧
    lineLocate (fileLines sampleBoth) (chars% "LATTICE") = [2] ∧
    lineLocate (fileLines sampleBoth) (chars% "POSITION") = [6] ∧ (fileLines sampleBoth).length = 8 := by
  decide +kernel

end MaterSDK
