import Verif.Lemmas.FrameText
import Verif.Props.Trajectory

/-! # C111-C113: number of atoms, atomic energies and virial of one frame -/

namespace MaterSDK

/-! ## C111 -/

/-- C111: when atomic energies are returned they are the second words of the rows after the first
row that contains `Atomic-Energy, `, in the order of the rows; anything else is an `AttributeError`.
Partial: there may be fewer rows than atoms (`C111_truncated_block`). -/
theorem C111_atomic_energies_partial (text : Str) (a : ACStr) (ha : acStr text = .ok a) :
    (∀ es : List ℚ, a.getEatoms = .ok es ↔
      ∃ l, FirstRow (splitCh '\n' text) (chars% "ATOMIC-ENERGY, ") l ∧
        List.Forall₂ (fun (row : Str) (e : ℚ) => ∃ w, (split row)[1]? = some w ∧ parseFloat w = .ok e)
          (nextRows (splitCh '\n' text) l a.numAtoms) es) ∧
    (∀ e, a.getEatoms = .error e → e = .attributeError) := by
  rw [← acStr_strs ha]
  have hbody : ∀ es : List ℚ, a.eatomsBody = .ok es ↔
      ∃ l, FirstRow a.strs (chars% "ATOMIC-ENERGY, ") l ∧
        List.Forall₂ (fun (row : Str) (e : ℚ) => ∃ w, (split row)[1]? = some w ∧ parseFloat w = .ok e)
          (nextRows a.strs l a.numAtoms) es := by
    intro es
    unfold ACStr.eatomsBody
    rw [bind_eq_ok]
    refine exists_congr fun l => ?_
    rw [pyGet_listLocate_zero, mapM_eq_ok, block_eq_nextRows]
    simp only [bind_eq_ok, pyGet_eq_ok]
  constructor
  · intro es
    rw [← hbody]
    unfold ACStr.getEatoms
    cases a.eatomsBody <;> simp
  · intro e he
    unfold ACStr.getEatoms at he
    split at he
    · cases he
    · cases he; rfl

/-- C111, complete block: with a row for every atom there is one energy per atom. -/
theorem C111_one_per_atom_partial (text : Str) (a : ACStr) (ha : acStr text = .ok a) (es : List ℚ)
    (h : a.getEatoms = .ok es) (l : Nat)
    (hl : FirstRow (splitCh '\n' text) (chars% "ATOMIC-ENERGY, ") l)
    (hrows : l + a.numAtoms < (splitCh '\n' text).length) : es.length = a.numAtoms := by
  obtain ⟨l', hl', hf⟩ := ((C111_atomic_energies_partial text a ha).1 es).1 h
  obtain rfl := firstRow_unique hl hl'
  rw [← hf.length_eq]
  unfold nextRows
  simp
  omega

def textEnergies : Str :=
  chars% "2 atoms, Iteration\nForce\n14 1 2 3\n15 4 5 6\nAtomic-Energy, Etot(eV)\n14 -1.5 7 8\n15 2.25 9 9\n"
def textTruncated : Str := chars% "2 atoms\nAtomic-Energy, Etot(eV)\n14 -1.5"

/-- C111 fails for a text that ends inside the block: one energy for two atoms, no error. -/
theorem C111_truncated_block :
    (acStr textTruncated).map (·.numAtoms) = .ok 2 ∧
    (acStr textTruncated).bind (·.getEatoms) = .ok [-3/2] := by
  constructor <;> decide +kernel

example : (acStr textEnergies).bind (·.getEatoms) = .ok [-3/2, 9/4] := by decide +kernel
example : (acStr (chars% "2 atoms\nForce\n")).bind (·.getEatoms) = .error .attributeError := by
  decide +kernel
/-- `C111_one_per_atom_partial` applies: the row is number 4 of 8. -/
example : FirstRow (splitCh '\n' textEnergies) (chars% "ATOMIC-ENERGY, ") 4 :=
  pyGet_listLocate_zero.1 (by decide +kernel)

/-! ## C112 -/

/-- One row of the virial: it has a word that contains STRESS and its last three words are the
numbers `v`. -/
def VirialRow (row : Str) (v : List ℚ) : Prop :=
  (∃ w ∈ split row, (chars% "STRESS") <:+: w.map Char.toUpper) ∧
  3 ≤ (split row).length ∧ ReadsAs ((split row).drop ((split row).length - 3)) v

/-- C112: the virial is returned exactly when the three rows after the first row that contains
LATTICE all carry the word STRESS and end in three numbers; it is these nine numbers, row by row. -/
theorem C112_virial (text : Str) (a : ACStr) (ha : acStr text = .ok a) (v : List ℚ) :
    a.getVirial = .ok v ↔
      ∃ l r1 r2 r3 x y z, FirstRow (splitCh '\n' text) (chars% "LATTICE") l ∧
        (splitCh '\n' text)[l + 1]? = some r1 ∧ (splitCh '\n' text)[l + 2]? = some r2 ∧
        (splitCh '\n' text)[l + 3]? = some r3 ∧
        VirialRow r1 x ∧ VirialRow r2 y ∧ VirialRow r3 z ∧ v = x ++ (y ++ z) := by
  rw [← acStr_strs ha]
  have hlen : ∀ (row : Str) (x : List ℚ), ReadsAs (pyLastN (split row) 3) x →
      (x.length = 3 ↔ 3 ≤ (split row).length) := by
    intro row x hx
    rw [← hx.length_eq]
    unfold pyLastN
    simp
    omega
  unfold ACStr.getVirial
  rw [bind_eq_ok]
  simp only [pyGet_listLocate_zero]
  constructor
  · rintro ⟨l, hl, h⟩
    rw [bind_eq_ok] at h
    obtain ⟨us, hc, h⟩ := h
    rw [bind_eq_ok] at h
    obtain ⟨ls, hv, h⟩ := h
    cases h
    rw [mapM_eq_ok] at hc hv
    obtain _ | ⟨c1, _ | ⟨c2, _ | ⟨c3, _⟩⟩⟩ := hc
    obtain _ | @⟨_, x, _, _, v1, _ | @⟨_, y, _, _, v2, _ | @⟨_, z, _, _, v3, hnil⟩⟩⟩ := hv
    cases hnil
    obtain ⟨r1, e1, s1⟩ := checkStress_eq_ok.1 c1
    obtain ⟨r2, e2, s2⟩ := checkStress_eq_ok.1 c2
    obtain ⟨r3, e3, s3⟩ := checkStress_eq_ok.1 c3
    obtain ⟨r1', e1', l1, q1⟩ := virialRow_eq_ok.1 v1
    obtain ⟨r2', e2', l2, q2⟩ := virialRow_eq_ok.1 v2
    obtain ⟨r3', e3', l3, q3⟩ := virialRow_eq_ok.1 v3
    rw [e1] at e1'; rw [e2] at e2'; rw [e3] at e3'
    cases e1'; cases e2'; cases e3'
    exact ⟨l, r1, r2, r3, x, y, z, hl, e1, e2, e3, ⟨s1, (hlen _ _ q1).1 l1, q1⟩,
      ⟨s2, (hlen _ _ q2).1 l2, q2⟩, ⟨s3, (hlen _ _ q3).1 l3, q3⟩, by simp⟩
  · rintro ⟨l, r1, r2, r3, x, y, z, hl, e1, e2, e3, ⟨s1, l1, q1⟩, ⟨s2, l2, q2⟩, ⟨s3, l3, q3⟩, rfl⟩
    refine ⟨l, hl, ?_⟩
    have c1 := (checkStress_eq_ok (u := ())).2 ⟨r1, e1, s1⟩
    have c2 := (checkStress_eq_ok (u := ())).2 ⟨r2, e2, s2⟩
    have c3 := (checkStress_eq_ok (u := ())).2 ⟨r3, e3, s3⟩
    have v1 := virialRow_eq_ok.2 ⟨r1, e1, (hlen _ _ q1).2 l1, q1⟩
    have v2 := virialRow_eq_ok.2 ⟨r2, e2, (hlen _ _ q2).2 l2, q2⟩
    have v3 := virialRow_eq_ok.2 ⟨r3, e3, (hlen _ _ q3).2 l3, q3⟩
    rw [mapM_eq_ok.2 (.cons c1 (.cons c2 (.cons c3 .nil))), ok_bind,
      mapM_eq_ok.2 (.cons v1 (.cons v2 (.cons v3 .nil))), ok_bind]
    simp [pure, Except.pure]

/-- C112, no stress in one of the three rows: an error, never a virial. -/
theorem C112_no_stress (text : Str) (a : ACStr) (ha : acStr text = .ok a) (l k : Nat) (row : Str)
    (hl : FirstRow (splitCh '\n' text) (chars% "LATTICE") l) (hk : 1 ≤ k) (hk3 : k ≤ 3)
    (hr : (splitCh '\n' text)[l + k]? = some row)
    (hs : ∀ w ∈ split row, ¬ (chars% "STRESS") <:+: w.map Char.toUpper) :
    ∃ e, a.getVirial = .error e := by
  cases h : a.getVirial with
  | error e => exact ⟨e, rfl⟩
  | ok v =>
    exfalso
    obtain ⟨l', r1, r2, r3, x, y, z, hl', e1, e2, e3, ⟨s1, _⟩, ⟨s2, _⟩, ⟨s3, _⟩, _⟩ :=
      (C112_virial text a ha v).1 h
    obtain rfl := firstRow_unique hl hl'
    have : k = 1 ∨ k = 2 ∨ k = 3 := by omega
    rcases this with rfl | rfl | rfl
    · rw [e1] at hr; cases hr; obtain ⟨w, hw, hh⟩ := s1; exact hs w hw hh
    · rw [e2] at hr; cases hr; obtain ⟨w, hw, hh⟩ := s2; exact hs w hw hh
    · rw [e3] at hr; cases hr; obtain ⟨w, hw, hh⟩ := s3; exact hs w hw hh

example : (acStr frameStress).bind (·.getVirial) = .ok [1, 2, 3, 4, 5, 6, 7, 8, 9] := by
  decide +kernel
example : (acStr frameNoStress).bind (·.getVirial) = .error .attributeError := by decide +kernel

/-! ## C113 -/

/-- C113: the extractor is built exactly when the text announces a number of atoms; the number is
the first one that is directly followed by ` atoms`, in any case. -/
theorem C113_number_of_atoms (text : Str) :
    (∀ a : ACStr, acStr text = .ok a ↔ a.strs = splitCh '\n' text ∧
      ∃ ds, FirstAtomsPhrase text ds ∧ CountWord ds a.numAtoms) ∧
    (∀ e, acStr text = .error e ↔ e = .attributeError ∧ NoAtomsPhrase text) := by
  have hcw : ∀ (ds : Str) (n : Nat), FirstAtomsPhrase text ds → (CountWord ds n ↔ n = natOfDigits ds) := by
    rintro ds n ⟨pre, r, _, ⟨h1, h2, _⟩, _⟩
    unfold CountWord
    exact ⟨fun h => h.2.2.symm, fun h => ⟨h1, h2, h.symm⟩⟩
  constructor
  · intro a
    unfold acStr
    rw [bind_eq_ok]
    constructor
    · rintro ⟨n, hn, h⟩
      cases h
      obtain ⟨ds, hf, rfl⟩ := searchAtoms_eq_ok.1 hn
      exact ⟨rfl, ds, hf, (hcw _ _ hf).2 rfl⟩
    · rintro ⟨hs, ds, hf, hc⟩
      refine ⟨a.numAtoms, searchAtoms_eq_ok.2 ⟨ds, hf, (hcw _ _ hf).1 hc⟩, ?_⟩
      rw [← hs]; rfl
  · intro e
    unfold acStr
    rw [← searchAtoms_eq_error]
    cases searchAtoms text with
    | ok n => simp [ok_bind, pure, Except.pure]
    | error e' => simp [error_bind]

/-- The number 3 is not followed by the word, 12 is; case does not matter. -/
example : (acStr (chars% "3 frames, 12 ATOMS, 5 atoms\nx")).map (·.numAtoms) = .ok 12 := by
  decide +kernel
example : acStr (chars% "12  atoms") = .error .attributeError := by decide +kernel

end MaterSDK
