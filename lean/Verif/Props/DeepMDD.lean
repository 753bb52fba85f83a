import Verif.Lemmas.DeepMDDRows
import Verif.Lemmas.EnvMatrixUse
import Verif.Lemmas.DeepMDCalc
import Verif.Spec.NeighD
import Verif.Spec.DeepMD

/-!
# C209: the Python environment matrix and its derivatives in doubles

`M` bounds the coordinates in the supercell, `δ` is the change of a coordinate on its way through the fractional ones
of pymatgen, `ρ` the smallest distance of two atoms of the supercell, and `τ = 2 δ + 400 M 2⁻⁵³`.
-/

namespace MaterSDK

open Classical

/-- C209: neighbour table, environment matrix and derivatives, all in doubles.  If no atom is as close to the cutoff as
the rounding error of its distance, the row of a centre has one entry for each exact neighbour; the four values differ
from `(s, s x/r, s y/r, s z/r)` of the exact positions by at most `32 τ (1/(rcut - rs) + 1/ρ)/ρ`, the twelve derivatives
from the exact ones by at most `256 τ (1/(rcut - rs) + 1/ρ)²/ρ`, and all further entries are zero. -/
theorem C209_env_doubles (keep : Matrix (Fin 3) (Fin 3) ℝ → Vec ℝ → Vec ℝ) (A : ArgSort) (s S : Struct ℝ)
    (hne : s.sites ≠ []) (rcut rs : ℝ) (hr : 0 ≤ rcut) (hrs : rs < rcut)
    (sc : Fin 3 → ℤ) (m : Fin 3 → ℕ) (h : ∀ i, sc i = 2 * (m i : ℤ) + 1) (hm : ∀ i, m i ≤ 2 ^ 52)
    (hS : s.makeSupercell sc true = .ok S) (M δ ρ : ℝ) (hM : CoordsUpTo s m M) (hδ : 0 ≤ δ) (hδM : 2 * δ ≤ M)
    (hk : KeptWithin (keep (superLatticeD flR s.lattice sc)) (2 * M) δ)
    (hρ : 0 < ρ) (hsep : S.sites.Pairwise (fun t u => ρ ≤ dist3 t.pos u.pos))
    (h1 : 64 * (2 * δ + 400 * (M * 2 ^ (-53 : ℤ))) ≤ ρ)
    (h2 : 64 * (2 * δ + 400 * (M * 2 ^ (-53 : ℤ))) ≤ rcut - rs)
    (hgap : ∀ c ∈ s.sites, ∀ t ∈ S.sites, 6 * δ + 126 * (M * 2 ^ (-53 : ℤ)) < |dist3 t.pos c.pos - rcut|)
    (cz nz : ℕ) (hnz : 0 < nz) (width : ℕ)
    (hw : ∀ c ∈ s.sites, c.z = cz → (nbrsOf S c.pos rcut nz).length ≤ width) :
    ∃ (table : List (List NbrEntry)) (rows : List (List (Fin 4 → ℝ) × List (Matrix (Fin 4) (Fin 3) ℝ))),
      neighborTableD flR keep A s rcut sc = .ok table ∧
      getTildeRD flR rcut rs table cz nz width = .ok (rows.map Prod.fst) ∧
      calcDerivativeD flR rcut rs table cz nz width = .ok (rows.map Prod.snd) ∧
      List.Forall₂ (fun (c : Site ℝ) row => row.1.length = width ∧ row.2.length = width ∧
        ∃ ts : List (Site ℝ), ts.Perm (nbrsOf S c.pos rcut nz) ∧
          (∀ (i : ℕ) (t : Site ℝ), ts[i]? = some t →
            (∃ v, row.1[i]? = some v ∧ ∀ a, |v a - envAt rcut rs t.pos c.pos a|
              ≤ 32 * ((2 * δ + 400 * (M * 2 ^ (-53 : ℤ))) * (1 / (rcut - rs) + 1 / ρ) * (1 / ρ))) ∧
            ∃ B D, row.2[i]? = some B ∧
              HasFDerivAt (fun x => envAt rcut rs t.pos x)
                (Matrix.mulVecLin D).toContinuousLinearMap c.pos ∧
              ∀ a b, |B a b - D a b| ≤ 256 * ((2 * δ + 400 * (M * 2 ^ (-53 : ℤ))) * (1 / (rcut - rs) + 1 / ρ) *
                (1 / ρ * (1 / (rcut - rs) + 1 / ρ)))) ∧
          (∀ i, ts.length ≤ i → i < width → row.1[i]? = some 0 ∧ row.2[i]? = some 0))
        (s.reformat_.sites.filter (fun c => c.z = cz)) rows := by
  obtain ⟨table, rows, g1, g2, g3, g4⟩ := pyD_rows keep A s S hne rcut rs hr hrs sc m h hm hS M δ ρ hM hδ hδM hk hρ hsep
    h1 h2 hgap cz nz hnz width hw
  refine ⟨table, rows, g1, g2, g3, g4.imp ?_⟩
  rintro c row ⟨e1, e2, ts, e3, e4, e5⟩
  refine ⟨e1, e2, ts, e3, fun i t hi => ?_, e5⟩
  obtain ⟨f1, f2, B, f3, f4⟩ := e4 i t hi
  have hmem := e3.mem_iff.1 (List.mem_of_getElem? hi)
  unfold nbrsOf at hmem
  have hm := (List.mem_filter.1 hmem).2
  simp only [decide_eq_true_eq] at hm
  refine ⟨f1, B, derivBlock rcut rs (nz, dist3 t.pos c.pos, t.pos - c.pos), f3,
    hasFDerivAt_env rcut rs hrs _ _ nz hm.2.1 f2, fun a b => ?_⟩
  rw [derivBlock_neg rcut rs nz _ _ f2, Matrix.neg_apply, sub_neg_eq_add]
  exact f4 a b

/-- C209, the limit: without the margin at the cutoff no bound holds.  An atom at the origin and one whose coordinates
are doubles and whose distance is below the cutoff 1: the exact value is at most `10⁻⁹`, the computed distance is the
cutoff and the computed value is 1. -/
theorem C209_cutoff_jump : ∃ p : Vec ℝ, (∀ q, flR (p q) = p q) ∧ dist3 p 0 < 1 ∧
    |envAt 1 (1 / 2) p 0 0| ≤ 1 / 10 ^ 9 ∧
    ∀ A : ArgSort, ∃ table row, keyNeighsInfoD flR A [0, p] [8, 14] [0] 1 = .ok table ∧
      getTildeRD flR 1 (1 / 2) table 8 14 1 = .ok [[row]] ∧ row 0 = 1 := by
  refine ⟨jumpPos, jumpPos_double, jump_dist.2.1, jump_weight, fun A => ?_⟩
  obtain ⟨row, h1, h2⟩ := jump_env
  exact ⟨_, row, jump_table A, h1, h2⟩

/-- The hypotheses of C209 hold for that cell with cutoff 2.5, inner radius 1, coordinates up to 32, smallest distance 1,
and a way of keeping coordinates that changes each by `2⁻⁴⁰`. -/
theorem pairCell_doubles : ∃ S, pairCell.makeSupercell ![3, 3, 3] true = .ok S ∧ CoordsUpTo pairCell (fun _ => 1) 32 ∧
    KeptWithin ((fun _ x p => x p + 2 ^ (-40 : ℤ) : Matrix (Fin 3) (Fin 3) ℝ → Vec ℝ → Vec ℝ)
      (superLatticeD flR pairCell.lattice ![3, 3, 3])) (2 * 32) (2 ^ (-40 : ℤ)) ∧
    S.sites.Pairwise (fun t u => (1 : ℝ) ≤ dist3 t.pos u.pos) ∧
    64 * (2 * (2 : ℝ) ^ (-40 : ℤ) + 400 * (32 * 2 ^ (-53 : ℤ))) ≤ 1 ∧
    (∀ c ∈ pairCell.sites, ∀ t ∈ S.sites,
      6 * (2 : ℝ) ^ (-40 : ℤ) + 126 * (32 * 2 ^ (-53 : ℤ)) < |dist3 t.pos c.pos - 5 / 2|) := by
  have hodd : ∀ i : Fin 3, (![3, 3, 3] : Fin 3 → ℤ) i = 2 * (((fun _ => 1 : Fin 3 → ℕ) i : ℕ) : ℤ) + 1 := by
    intro i; fin_cases i <;> rfl
  obtain ⟨h1, h2⟩ := pairCell_sites _ (makeSupercell_odd pairCell (fun _ => 1) hodd true)
  refine ⟨_, makeSupercell_odd pairCell (fun _ => 1) hodd true, ?_, ?_, h1, ?_, ?_⟩
  · intro t ht p
    simp only [pairCell, List.mem_cons, List.not_mem_nil, or_false] at ht
    rcases ht with rfl | rfl
    · fin_cases p <;> simp [pairCell, Fin.sum_univ_three] <;> norm_num
    · fin_cases p <;> simp [pairCell, Fin.sum_univ_three] <;> norm_num
  · intro x _ p
    simp
  · rw [zpow_neg, zpow_neg]
    norm_num
  · intro c hc t ht
    obtain ⟨n, hn, htp⟩ := h2 t ht
    have hcp : ∃ k : ℤ, |k| ≤ 1 ∧ c.pos = ![(k : ℝ), 0, 0] := by
      simp only [pairCell, List.mem_cons, List.not_mem_nil, or_false] at hc
      rcases hc with rfl | rfl
      · refine ⟨0, by norm_num, ?_⟩
        funext i
        fin_cases i <;> simp
      · exact ⟨1, by norm_num, by simp⟩
    obtain ⟨k, hk, hcp⟩ := hcp
    set d := dist3 t.pos c.pos with hd
    have hd0 : 0 ≤ d := Real.sqrt_nonneg _
    have hdsq : d ^ 2 = (((n 0 - k) ^ 2 + n 1 ^ 2 + n 2 ^ 2 : ℤ) : ℝ) := by
      rw [hd, dist3, Real.sq_sqrt (Finset.sum_nonneg fun _ _ => sq_nonneg _), Fin.sum_univ_three, htp, hcp]
      push_cast
      simp
    have hbound : ((n 0 - k) ^ 2 + n 1 ^ 2 + n 2 ^ 2 : ℤ) ≤ 10000 := by
      have a := abs_le.1 (hn 0)
      have b := abs_le.1 (hn 1)
      have c := abs_le.1 (hn 2)
      have e := abs_le.1 hk
      nlinarith
    generalize ((n 0 - k) ^ 2 + n 1 ^ 2 + n 2 ^ 2 : ℤ) = N at hdsq hbound
    have hd1 : d ≤ 100 := by
      have : (N : ℝ) ≤ 10000 := by exact_mod_cast hbound
      nlinarith
    have hsmall : 6 * (2 : ℝ) ^ (-40 : ℤ) + 126 * (32 * 2 ^ (-53 : ℤ)) < 1 / 1000 := by
      rw [zpow_neg, zpow_neg]
      norm_num
    refine hsmall.trans ?_
    rcases le_or_gt N 6 with hN | hN
    · have : (N : ℝ) ≤ 6 := by exact_mod_cast hN
      rw [lt_abs]
      right
      nlinarith
    · have : (7 : ℝ) ≤ N := by exact_mod_cast hN
      rw [lt_abs]
      left
      nlinarith

end MaterSDK
