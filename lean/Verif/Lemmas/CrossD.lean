import Verif.Spec.CrossD
import Verif.Lemmas.Cross
import Verif.Lemmas.EnvStructureD
import Verif.Lemmas.DeepMDDRows
import Verif.Props.NeighD

/-! # The Python and the C++ environment matrices in doubles -/

namespace MaterSDK

open Classical

theorem dist3_image (L : Matrix (Fin 3) (Fin 3) ℝ) (p q : Vec ℝ) (n k : Fin 3 → ℤ) :
    dist3 (imagePos L p n) (imagePos L q k) = dist3 (imagePos L p (n - k)) q := by
  have key : imagePos L p n - imagePos L q k = imagePos L p (n - k) - q := by
    unfold imagePos
    simp only [Pi.sub_apply, Int.cast_sub, sub_smul, Finset.sum_sub_distrib]
    abel
  unfold dist3
  congr 1
  refine Finset.sum_congr rfl fun a _ => ?_
  have := congrFun key a
  simp only [Pi.sub_apply] at this
  rw [this]

/-- Atoms whose images are far apart are far apart in the supercell. -/
theorem supercell_far (s S : Struct ℝ) (sc : Fin 3 → ℤ) (m : Fin 3 → ℕ)
    (h : ∀ i, sc i = 2 * (m i : ℤ) + 1) (hS : s.makeSupercell sc true = .ok S) (d : ℝ)
    (hap : FarImages s.lattice (s.sites.map Site.pos) d) :
    S.sites.Pairwise (fun t u => d ≤ dist3 t.pos u.pos) := by
  rw [makeSupercell_odd s m h] at hS
  cases hS
  simp only [if_true, Struct.reformat_]
  have hsymm : Symmetric (fun t u : Site ℝ => d ≤ dist3 t.pos u.pos) := by
    intro t u htu
    rw [dist3_comm]; exact htu
  refine ((sortByKey_perm _ _).pairwise_iff (fun {a b} hab => hsymm hab)).2 ?_
  have key : ∀ (i j : ℕ) (hi : i < s.sites.length) (hj : j < s.sites.length) (n k : Fin 3 → ℤ),
      (i, n) ≠ (j, k) → d ≤ dist3 (imagePos s.lattice s.sites[i].pos n) (imagePos s.lattice s.sites[j].pos k) := by
    intro i j hi hj n k hne
    rw [dist3_image]
    refine hap j i _ _ (n - k) (by simp [List.getElem?_map, List.getElem?_eq_getElem hj])
      (by simp [List.getElem?_map, List.getElem?_eq_getElem hi]) ?_
    intro h0
    rw [Prod.mk.injEq, sub_eq_zero] at h0
    exact hne (Prod.ext h0.1 h0.2)
  unfold superSites
  rw [List.pairwise_flatMap]
  constructor
  · intro n _
    rw [List.pairwise_map, List.pairwise_iff_getElem]
    intro i j hi hj hij
    exact key i j hi hj n n (by simp; omega)
  · refine (shiftsZ_nodup m).imp ?_
    intro n k hnk t ht u hu
    obtain ⟨t', ht', rfl⟩ := List.mem_map.1 ht
    obtain ⟨u', hu', rfl⟩ := List.mem_map.1 hu
    obtain ⟨i, hi, rfl⟩ := List.mem_iff_getElem.1 ht'
    obtain ⟨j, hj, rfl⟩ := List.mem_iff_getElem.1 hu'
    exact key i j hi hj n k (by simp [hnk])

/-- A permutation of images read off from a permutation of positions. -/
theorem perm_lift {α β : Type} (f : α → β) (l : List β) (l' : List α) (h : l.Perm (l'.map f)) :
    ∃ l'' : List α, l''.Perm l' ∧ l = l''.map f := by
  have hF : List.Forall₂ (fun b a => b = f a) (l'.map f) l' := by
    rw [List.forall₂_map_left_iff]
    exact List.forall₂_same.2 fun _ _ => rfl
  obtain ⟨Q, q1, q2⟩ := List.perm_comp_forall₂ h hF
  refine ⟨Q, q2, ?_⟩
  clear hF h q2
  induction q1 with
  | nil => rfl
  | cons hab _ ih => rw [List.map_cons, ← hab, ← ih]

end MaterSDK
