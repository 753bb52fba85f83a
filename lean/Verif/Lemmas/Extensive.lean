import Verif.Lemmas.Crystal
import Verif.Lemmas.Cross

/-! # Supercells of supercells -/

namespace MaterSDK

/-- Half the product of two odd factors, from their halves. -/
def halfProd (k m : Fin 3 → ℕ) : Fin 3 → ℕ := fun i => (2 * k i + 1) * m i + k i

theorem halfProd_odd {k m : Fin 3 → ℕ} {sc sc' : Fin 3 → ℤ} (h : ∀ i, sc i = 2 * (k i : ℤ) + 1)
    (h' : ∀ i, sc' i = 2 * (m i : ℤ) + 1) (i : Fin 3) :
    sc i * sc' i = 2 * (halfProd k m i : ℤ) + 1 := by
  rw [h, h']
  unfold halfProd
  push_cast
  ring

/-- Every shift of the large supercell is a shift of the small cell and one of the intermediate cell. -/
theorem shiftsZ_twice (k m : Fin 3 → ℕ) :
    ((shiftsZ m).flatMap (fun n' => (shiftsZ k).map (fun n i => n i + (2 * (k i : ℤ) + 1) * n' i))).Perm
      (shiftsZ (halfProd k m)) := by
  have key : ∀ (a b k x y : ℤ), |a| ≤ k → |b| ≤ k → a + (2 * k + 1) * x = b + (2 * k + 1) * y →
      a = b ∧ x = y := by
    intro a b k x y ha hb he
    rw [abs_le] at ha hb
    have hxy : x = y := by
      rcases lt_trichotomy x y with h | h | h
      · nlinarith
      · exact h
      · nlinarith
    subst hxy
    exact ⟨by linarith, rfl⟩
  rw [List.perm_ext_iff_of_nodup _ (shiftsZ_nodup _)]
  · intro t
    simp only [List.mem_flatMap, List.mem_map, mem_shiftsZ]
    constructor
    · rintro ⟨n', hn', n, hn, rfl⟩ i
      have h1 := abs_le.1 (hn' i)
      have h2 := abs_le.1 (hn i)
      unfold halfProd
      push_cast
      rw [abs_le]
      constructor <;> nlinarith
    · intro ht
      have hpos : ∀ i, (0 : ℤ) < 2 * (k i : ℤ) + 1 := fun i => by positivity
      refine ⟨fun i => (t i + k i) / (2 * (k i : ℤ) + 1), ?_,
        fun i => (t i + k i) % (2 * (k i : ℤ) + 1) - k i, ?_, ?_⟩
      · intro i
        have h1 := abs_le.1 (ht i)
        unfold halfProd at h1
        push_cast at h1
        rw [abs_le]
        constructor
        · rw [Int.le_ediv_iff_mul_le (hpos i)]
          nlinarith
        · have : (t i + k i) / (2 * (k i : ℤ) + 1) < m i + 1 := by
            rw [Int.ediv_lt_iff_lt_mul (hpos i)]
            nlinarith
          show (t i + k i) / (2 * (k i : ℤ) + 1) ≤ m i
          omega
      · intro i
        have h1 := Int.emod_nonneg (t i + k i) (hpos i).ne'
        have h2 := Int.emod_lt_of_pos (t i + k i) (hpos i)
        show |(t i + k i) % (2 * (k i : ℤ) + 1) - k i| ≤ k i
        rw [abs_le]
        constructor <;> omega
      · funext i
        have := Int.emod_add_mul_ediv (t i + k i) (2 * (k i : ℤ) + 1)
        linarith
  · rw [List.nodup_flatMap]
    constructor
    · intro n' _
      refine (shiftsZ_nodup k).map ?_
      intro a b hab
      funext i
      have := congrFun hab i
      simpa using this
    · refine List.Pairwise.imp_of_mem ?_ (shiftsZ_nodup m)
      intro a b _ _ hab
      simp only [Function.onFun]
      rw [List.disjoint_iff_ne]
      intro x hx y hy hxy
      obtain ⟨n, hn, rfl⟩ := List.mem_map.1 hx
      obtain ⟨n', hn', rfl⟩ := List.mem_map.1 hy
      rw [mem_shiftsZ] at hn hn'
      apply hab
      funext i
      exact (key _ _ _ _ _ (hn i) (hn' i) (congrFun hxy i)).2

section
variable {K : Type} [Field K]

theorem diagonal_lattice (sc : Fin 3 → ℤ) (L : Matrix (Fin 3) (Fin 3) K) (i : Fin 3) :
    (Matrix.diagonal (fun i => (sc i : K)) * L) i = (sc i : K) • L i := by
  funext j
  simp [Matrix.diagonal_mul]

/-- The sites of a supercell of a supercell. -/
theorem superSites_twice (s T : Struct K) (k m : Fin 3 → ℕ) (sc : Fin 3 → ℤ)
    (h : ∀ i, sc i = 2 * (k i : ℤ) + 1) (hlat : T.lattice = Matrix.diagonal (fun i => (sc i : K)) * s.lattice)
    (hT : T.sites.Perm (superSites s k)) : (superSites T m).Perm (superSites s (halfProd k m)) := by
  unfold superSites
  refine List.Perm.trans (List.Perm.flatMap_left _ (fun n' _ => hT.map _)) ?_
  refine List.Perm.trans ?_ ((shiftsZ_twice k m).flatMap_right _)
  rw [List.flatMap_assoc]
  refine List.Perm.of_eq (List.flatMap_congr fun n' _ => ?_)
  unfold superSites
  rw [List.map_flatMap, List.flatMap_map]
  refine List.flatMap_congr fun n _ => ?_
  rw [List.map_map]
  refine List.map_congr_left fun u _ => ?_
  simp only [Function.comp, Site.mk.injEq, true_and, and_true]
  rw [add_assoc, ← Finset.sum_add_distrib, hlat]
  congr 1
  refine Finset.sum_congr rfl fun i _ => ?_
  rw [diagonal_lattice, smul_smul, ← add_smul, h i]
  congr 1
  push_cast
  ring

/-- What an odd supercell is, whether or not it is sorted. -/
theorem supercell_sites [CharZero K] [DecidableEq K] (s S : Struct K) (m : Fin 3 → ℕ) (sc : Fin 3 → ℤ)
    (h : ∀ i, sc i = 2 * (m i : ℤ) + 1) (r : Bool) (hS : s.makeSupercell sc r = .ok S) :
    S.lattice = Matrix.diagonal (fun i => (sc i : K)) * s.lattice ∧ S.sites.Perm (superSites s m) := by
  rw [makeSupercell_odd s m h] at hS
  cases hS
  cases r
  · exact ⟨rfl, List.Perm.refl _⟩
  · exact ⟨rfl, sortByKey_perm _ _⟩

end

/-! ## Environments -/

/-- A supercell describes the crystal of its cell. -/
theorem crystal_super (s T : Struct ℝ) (k : Fin 3 → ℕ) (sc : Fin 3 → ℤ) (h : ∀ i, sc i = 2 * (k i : ℤ) + 1)
    (hlat : T.lattice = Matrix.diagonal (fun i => (sc i : ℝ)) * s.lattice)
    (hT : T.sites.Perm (superSites s k)) : crystal s = crystal T := by
  have hsum : ∀ n : Fin 3 → ℤ, ∑ i, (n i : ℝ) • T.lattice i = ∑ i, ((n i * sc i : ℤ) : ℝ) • s.lattice i := by
    intro n
    refine Finset.sum_congr rfl fun i _ => ?_
    rw [hlat, diagonal_lattice, smul_smul]
    push_cast
    rfl
  ext x
  constructor
  · rintro ⟨t, ht, n, rfl⟩
    have hpos : ∀ i, (0 : ℤ) < 2 * (k i : ℤ) + 1 := fun i => by positivity
    refine ⟨⟨t.z, t.pos + ∑ i, (((n i + k i) % (2 * (k i : ℤ) + 1) - k i : ℤ) : ℝ) • s.lattice i, none⟩, ?_,
      fun i => (n i + k i) / (2 * (k i : ℤ) + 1), ?_⟩
    · rw [hT.mem_iff]
      unfold superSites
      rw [List.mem_flatMap]
      refine ⟨fun i => (n i + k i) % (2 * (k i : ℤ) + 1) - k i, ?_, List.mem_map.2 ⟨t, ht, rfl⟩⟩
      rw [mem_shiftsZ]
      intro i
      have h1 := Int.emod_nonneg (n i + k i) (hpos i).ne'
      have h2 := Int.emod_lt_of_pos (n i + k i) (hpos i)
      show |(n i + k i) % (2 * (k i : ℤ) + 1) - k i| ≤ k i
      rw [abs_le]
      constructor <;> omega
    · simp only [hsum]
      rw [Prod.mk.injEq, add_assoc, ← Finset.sum_add_distrib]
      refine ⟨rfl, ?_⟩
      congr 1
      refine Finset.sum_congr rfl fun i _ => ?_
      rw [← add_smul, ← Int.cast_add, h i]
      congr 2
      have := Int.emod_add_mul_ediv (n i + k i) (2 * (k i : ℤ) + 1)
      linarith
  · rintro ⟨t, ht, n, rfl⟩
    rw [hT.mem_iff] at ht
    unfold superSites at ht
    obtain ⟨n', _, ht⟩ := List.mem_flatMap.1 ht
    obtain ⟨u, hu, rfl⟩ := List.mem_map.1 ht
    refine ⟨u, hu, fun i => n' i + n i * sc i, ?_⟩
    rw [hsum]
    simp only [add_assoc, ← Finset.sum_add_distrib, ← add_smul]
    push_cast
    rfl

/-- Lattice planes of a supercell. -/
theorem planeDist_super (sc : Fin 3 → ℤ) (L : Matrix (Fin 3) (Fin 3) ℝ) (i : Fin 3) (h : ∀ i, (0 : ℝ) < sc i) :
    planeDist (Matrix.diagonal (fun i => (sc i : ℝ)) * L) i = sc i * planeDist L i := by
  unfold planeDist
  rw [diagonal_lattice, diagonal_lattice, Matrix.det_mul, Matrix.det_diagonal, LinearMap.map_smul₂, map_smul,
    smul_smul, abs_mul]
  have hd : ∀ (a : ℝ) (v : Vec ℝ), 0 < a → dist3 (a • v) 0 = a * dist3 v 0 := by
    intro a v ha
    unfold dist3
    rw [← Real.sqrt_sq ha.le, ← Real.sqrt_mul (sq_nonneg _), Real.sqrt_sq ha.le, Finset.mul_sum]
    congr 1
    refine Finset.sum_congr rfl fun i _ => ?_
    simp only [Pi.smul_apply, Pi.zero_apply, sub_zero, smul_eq_mul]
    ring
  rw [hd _ _ (mul_pos (h _) (h _)), abs_of_pos (Finset.prod_pos fun i _ => h i), Fin.prod_univ_three]
  have h0 := h 0
  have h1 := h 1
  have h2 := h 2
  have e : (sc 0 : ℝ) * sc 1 * sc 2 = sc i * (sc (i + 1) * sc (i + 2)) := by
    fin_cases i
    · show (sc 0 : ℝ) * sc 1 * sc 2 = sc 0 * (sc 1 * sc 2)
      ring
    · show (sc 0 : ℝ) * sc 1 * sc 2 = sc 1 * (sc 2 * sc 0)
      ring
    · show (sc 0 : ℝ) * sc 1 * sc 2 = sc 2 * (sc 0 * sc 1)
      ring
  rw [e, mul_div_assoc, mul_assoc, mul_assoc, ← mul_div_assoc, ← mul_div_assoc, ← mul_assoc (sc (i + 1) : ℝ),
    mul_div_mul_left _ _ (mul_pos (h _) (h _)).ne']

open Classical

/-- Weight row and derivative block of all neighbours, given by relative positions, with padding. -/
noncomputable def relEnv (rcut rs : ℝ) (nz width : ℕ) (l : List (Vec ℝ)) :
    Multiset ((Fin 4 → ℝ) × Matrix (Fin 4) (Fin 3) ℝ) :=
  Multiset.ofList (l.map (fun q => (envRow rcut rs (nz, dist3 q 0, q), derivBlock rcut rs (nz, dist3 q 0, q)))
    ++ List.replicate (width - l.length) (0, 0))

theorem relEnv_perm {rcut rs : ℝ} {nz width : ℕ} {l l' : List (Vec ℝ)} (h : l.Perm l') :
    relEnv rcut rs nz width l = relEnv rcut rs nz width l' := by
  unfold relEnv
  rw [Multiset.coe_eq_coe, h.length_eq]
  exact (h.map _).append_right _

theorem relNbrs_perm_of_nodup (s S s' S' : Struct ℝ) (hL : s.lattice.det ≠ 0) (hL' : s'.lattice.det ≠ 0)
    (sc sc' : Fin 3 → ℤ) (m m' : Fin 3 → ℕ)
    (h : ∀ i, sc i = 2 * (m i : ℤ) + 1) (h' : ∀ i, sc' i = 2 * (m' i : ℤ) + 1)
    (hS : s.makeSupercell sc true = .ok S) (hS' : s'.makeSupercell sc' true = .ok S')
    (hn : (S.sites.map Site.pos).Nodup) (hn' : (S'.sites.map Site.pos).Nodup) (r : ℝ)
    (hr : Reaches s m r) (hr' : Reaches s' m' r) (hcr : crystal s = crystal s') (c c' : Site ℝ)
    (hc : c ∈ s.sites) (hc' : c' ∈ s'.sites) (k : Fin 3 → ℤ)
    (hk : c'.pos = c.pos + ∑ i, (k i : ℝ) • s.lattice i) (e : ℕ) :
    (relNbrs S c.pos r e).Perm (relNbrs S' c'.pos r e) := by
  have key : ∀ (S : Struct ℝ) (p : Vec ℝ), (S.sites.map Site.pos).Nodup → (relNbrs S p r e).Nodup := by
    intro S p hn
    have h2 : ((nbrsOf S p r e).map Site.pos).Nodup := hn.sublist (List.filter_sublist.map _)
    have h3 : relNbrs S p r e = ((nbrsOf S p r e).map Site.pos).map (fun q => q - p) := by
      unfold relNbrs; rw [List.map_map]; rfl
    rw [h3]
    exact h2.map (fun a b hab => sub_left_injective hab)
  rw [List.perm_ext_iff_of_nodup (key S _ hn) (key S' _ hn')]
  intro q
  rw [relNbrs_mem s S hL sc m h hS r hr c hc, relNbrs_mem s' S' hL' sc' m' h' hS' r hr' c' hc', ← hcr, hk,
    add_right_comm, crystal_shift]

/-- The features of a structure, centre by centre, as multisets. -/
theorem env_multiset (A : ArgSort) (s S : Struct ℝ)
    (hne : s.sites ≠ []) (rcut rs : ℝ) (hr : 0 ≤ rcut) (hrs : rs < rcut) (sc : Fin 3 → ℤ)
    (m : Fin 3 → ℕ) (h : ∀ i, sc i = 2 * (m i : ℤ) + 1) (hS : s.makeSupercell sc true = .ok S)
    (hnod : (S.sites.map Site.pos).Nodup) (cz nz : ℕ) (hnz : 0 < nz) (width : ℕ)
    (hw : ∀ c ∈ s.sites, c.z = cz → (nbrsOf S c.pos rcut nz).length ≤ width)
    (table : List (List NbrEntry)) (hT : neighborTable A s rcut sc = .ok table) :
    ∃ (rows : List (List (Fin 4 → ℝ) × List (Matrix (Fin 4) (Fin 3) ℝ))),
      getTildeR rcut rs table cz nz width = .ok (rows.map Prod.fst) ∧
      calcDerivative rcut rs table cz nz width = .ok (rows.map Prod.snd) ∧
      (∀ row ∈ rows, row.1.length = width ∧ row.2.length = width) ∧
      Multiset.ofList (rows.map (fun row => Multiset.ofList (row.1.zip row.2))) =
        Multiset.ofList ((s.sites.filter (fun c => c.z = cz)).map
          (fun c => relEnv rcut rs nz width (relNbrs S c.pos rcut nz))) := by
  obtain ⟨rows, r1, r2, r3⟩ := py_rows_nodup A s S hne rcut rs hr hrs sc m h hS hnod cz nz hnz width hw table hT
  have hp : (s.reformat_.sites.filter (fun c => decide (c.z = cz))).Perm
      (s.sites.filter (fun c => decide (c.z = cz))) := (sortByKey_perm _ _).filter _
  refine ⟨rows, r1, r2, ?_, ?_⟩
  · intro row hrow
    obtain ⟨i, hi, rfl⟩ := List.mem_iff_getElem.1 hrow
    have := r3.get (by rw [r3.length_eq]; exact hi) hi
    exact ⟨this.1, this.2.1⟩
  · rw [Multiset.coe_eq_coe]
    refine List.Perm.trans (List.Perm.of_eq ?_) (hp.map _)
    clear hp r1 r2
    generalize s.reformat_.sites.filter (fun c => decide (c.z = cz)) = centres at *
    induction r3 with
    | nil => rfl
    | @cons c row cs rows e _ ih =>
      rw [List.map_cons, List.map_cons, ih]
      congr 1
      obtain ⟨_, _, ts, t1, _, t3⟩ := e
      rw [t3]
      have ht : (ts.map (fun t => t.pos - c.pos)).Perm (relNbrs S c.pos rcut nz) := t1.map _
      rw [← relEnv_perm ht]
      unfold relEnv
      rw [List.map_map, List.length_map]
      congr 2
      refine List.map_congr_left fun t _ => ?_
      simp only [Function.comp, ← dist3_rel]

end MaterSDK
