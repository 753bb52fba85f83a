import Verif.Lemmas.Extensive
import Verif.Props.Crystal

/-!
# C213, C214: supercells of supercells

`make_supercell_` multiplies the cell; the features of the multiplied cell are those of the cell, once per copy.
-/

namespace MaterSDK

/-! ## C213 -/

section
variable {K : Type} [Field K] [CharZero K] [DecidableEq K]

/-- C213: multiplying twice by odd factors is multiplying once by their products: the same lattice and the same
sites, and for sorted supercells the same elements in the same order. -/
theorem C213_twice (s : Struct K) (sc sc' : Fin 3 → ℤ) (h : ∀ i, 0 < sc i ∧ Odd (sc i))
    (h' : ∀ i, 0 < sc' i ∧ Odd (sc' i)) (r r' : Bool) :
    ∃ T S' S, s.makeSupercell sc r = .ok T ∧ T.makeSupercell sc' r' = .ok S' ∧
      s.makeSupercell (fun i => sc i * sc' i) r' = .ok S ∧ S'.lattice = S.lattice ∧ S'.sites.Perm S.sites ∧
      (r' = true → S'.sites.map Site.z = S.sites.map Site.z) := by
  have hodd : ∀ x : ℤ, 0 < x ∧ Odd x → x = 2 * ((x / 2).toNat : ℤ) + 1 := by
    rintro x ⟨h1, h2⟩
    obtain ⟨a, rfl⟩ := h2
    omega
  have hk := fun i => hodd _ (h i)
  have hm := fun i => hodd _ (h' i)
  have hp := halfProd_odd hk hm
  obtain ⟨T, hT⟩ : ∃ T, s.makeSupercell sc r = .ok T := ⟨_, makeSupercell_odd s _ hk r⟩
  obtain ⟨S', hS'⟩ : ∃ S', T.makeSupercell sc' r' = .ok S' := ⟨_, makeSupercell_odd T _ hm r'⟩
  obtain ⟨S, hS⟩ : ∃ S, s.makeSupercell (fun i => sc i * sc' i) r' = .ok S := ⟨_, makeSupercell_odd s _ hp r'⟩
  obtain ⟨t1, t2⟩ := supercell_sites s T _ sc hk r hT
  obtain ⟨u1, u2⟩ := supercell_sites T S' _ sc' hm r' hS'
  obtain ⟨v1, v2⟩ := supercell_sites s S _ _ hp r' hS
  have hperm : S'.sites.Perm S.sites := u2.trans ((superSites_twice s T _ _ sc hk t1 t2).trans v2.symm)
  refine ⟨T, S', S, hT, hS', hS, ?_, hperm, ?_⟩
  · rw [u1, t1, v1, ← Matrix.mul_assoc, Matrix.diagonal_mul_diagonal]
    congr 2
    funext i
    push_cast
    ring
  · rintro rfl
    have key : ∀ (s S : Struct K) (sc : Fin 3 → ℤ) (m : Fin 3 → ℕ) (h : ∀ i, sc i = 2 * (m i : ℤ) + 1),
        s.makeSupercell sc true = .ok S → (S.sites.map Site.z).Pairwise (· ≤ ·) := by
      intro s S sc m h hS
      rw [makeSupercell_odd s m h] at hS
      cases hS
      rw [List.pairwise_map]
      exact sortByKey_pairwise _ _
    exact List.Perm.eq_of_pairwise (le := (· ≤ ·)) (fun a b _ _ => le_antisymm)
      (key T S' _ _ hm hS') (key s S _ _ hp hS) (hperm.map _)

/-- C213: an even factor in either step, or in the product, is refused. -/
theorem C213_even (s : Struct K) (hne : s.sites ≠ []) (sc sc' : Fin 3 → ℤ) (h : ∀ i, 0 < sc i)
    (hev : ∃ i, Even (sc i) ∨ Even (sc' i)) (r r' : Bool) :
    (s.makeSupercell sc r >>= fun T => T.makeSupercell sc' r') = .error .assertionError ∧
      s.makeSupercell (fun i => sc i * sc' i) r' = .error .assertionError := by
  obtain ⟨i, hi⟩ := hev
  constructor
  · by_cases hs : ∃ i, Even (sc i)
    · obtain ⟨j, hj⟩ := hs
      rw [makeSupercell_reject s ⟨j, Or.inr hj⟩ hne]
      rfl
    · have hi' : Even (sc' i) := hi.resolve_left (fun e => hs ⟨i, e⟩)
      have hk : ∀ i, sc i = 2 * ((sc i / 2).toNat : ℤ) + 1 := by
        intro j
        obtain ⟨a, ha⟩ := Int.not_even_iff_odd.1 (fun e => hs ⟨j, e⟩)
        have := h j
        omega
      obtain ⟨T, hT⟩ : ∃ T, s.makeSupercell sc r = .ok T := ⟨_, makeSupercell_odd s _ hk r⟩
      have hTne : T.sites ≠ [] := by
        obtain ⟨_, t2⟩ := supercell_sites s T _ sc hk r hT
        intro e
        rw [e] at t2
        have h0 := t2.length_eq
        unfold superSites at h0
        rw [List.length_flatMap] at h0
        simp [shiftsZ] at h0
        refine hne (List.length_eq_zero_iff.1 (Nat.eq_zero_of_le_zero ?_))
        rw [h0]
        exact Nat.le_add_right _ _
      rw [hT, ok_bind]
      exact makeSupercell_reject T ⟨i, Or.inr hi'⟩ hTne r'
  · exact makeSupercell_reject s ⟨i, Or.inr (Int.even_mul.2 hi)⟩ hne r'

end

/-- Tripling along x and then along all axes: 9, 3 and 3 cells. -/
example : ∃ T S' S, (imageCell 0).makeSupercell ![3, 1, 1] true = .ok T ∧ T.makeSupercell ![3, 3, 3] true = .ok S' ∧
    (imageCell 0).makeSupercell (fun i => (![3, 1, 1] : Fin 3 → ℤ) i * (![3, 3, 3] : Fin 3 → ℤ) i) true = .ok S ∧
    S'.lattice = S.lattice ∧ S'.sites.Perm S.sites ∧ (true = true → S'.sites.map Site.z = S.sites.map Site.z) :=
  C213_twice (imageCell 0) ![3, 1, 1] ![3, 3, 3] (by decide) (by decide) true true

/-- A factor 2 along x, in either step. -/
example : ((imageCell 0).makeSupercell ![2, 1, 1] true >>= fun T => T.makeSupercell ![3, 3, 3] true) =
      .error .assertionError ∧
    ((imageCell 0).makeSupercell ![3, 3, 3] true >>= fun T => T.makeSupercell ![2, 1, 1] true) =
      .error .assertionError :=
  ⟨(C213_even (imageCell 0) (by simp [imageCell]) ![2, 1, 1] ![3, 3, 3] (by decide)
      ⟨0, by decide⟩ true true).1,
    (C213_even (imageCell 0) (by simp [imageCell]) ![3, 3, 3] ![2, 1, 1] (by decide)
      ⟨0, by decide⟩ true true).1⟩

/-! ## C214 -/

open Classical

/-- C214: the features of an odd supercell `T` are those of the cell `s`, each environment once for every copy: as
multisets of environments, an environment being the multiset of (weight row, derivative block) pairs of one centre. -/
theorem C214_copies (A A' : ArgSort) (s T S : Struct ℝ) (hL : s.lattice.det ≠ 0) (hsep : Separated s)
    (hne : s.sites ≠ []) (rcut rs : ℝ) (hrc : 0 ≤ rcut) (hrs : rs < rcut) (scT sc sc' : Fin 3 → ℤ)
    (k m m' : Fin 3 → ℕ) (hk : ∀ i, scT i = 2 * (k i : ℤ) + 1) (h : ∀ i, sc i = 2 * (m i : ℤ) + 1)
    (h' : ∀ i, sc' i = 2 * (m' i : ℤ) + 1) (r : Bool) (hT : s.makeSupercell scT r = .ok T)
    (hS : s.makeSupercell sc true = .ok S) (hr : Reaches s m rcut) (hr' : Reaches T m' rcut) :
    ∃ table table', neighborTable A s rcut sc = .ok table ∧ neighborTable A' T rcut sc' = .ok table' ∧
      ∀ cz nz width : ℕ, 0 < nz → (∀ c ∈ s.sites, c.z = cz → (nbrsOf S c.pos rcut nz).length ≤ width) →
        ∃ rows rows' : List (List (Fin 4 → ℝ) × List (Matrix (Fin 4) (Fin 3) ℝ)),
          getTildeR rcut rs table cz nz width = .ok (rows.map Prod.fst) ∧
          calcDerivative rcut rs table cz nz width = .ok (rows.map Prod.snd) ∧
          getTildeR rcut rs table' cz nz width = .ok (rows'.map Prod.fst) ∧
          calcDerivative rcut rs table' cz nz width = .ok (rows'.map Prod.snd) ∧
          (∀ row ∈ rows ++ rows', row.1.length = width ∧ row.2.length = width) ∧
          rows.length = (s.sites.filter (fun c => c.z = cz)).length ∧
          Multiset.ofList (rows'.map (fun row => Multiset.ofList (row.1.zip row.2))) =
            ((2 * k 0 + 1) * (2 * k 1 + 1) * (2 * k 2 + 1)) •
              Multiset.ofList (rows.map (fun row => Multiset.ofList (row.1.zip row.2))) := by
  obtain ⟨t1, t2⟩ := supercell_sites s T k scT hk r hT
  obtain ⟨S', hS'⟩ : ∃ S', T.makeSupercell sc' true = .ok S' := ⟨_, makeSupercell_odd T m' h' true⟩
  have hcr := crystal_super s T k scT hk t1 t2
  have hn := supercell_nodup s S hL hsep sc m h hS
  have hn' : (S'.sites.map Site.pos).Nodup := by
    obtain ⟨_, u2⟩ := supercell_sites T S' m' sc' h' true hS'
    obtain ⟨S2, hS2⟩ : ∃ S2, s.makeSupercell (fun i => scT i * sc' i) true = .ok S2 :=
      ⟨_, makeSupercell_odd s _ (halfProd_odd hk h') true⟩
    obtain ⟨_, v2⟩ := supercell_sites s S2 _ _ (halfProd_odd hk h') true hS2
    have hp : S'.sites.Perm S2.sites := u2.trans ((superSites_twice s T k m' scT hk t1 t2).trans v2.symm)
    rw [(hp.map Site.pos).nodup_iff]
    exact supercell_nodup s S2 hL hsep _ _ (halfProd_odd hk h') hS2
  have hL' : T.lattice.det ≠ 0 := by
    rw [t1, Matrix.det_mul, Matrix.det_diagonal]
    refine mul_ne_zero (Finset.prod_ne_zero_iff.2 fun i _ => ?_) hL
    have : scT i ≠ 0 := by rw [hk]; omega
    exact_mod_cast this
  have hTmem : ∀ c', c' ∈ T.sites ↔ ∃ c ∈ s.sites, ∃ n : Fin 3 → ℤ, (∀ i, |n i| ≤ (k i : ℤ)) ∧
      c' = ⟨c.z, c.pos + ∑ i, (n i : ℝ) • s.lattice i, none⟩ := by
    intro c'
    rw [t2.mem_iff]
    unfold superSites
    simp only [List.mem_flatMap, List.mem_map, mem_shiftsZ]
    constructor
    · rintro ⟨n, hn, t, ht, rfl⟩
      exact ⟨t, ht, n, hn, rfl⟩
    · rintro ⟨t, ht, n, hn, rfl⟩
      exact ⟨n, hn, t, ht, rfl⟩
  have hTne : T.sites ≠ [] := by
    obtain ⟨c, hc⟩ := List.exists_mem_of_ne_nil _ hne
    exact List.ne_nil_of_mem ((hTmem _).2 ⟨c, hc, 0, by simp, rfl⟩)
  have hnb : ∀ (c : Site ℝ) (n : Fin 3 → ℤ) (nz : ℕ), c ∈ s.sites → (∀ i, |n i| ≤ (k i : ℤ)) →
      (relNbrs S c.pos rcut nz).Perm (relNbrs S' (c.pos + ∑ i, (n i : ℝ) • s.lattice i) rcut nz) := by
    intro c n nz hc hnk
    exact relNbrs_perm_of_nodup s S T S' hL hL' sc sc' m m' h h' hS hS' hn hn' rcut hr hr' hcr c
      ⟨c.z, c.pos + ∑ i, (n i : ℝ) • s.lattice i, none⟩ hc ((hTmem _).2 ⟨c, hc, n, hnk, rfl⟩) n rfl nz
  obtain ⟨table, _, _, q1, _⟩ := pair_spec_nodup A s S hne rcut hrc sc m h hS hn 0 1 (by norm_num)
  obtain ⟨table', _, _, q1', _⟩ := pair_spec_nodup A' T S' hTne rcut hrc sc' m' h' hS' hn' 0 1 (by norm_num)
  refine ⟨table, table', q1, q1', ?_⟩
  intro cz nz width hnz hw
  have hw' : ∀ c' ∈ T.sites, c'.z = cz → (nbrsOf S' c'.pos rcut nz).length ≤ width := by
    intro c' hc' hz
    obtain ⟨c, hc, n, hnk, rfl⟩ := (hTmem c').1 hc'
    have := (hnb c n nz hc hnk).length_eq
    unfold relNbrs at this
    rw [List.length_map, List.length_map] at this
    simp only
    rw [← this]
    exact hw c hc hz
  obtain ⟨rows, r1, r2, r3, r4⟩ :=
    env_multiset A s S hne rcut rs hrc hrs sc m h hS hn cz nz hnz width hw table q1
  obtain ⟨rows', r1', r2', r3', r4'⟩ :=
    env_multiset A' T S' hTne rcut rs hrc hrs sc' m' h' hS' hn' cz nz hnz width hw' table' q1'
  refine ⟨rows, rows', r1, r2, r1', r2', ?_, ?_, ?_⟩
  · intro row hrow
    rcases List.mem_append.1 hrow with h1 | h1
    · exact r3 row h1
    · exact r3' row h1
  · have := congrArg Multiset.card r4
    simpa using this
  · rw [r4, r4', ← shiftsZ_length]
    have e : (T.sites.filter (fun c => decide (c.z = cz))).Perm
        ((shiftsZ k).flatMap fun n => (s.sites.filter (fun c => decide (c.z = cz))).map
          (fun u => (⟨u.z, u.pos + ∑ i, (n i : ℝ) • s.lattice i, none⟩ : Site ℝ))) := by
      refine (t2.filter _).trans (List.Perm.of_eq ?_)
      unfold superSites
      rw [List.filter_flatMap]
      refine List.flatMap_congr fun n _ => ?_
      rw [List.filter_map]
      rfl
    rw [Multiset.coe_eq_coe.2 (e.map _), List.map_flatMap]
    have e2 : ∀ ns : List (Fin 3 → ℤ), (∀ n ∈ ns, ∀ i, |n i| ≤ (k i : ℤ)) →
        Multiset.ofList (ns.flatMap fun n => ((s.sites.filter (fun c => decide (c.z = cz))).map
          (fun u => (⟨u.z, u.pos + ∑ i, (n i : ℝ) • s.lattice i, none⟩ : Site ℝ))).map
            (fun c => relEnv rcut rs nz width (relNbrs S' c.pos rcut nz))) =
        ns.length • Multiset.ofList ((s.sites.filter (fun c => decide (c.z = cz))).map
            (fun c => relEnv rcut rs nz width (relNbrs S c.pos rcut nz))) := by
      intro ns
      induction ns with
      | nil => intro _; simp
      | cons n ns ih =>
        intro hns
        rw [List.flatMap_cons, ← Multiset.coe_add, ih (fun n' hn' => hns n' (by simp [hn'])),
          List.length_cons, add_smul, one_smul, add_comm]
        congr 2
        rw [List.map_map]
        refine List.map_congr_left fun c hc => ?_
        exact (relEnv_perm (hnb c n nz (List.mem_of_mem_filter hc) (hns n (by simp)))).symm
    exact e2 _ (fun n hn => (mem_shiftsZ k n).1 hn)

/-- C214 for atoms stored inside the cell: supercells that C19 calls large enough suffice. A sum over all centres of
any function of the environment, a model energy for instance, grows with the number of copies. -/
theorem C214_sum (A A' : ArgSort) (s T S : Struct ℝ) (hL : s.lattice.det ≠ 0) (hsep : Separated s)
    (hne : s.sites ≠ []) (hin : ∀ c ∈ s.sites, ∃ f : Vec ℝ, c.pos = ∑ i, f i • s.lattice i ∧ ∀ i, 0 ≤ f i ∧ f i < 1)
    (rcut rs : ℝ) (hrc : 0 ≤ rcut) (hrs : rs < rcut) (scT sc sc' : Fin 3 → ℤ)
    (k m m' : Fin 3 → ℕ) (hk : ∀ i, scT i = 2 * (k i : ℤ) + 1) (h : ∀ i, sc i = 2 * (m i : ℤ) + 1)
    (h' : ∀ i, sc' i = 2 * (m' i : ℤ) + 1) (r : Bool) (hT : s.makeSupercell scT r = .ok T)
    (hS : s.makeSupercell sc true = .ok S) (hr : ∀ i, rcut ≤ m i * planeDist s.lattice i)
    (hr' : ∀ i, rcut ≤ m' i * (scT i * planeDist s.lattice i)) :
    ∃ table table', neighborTable A s rcut sc = .ok table ∧ neighborTable A' T rcut sc' = .ok table' ∧
      ∀ cz nz width : ℕ, 0 < nz → (∀ c ∈ s.sites, c.z = cz → (nbrsOf S c.pos rcut nz).length ≤ width) →
        ∃ rows rows' : List (List (Fin 4 → ℝ) × List (Matrix (Fin 4) (Fin 3) ℝ)),
          getTildeR rcut rs table cz nz width = .ok (rows.map Prod.fst) ∧
          calcDerivative rcut rs table cz nz width = .ok (rows.map Prod.snd) ∧
          getTildeR rcut rs table' cz nz width = .ok (rows'.map Prod.fst) ∧
          calcDerivative rcut rs table' cz nz width = .ok (rows'.map Prod.snd) ∧
          (∀ row ∈ rows ++ rows', row.1.length = width ∧ row.2.length = width) ∧
          ∀ e : Multiset ((Fin 4 → ℝ) × Matrix (Fin 4) (Fin 3) ℝ) → ℝ,
            (rows'.map (fun row => e (row.1.zip row.2))).sum =
              scT 0 * scT 1 * scT 2 * (rows.map (fun row => e (row.1.zip row.2))).sum := by
  obtain ⟨t1, t2⟩ := supercell_sites s T k scT hk r hT
  have hpos : ∀ i, 0 < planeDist s.lattice i := fun i => (coeff_bound s.lattice hL 0 i).1
  have hpos' : ∀ i, (0 : ℝ) < scT i := by
    intro i
    have : 0 < scT i := by rw [hk]; omega
    exact_mod_cast this
  have hr1 : Reaches s m rcut := by
    intro c hc t ht
    obtain ⟨f, f1, f2⟩ := hin c hc
    obtain ⟨g, g1, g2⟩ := hin t ht
    refine ⟨g - f, ?_, ?_⟩
    · rw [f1, g1, ← Finset.sum_sub_distrib]
      simp only [Pi.sub_apply, sub_smul]
    · intro i
      have hlt : |(g - f) i| < 1 := by
        rw [Pi.sub_apply, abs_lt]
        constructor <;> linarith [(f2 i).1, (f2 i).2, (g2 i).1, (g2 i).2]
      have := hr i
      nlinarith [hpos i]
  have hr2 : Reaches T m' rcut := by
    have hmem : ∀ c' ∈ T.sites, ∃ (f : Vec ℝ) (n : Fin 3 → ℤ), c'.pos = ∑ i, (f i + n i) • s.lattice i ∧
        (∀ i, 0 ≤ f i ∧ f i < 1) ∧ ∀ i, |n i| ≤ (k i : ℤ) := by
      intro c' hc'
      rw [t2.mem_iff] at hc'
      unfold superSites at hc'
      obtain ⟨n, hn, hc'⟩ := List.mem_flatMap.1 hc'
      obtain ⟨c, hc, rfl⟩ := List.mem_map.1 hc'
      obtain ⟨f, f1, f2⟩ := hin c hc
      refine ⟨f, n, ?_, f2, (mem_shiftsZ k n).1 hn⟩
      simp only [add_smul, Finset.sum_add_distrib, f1]
    intro c hc t ht
    obtain ⟨f, n, f1, f2, f3⟩ := hmem c hc
    obtain ⟨g, l, g1, g2, g3⟩ := hmem t ht
    refine ⟨fun i => (g i + l i - (f i + n i)) / scT i, ?_, ?_⟩
    · rw [f1, g1, ← Finset.sum_sub_distrib]
      refine Finset.sum_congr rfl fun i _ => ?_
      rw [t1, diagonal_lattice, smul_smul, div_mul_cancel₀ _ (hpos' i).ne', sub_smul]
    · intro i
      rw [t1, planeDist_super _ _ _ hpos']
      have hlt : |(g i + l i - (f i + n i)) / scT i| < 1 := by
        rw [abs_div, abs_of_pos (hpos' i), div_lt_one (hpos' i)]
        have hk' : (scT i : ℝ) = 2 * (k i : ℝ) + 1 := by rw [hk]; push_cast; ring
        have a1 : |(n i : ℝ)| ≤ k i := by exact_mod_cast f3 i
        have a2 : |(l i : ℝ)| ≤ k i := by exact_mod_cast g3 i
        rw [abs_le] at a1 a2
        rw [hk', abs_lt]
        constructor <;> linarith [(f2 i).1, (f2 i).2, (g2 i).1, (g2 i).2]
      have := hr' i
      have := mul_pos (hpos' i) (hpos i)
      nlinarith
  obtain ⟨table, table', q1, q2, q3⟩ := C214_copies A A' s T S hL hsep hne rcut rs hrc hrs scT sc sc' k m m' hk h h' r
    hT hS hr1 hr2
  refine ⟨table, table', q1, q2, ?_⟩
  intro cz nz width hnz hw
  obtain ⟨rows, rows', r1, r2, r3, r4, r5, _, r7⟩ := q3 cz nz width hnz hw
  refine ⟨rows, rows', r1, r2, r3, r4, r5, ?_⟩
  intro e
  have := congrArg (fun M => (M.map e).sum) r7
  simp only [Multiset.map_nsmul, Multiset.sum_nsmul, Multiset.map_coe, Multiset.sum_coe, List.map_map,
    nsmul_eq_mul] at this
  simp only [hk]
  push_cast at this ⊢
  exact this

/-- Li and Si in a cube of edge 10, and its supercell of 27 cells, both with cutoff 2. -/
example (A A' : ArgSort) : ∃ T S table table', (imageCell 0).makeSupercell ![3, 3, 3] true = .ok T ∧
    (imageCell 0).makeSupercell ![3, 3, 3] true = .ok S ∧ neighborTable A (imageCell 0) 2 ![3, 3, 3] = .ok table ∧
    neighborTable A' T 2 ![3, 3, 3] = .ok table' ∧
    ∃ rows rows' : List (List (Fin 4 → ℝ) × List (Matrix (Fin 4) (Fin 3) ℝ)),
      getTildeR 2 1 table 3 14 S.sites.length = .ok (rows.map Prod.fst) ∧
      getTildeR 2 1 table' 3 14 S.sites.length = .ok (rows'.map Prod.fst) ∧
      ∀ e : Multiset ((Fin 4 → ℝ) × Matrix (Fin 4) (Fin 3) ℝ) → ℝ,
        (rows'.map (fun row => e (row.1.zip row.2))).sum = 27 * (rows.map (fun row => e (row.1.zip row.2))).sum := by
  have hsc : ∀ i, (![3, 3, 3] : Fin 3 → ℤ) i = 2 * (((![1, 1, 1] : Fin 3 → ℕ) i : ℕ) : ℤ) + 1 := by decide
  obtain ⟨T, hT⟩ : ∃ T, (imageCell 0).makeSupercell ![3, 3, 3] true = .ok T := ⟨_, makeSupercell_odd _ _ hsc true⟩
  have h3 : ∀ i : Fin 3, (((![3, 3, 3] : Fin 3 → ℤ) i : ℤ) : ℝ) = 3 := by intro i; fin_cases i <;> simp
  have h1 : ∀ i : Fin 3, (((![1, 1, 1] : Fin 3 → ℕ) i : ℕ) : ℝ) = 1 := by intro i; fin_cases i <;> simp
  obtain ⟨table, table', q1, q2, q3⟩ := C214_sum A A' (imageCell 0) T T (imageCell_det 0) (imageCell_separated 0)
    (by simp [imageCell]) (by
      intro c hc
      simp only [imageCell, List.mem_cons, List.not_mem_nil, or_false] at hc
      rcases hc with rfl | rfl
      · exact ⟨0, by simp, by simp⟩
      · refine ⟨![1 / 10, 0, 0], ?_, ?_⟩
        · rw [imageCell_shift]; funext i; fin_cases i <;> simp
        · intro i; fin_cases i <;> norm_num) 2 1 (by norm_num) (by norm_num) ![3, 3, 3] ![3, 3, 3] ![3, 3, 3]
    ![1, 1, 1] ![1, 1, 1] ![1, 1, 1] hsc hsc hsc true hT hT
    (by intro i; rw [imageCell_plane, h1]; norm_num) (by intro i; rw [imageCell_plane, h1, h3]; norm_num)
  obtain ⟨rows, rows', r1, _, r3, _, _, r6⟩ := q3 3 14 T.sites.length (by norm_num)
    (fun c _ _ => List.length_filter_le _ _)
  refine ⟨T, T, table, table', hT, hT, q1, q2, rows, rows', r1, r3, ?_⟩
  intro e
  rw [r6 e, h3, h3, h3]
  norm_num

end MaterSDK
