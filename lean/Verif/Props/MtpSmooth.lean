import Verif.Spec.EnvForces
import Verif.Lemmas.MtpSmooth
import Verif.Props.MtpCrystal

/-! # C182: the basis functions of the moment tensor potentials change smoothly when atoms move -/

namespace MaterSDK

open Classical

/-- Positions the neighbour list handles: atoms in the cell, not too close to each other, all neighbours
closer than `r` fit into `w` slots. -/
def goodPositions (L : Fin 3 → Vec ℝ) {n : ℕ} (z : Fin n → ℤ) (w : ℕ) (r : ℝ) : Set (Fin n → Vec ℝ) :=
  {x | CellOk L (atomsAt z x) (fun _ => true) ∧ ApartImages L ((atomsAt z x).map Prod.snd) ∧
    CrystalSlots (typedCrystal L (atomsAt z x)) w r}

/-- C182: the basis functions computed from a structure are differentiable functions of the positions of
all atoms, also where neighbours enter or leave the neighbour list or the sphere of the potential, or change
their order, as long as no atom is at the distance `rcut_smooth` of the centre.
Missing: distances equal to `rcut_smooth`, see `C182_violated_jump`. -/
theorem C182_smooth_partial (A : ArgSort) (sort : Bool) (L : Fin 3 → Vec ℝ) {n : ℕ} (z : Fin n → ℤ)
    (S : NuSort) (maxLevel : ℤ) (hmax : 2 ≤ maxLevel) (P : MtpParams)
    (hc : P.coeffs.length = (mtpNmus maxLevel).toNat * P.ntypes * P.ntypes)
    (hty : ∀ i, 0 ≤ z i ∧ z i < P.ntypes) (hrs : 0 < P.rs) (hlt : P.rs < P.rcut) (r : ℝ) (hr : P.rcut ≤ r) (w : ℕ) :
    ∃ F : (Fin n → Vec ℝ) → Fin n → Fin (mtpBuild S maxLevel).length → ℝ,
      (∀ x ∈ goodPositions L z w r, ∃ N info,
        NbrLists.make A (CStruct.make L (atomsAt z x) true) r (fun _ => true) sort = .ok N ∧
        N.findInfo w = .ok info ∧
        mtpOfTables P (mtpBuild S maxLevel) info w = .ok [List.ofFn (fun i => List.ofFn (F x i))]) ∧
      ∀ x ∈ goodPositions L z w r, ∀ i k,
        (∀ y ∈ typedCrystal L (atomsAt z x), dist3 y.2 (x i) ≠ P.rs) →
        DifferentiableWithinAt ℝ (fun y => F y i k) (goodPositions L z w r) x := by
  have hmu : ∀ comb ∈ mtpBuild S maxLevel, ∀ c ∈ comb, c.1 < (mtpNmus maxLevel).toNat := by
    intro comb hcomb p hp
    have := ((C102_nmus S maxLevel hmax).2 p.1).1 ⟨comb, hcomb, p, hp, rfl⟩
    omega
  have hdim : ∀ comb ∈ mtpBuild S maxLevel, dimRun 0 (comb.map Prod.snd) = some 0 := by
    intro comb hcomb
    obtain ⟨ii, _, h2, h3⟩ := mem_mtpBuild.1 hcomb
    exact dimRun_kept (schemesAux_sound h2).2.2 h3
  generalize mtpBuild S maxLevel = combs at hmu hdim ⊢
  have htya : ∀ x, ∀ a ∈ atomsAt z x, 0 ≤ a.1 ∧ a.1 < P.ntypes := by
    intro x a ha
    obtain ⟨i, rfl⟩ := List.mem_ofFn.1 ha
    exact hty i
  have hget : ∀ x (i : Fin n), (atomsAt z x)[(i : ℕ)]? = some (z i, x i) := by
    intro x i
    simp [atomsAt]
  have hcore : ∀ x, ∃ out : List (List ℝ), x ∈ goodPositions L z w r → (∃ N info,
      NbrLists.make A (CStruct.make L (atomsAt z x) true) r (fun _ => true) sort = .ok N ∧
      N.findInfo w = .ok info ∧ mtpOfTables P combs info w = .ok [out]) ∧ out.length = n ∧
      ∀ i : Fin n, ∃ rels : List (ℤ × Vec ℝ), rels.Nodup ∧
        (∀ y : ℤ × Vec ℝ, y ∈ rels ↔
          (y.1, x i + y.2) ∈ typedCrystal L (atomsAt z x) ∧ y.2 ≠ 0 ∧ dist3 y.2 0 < r) ∧
        ∃ vs, out[(i : ℕ)]? = some vs ∧ combs.mapM (relBasis P (z i) rels) = .ok vs := by
    intro x
    by_cases hx : x ∈ goodPositions L z w r
    · obtain ⟨h1, h2, h3⟩ := hx
      obtain ⟨N, info, out, g1, g2, g3, g4, g5⟩ := mtp_core A L (atomsAt z x) r (by linarith) sort h1 h2 P combs _
        hc hmu hdim (htya x) hrs w h3
      refine ⟨out, fun _ => ⟨⟨N, info, g1, g2, g3⟩, by simpa [atomsAt] using g4, ?_⟩⟩
      intro i
      exact g5 i _ (hget x i)
    · exact ⟨[], fun h => absurd h hx⟩
  choose out hout using hcore
  have hval : ∀ x ∈ goodPositions L z w r, ∀ i : Fin n, ∃ rels : List (ℤ × Vec ℝ), rels.Nodup ∧
      (∀ y : ℤ × Vec ℝ, y ∈ rels ↔
        (y.1, x i + y.2) ∈ typedCrystal L (atomsAt z x) ∧ y.2 ≠ 0 ∧ dist3 y.2 0 < r) ∧
      ((out x).getD i []).length = combs.length ∧
      ∀ k : Fin combs.length, relBasis P (z i) rels combs[k] = .ok (((out x).getD i []).getD k 0) := by
    intro x hx i
    obtain ⟨_, _, h3⟩ := hout x hx
    obtain ⟨rels, q1, q2, vs, q3, q4⟩ := h3 i
    have hf := mapM_eq_ok.1 q4
    refine ⟨rels, q1, q2, ?_, ?_⟩
    · rw [List.getD, q3]
      exact hf.length_eq.symm
    · intro k
      have hk : (k : ℕ) < vs.length := by rw [← hf.length_eq]; exact k.2
      simp only [List.getD, q3, Option.getD_some, List.getElem?_eq_getElem hk]
      exact (List.forall₂_iff_get.1 hf).2 k k.2 hk
  refine ⟨fun x i k => ((out x).getD i []).getD k 0, ?_, ?_⟩
  · intro x hx
    obtain ⟨⟨N, info, g1, g2, g3⟩, g4, _⟩ := hout x hx
    refine ⟨N, info, g1, g2, ?_⟩
    rw [g3]
    congr 2
    apply List.ext_getElem
    · simp [g4]
    · intro i hi hi'
      have hin : i < n := by omega
      obtain ⟨_, _, _, h3, _⟩ := hval x hx ⟨i, hin⟩
      simp only [List.getElem_ofFn]
      simp only [List.getD, List.getElem?_eq_getElem hi, Option.getD_some] at h3 ⊢
      apply List.ext_getElem
      · simp [h3]
      · intro k hk hk'
        simp [hk]
  · intro x0 hx0 i k hne
    have hpos : 0 < P.rcut + 1 := by linarith
    obtain ⟨E, e1, e2⟩ := imgs_list A L (atomsAt z x0) (P.rcut + 1) hpos hx0.1 hx0.2.1 i _ (hget x0 i)
    have hE : ∀ e ∈ E, e.1 < n := by
      intro e he
      obtain ⟨⟨_, p, hp, _⟩, _⟩ := (e2 e).1 he
      have := (List.getElem?_eq_some_iff.1 hp).1
      simpa [atomsAt] using this
    have hn : 0 < n := lt_of_le_of_lt (Nat.zero_le _) i.2
    -- type and relative position of an image
    let ix : ℕ × (Fin 3 → ℤ) → Fin n := fun e => if h : e.1 < n then ⟨e.1, h⟩ else ⟨0, hn⟩
    let rr : ℕ × (Fin 3 → ℤ) → (Fin n → Vec ℝ) → Vec ℝ := fun e x => imagePos L (x (ix e)) e.2 - x i
    have hix : ∀ e ∈ E, ((ix e : Fin n) : ℕ) = e.1 := by
      intro e he
      simp only [ix, dif_pos (hE e he)]
    have hpt : ∀ x, ∀ (j : Fin n), ((atomsAt z x).map Prod.snd)[(j : ℕ)]? = some (x j) := by
      intro x j
      rw [List.getElem?_map, hget]; rfl
    have hdist : ∀ x, ∀ e, norm3 (rr e x) = dist3 (imagePos L (x (ix e)) e.2) (x i) := by
      intro x e
      unfold norm3 dist3
      simp [rr, Fin.sum_univ_three]
    obtain ⟨G, hG1, hG2⟩ := relBasis_diff (x0 := x0) hlt hc (hmu combs[k] (List.getElem_mem _))
      (hdim combs[k] (List.getElem_mem _)) (hty i) E (fun e => z (ix e)) (fun e _ => hty _) rr (by
        intro e _
        have h1 : DifferentiableAt ℝ (fun x : Fin n → Vec ℝ => x (ix e)) x0 := differentiableAt_apply _ _
        have h2 : DifferentiableAt ℝ (fun x : Fin n → Vec ℝ => x i) x0 := differentiableAt_apply _ _
        exact (h1.add_const _).sub h2) (by
        intro e he
        rw [hdist]
        exact hne (z (ix e), imagePos L (x0 (ix e)) e.2) ⟨_, List.mem_ofFn.2 ⟨ix e, rfl⟩, e.2, rfl⟩)
      (fun e _ => Or.inr hrs)
    refine hG2.differentiableWithinAt.congr_of_eventuallyEq_of_mem ?_ hx0
    -- close to `x0` the values agree
    have hclose : ∀ᶠ x in nhdsWithin x0 (goodPositions L z w r), ∀ j, dist3 (x j) (x0 j) < 1 / 2 := by
      rw [Filter.eventually_all]
      intro j
      have hcont : Continuous (fun x : Fin n → Vec ℝ => dist3 (x j) (x0 j)) := by
        unfold dist3
        fun_prop
      have h0 : dist3 (x0 j) (x0 j) < 1 / 2 := by rw [dist3_self]; norm_num
      exact nhdsWithin_le_nhds (hcont.continuousAt.eventually_lt continuousAt_const h0)
    filter_upwards [hclose, self_mem_nhdsWithin] with x hxc hx
    obtain ⟨rels, q1, q2, _, q4⟩ := hval x hx i
    have hmem : ∀ e ∈ E, (z (ix e), x i + rr e x) ∈ typedCrystal L (atomsAt z x) ∧ rr e x ≠ 0 := by
      intro e he
      refine ⟨⟨_, List.mem_ofFn.2 ⟨ix e, rfl⟩, e.2, ?_⟩, ?_⟩
      · simp only [rr, add_sub_cancel]; rfl
      · intro h0
        refine ((e2 e).1 he).2 ?_
        have := imagePos_inj L _ hx.2.1 (ix e) i (x (ix e)) (x i) e.2 0 (hpt x _) (hpt x _)
          (by rw [imagePos_zero]; exact sub_eq_zero.1 h0)
        rwa [hix e he] at this
    have hnd : (E.map (fun e => (z (ix e), rr e x))).Nodup := by
      refine (List.nodup_map_iff_inj_on e1).2 ?_
      intro e he e' he' h
      rw [Prod.mk.injEq] at h
      have := imagePos_inj L _ hx.2.1 (ix e) (ix e') (x (ix e)) (x (ix e')) e.2 e'.2 (hpt x _) (hpt x _)
        (sub_left_injective h.2)
      rwa [hix e he, hix e' he'] at this
    have hrt : ∀ y ∈ rels, 0 ≤ y.1 ∧ y.1 < P.ntypes := by
      intro y hy
      obtain ⟨⟨a, ha, m, hm⟩, _⟩ := (q2 y).1 hy
      rw [Prod.mk.injEq] at hm
      rw [hm.1]
      exact htya x a ha
    have hEt : ∀ y ∈ E.map (fun e => (z (ix e), rr e x)), 0 ≤ y.1 ∧ y.1 < P.ntypes := by
      intro y hy
      obtain ⟨e, _, rfl⟩ := List.mem_map.1 hy
      exact hty _
    have hperm : (rels.filter (fun y => decide (dist3 y.2 0 < P.rcut))).Perm
        ((E.map (fun e => (z (ix e), rr e x))).filter (fun y => decide (dist3 y.2 0 < P.rcut))) := by
      refine (List.perm_ext_iff_of_nodup (q1.filter _) (hnd.filter _)).2 ?_
      intro y
      rw [List.mem_filter, List.mem_filter, q2, List.mem_map, decide_eq_true_eq]
      constructor
      · rintro ⟨⟨⟨a, ha, m, hm⟩, m2, m3⟩, m4⟩
        refine ⟨?_, m4⟩
        obtain ⟨j, rfl⟩ := List.mem_ofFn.1 ha
        rw [Prod.mk.injEq] at hm
        have hy2 : y.2 = imagePos L (x j) m - x i := by
          rw [imagePos, ← hm.2, add_sub_cancel_left]
        have hj : ix ((j : ℕ), m) = j := by
          simp only [ix, dif_pos j.2]
        refine ⟨((j : ℕ), m), (e2 _).2 ⟨⟨by simp, x0 j, hpt x0 j, ?_⟩, ?_⟩, ?_⟩
        · have t1 := dist3_triangle (imagePos L (x0 j) m) (imagePos L (x j) m) (x0 i)
          have t2 := dist3_triangle (imagePos L (x j) m) (x i) (x0 i)
          have t3 : dist3 (imagePos L (x0 j) m) (imagePos L (x j) m) = dist3 (x j) (x0 j) := by
            rw [dist3_comm (x j), imagePos, imagePos, dist3_shift]
          have t4 : dist3 (imagePos L (x j) m) (x i) < P.rcut := by
            rw [dist3_rel, ← hy2]; exact m4
          have t5 := hxc j
          have t6 := hxc i
          show dist3 (imagePos L (x0 j) m) (x0 i) < P.rcut + 1
          linarith
        · intro h
          rw [Prod.mk.injEq] at h
          obtain ⟨h1, rfl⟩ := h
          have : j = i := Fin.ext h1
          subst this
          rw [imagePos_zero, sub_self] at hy2
          exact m2 hy2
        · refine Prod.ext ?_ ?_
          · rw [hm.1]; simp only [hj]
          · rw [hy2]; simp only [rr, hj]
      · rintro ⟨⟨e, he, rfl⟩, m4⟩
        exact ⟨⟨(hmem e he).1, (hmem e he).2, lt_of_lt_of_le m4 hr⟩, m4⟩
    have h1 := q4 k
    have h2 := relBasis_perm hc (hmu combs[k] (List.getElem_mem _)) (hty i) hEt hrt hperm
    rw [h1, hG1 x] at h2
    exact Except.ok.inj h2

/-! ## An example: the atoms of `exTyped` -/

theorem exAtomsAt : atomsAt ![0, 1] ![![0, 0, 0], ![2, 1, 1]] = exTyped := by
  simp [atomsAt, exTyped]

theorem exGood : ![![0, 0, 0], ![2, 1, 1]] ∈ goodPositions exL ![0, 1] 4 3 := by
  refine ⟨?_, ?_, ?_⟩ <;> rw [exAtomsAt]
  · exact exTyped_ok
  · exact exL_apart
  · exact exTyped_slots

theorem exFar (i : Fin 2) (y : ℤ × Vec ℝ)
    (hy : y ∈ typedCrystal exL (atomsAt ![0, 1] ![![0, 0, 0], ![2, 1, 1]])) :
    dist3 y.2 ((![![0, 0, 0], ![2, 1, 1]] : Fin 2 → Vec ℝ) i) ≠ 1 / 2 := by
  obtain ⟨a, ha, n, rfl⟩ := hy
  have hint : ∃ z : ℤ, dist3 (a.2 + ∑ i, (n i : ℝ) • exL i) ((![![0, 0, 0], ![2, 1, 1]] : Fin 2 → Vec ℝ) i) ^ 2 = z := by
    obtain ⟨j, rfl⟩ := List.mem_ofFn.1 ha
    have h : ∀ (p q : Vec ℝ) (b c : Fin 3 → ℤ), (∀ k, p k = b k) → (∀ k, q k = c k) →
        ∃ z : ℤ, dist3 (p + ∑ i, (n i : ℝ) • exL i) q ^ 2 = z := by
      intro p q b c hp hq
      refine ⟨(b 0 + 4 * n 0 + n 1 - c 0) ^ 2 + (b 1 + 5 * n 1 - c 1) ^ 2 + (b 2 + 6 * n 2 - c 2) ^ 2, ?_⟩
      rw [dist3_sq_comp]
      simp only [Pi.add_apply, Finset.sum_apply, Pi.smul_apply, smul_eq_mul, Fin.sum_univ_three, hp, hq]
      simp [exL]
      ring
    have hc : ∀ j : Fin 2, ∃ b : Fin 3 → ℤ, ∀ k, (![![0, 0, 0], ![2, 1, 1]] : Fin 2 → Vec ℝ) j k = b k := by
      intro j
      fin_cases j
      · exact ⟨![0, 0, 0], by intro k; fin_cases k <;> simp⟩
      · exact ⟨![2, 1, 1], by intro k; fin_cases k <;> simp⟩
    obtain ⟨b, hb⟩ := hc j
    obtain ⟨c, hc⟩ := hc i
    exact h _ _ b c hb hc
  intro hd
  obtain ⟨z, hz⟩ := hint
  rw [hd] at hz
  have h4 : (1 : ℝ) = ((4 * z : ℤ) : ℝ) := by push_cast; linarith
  have h5 : (1 : ℤ) = 4 * z := by exact_mod_cast h4
  omega

example (A : ArgSort) (i : Fin 2) :
    ∃ F : (Fin 2 → Vec ℝ) → Fin 2 → Fin (mtpBuild NuSort.insertion 8).length → ℝ,
      ∀ k, DifferentiableWithinAt ℝ (fun y => F y i k) (goodPositions exL ![0, 1] 4 3) ![![0, 0, 0], ![2, 1, 1]] := by
  obtain ⟨F, _, h⟩ := C182_smooth_partial A true exL ![0, 1] NuSort.insertion 8 (by norm_num) exMtp2
    (by simp [exMtp2, mtpNmus]) (by intro i; fin_cases i <;> simp [exMtp2]) (by norm_num [exMtp2])
    (by norm_num [exMtp2]) 3 (by norm_num [exMtp2]) 4
  exact ⟨F, fun k => h _ exGood i k (fun y hy => exFar i y hy)⟩

/-! ## Where it fails -/

/-- Two atoms at the distance `t` along the first axis. -/
noncomputable def pairAtoms (t : ℝ) : Fin 2 → Vec ℝ := ![![0, 0, 0], ![t, 0, 0]]

/-- One type, `rcut_smooth` 1 and cutoff 2. -/
noncomputable def jumpMtp : MtpParams where
  size := 1
  ntypes := 1
  rcut := 2
  rs := 1
  coeffs := [[1]]

theorem pair_crystal (t : ℝ) (y : ℤ × Vec ℝ) : y ∈ typedCrystal (cube 4) (atomsAt ![0, 0] (pairAtoms t)) ↔
    y.1 = 0 ∧ ∃ b, (b = 0 ∨ b = t) ∧ ∃ n : Fin 3 → ℤ, y.2 = ![b + 4 * n 0, 4 * n 1, 4 * n 2] := by
  have hv : ∀ (b : ℝ) (n : Fin 3 → ℤ), ![b, 0, 0] + ∑ i, (n i : ℝ) • cube 4 i = ![b + 4 * n 0, 4 * n 1, 4 * n 2] := by
    intro b n
    rw [cube_shift]
    funext i
    fin_cases i <;> simp
  constructor
  · rintro ⟨a, ha, n, rfl⟩
    obtain ⟨i, rfl⟩ := List.mem_ofFn.1 ha
    fin_cases i
    · exact ⟨rfl, 0, Or.inl rfl, n, hv 0 n⟩
    · exact ⟨rfl, t, Or.inr rfl, n, hv t n⟩
  · rintro ⟨h1, b, hb, n, h2⟩
    rcases hb with rfl | rfl
    · exact ⟨_, List.mem_ofFn.2 ⟨0, rfl⟩, n, Prod.ext h1 (h2.trans (hv _ n).symm)⟩
    · exact ⟨_, List.mem_ofFn.2 ⟨1, rfl⟩, n, Prod.ext h1 (h2.trans (hv _ n).symm)⟩

theorem pair_near {t : ℝ} (h0 : 1 / 2 ≤ t) (h1 : t ≤ 1) {a : ℝ} (ha : a = 0 ∨ a = t) (k : Fin 3 → ℤ) {y : ℤ × Vec ℝ}
    (hy : y ∈ typedCrystal (cube 4) (atomsAt ![0, 0] (pairAtoms t)))
    (hne : y.2 ≠ ![a + 4 * k 0, 4 * k 1, 4 * k 2]) (hd : dist3 y.2 ![a + 4 * k 0, 4 * k 1, 4 * k 2] < 2) :
    y = (0, ![t - a + 4 * k 0, 4 * k 1, 4 * k 2]) := by
  obtain ⟨hz, b, hb, n, h2⟩ := (pair_crystal t y).1 hy
  have hsq : dist3 y.2 ![a + 4 * k 0, 4 * k 1, 4 * k 2] ^ 2 < 2 ^ 2 :=
    pow_lt_pow_left₀ hd (dist3_nonneg _ _) (by norm_num)
  rw [dist3_sq_comp, h2] at hsq
  simp only [Matrix.cons_val_zero, Matrix.cons_val_one, Matrix.cons_val_two, Matrix.tail_cons, Matrix.head_cons] at hsq
  have hba : -1 ≤ b - a ∧ b - a ≤ 1 := by
    rcases ha with rfl | rfl <;> rcases hb with rfl | rfl <;> constructor <;> linarith
  have hint : ∀ m : ℤ, (4 * (m : ℝ)) ^ 2 < 9 → m = 0 := by
    intro m hm
    have hm' : m ^ 2 < 1 := by
      have : (m : ℝ) ^ 2 < 1 := by nlinarith
      exact_mod_cast this
    have : m ^ 2 = 0 := le_antisymm (by omega) (sq_nonneg m)
    exact pow_eq_zero_iff (two_ne_zero) |>.1 this
  have e0 : n 0 - k 0 = 0 := by
    refine hint _ ?_
    push_cast
    have hx : (b - a + 4 * ((n 0 : ℝ) - k 0)) ^ 2 < 4 := by nlinarith [sq_nonneg ((4 : ℝ) * n 1 - 4 * k 1), sq_nonneg ((4 : ℝ) * n 2 - 4 * k 2)]
    have hx2 := abs_lt_of_sq_lt_sq (show (b - a + 4 * ((n 0 : ℝ) - k 0)) ^ 2 < 2 ^ 2 by linarith) (by norm_num)
    rw [abs_lt] at hx2
    have : (4 * ((n 0 : ℝ) - k 0)) ^ 2 < 3 ^ 2 := by
      refine sq_lt_sq' ?_ ?_ <;> linarith
    linarith
  have e1 : n 1 - k 1 = 0 := by
    refine hint _ ?_
    push_cast
    nlinarith [sq_nonneg (b + 4 * (n 0 : ℝ) - (a + 4 * k 0)), sq_nonneg ((4 : ℝ) * n 2 - 4 * k 2)]
  have e2 : n 2 - k 2 = 0 := by
    refine hint _ ?_
    push_cast
    nlinarith [sq_nonneg (b + 4 * (n 0 : ℝ) - (a + 4 * k 0)), sq_nonneg ((4 : ℝ) * n 1 - 4 * k 1)]
  rw [sub_eq_zero] at e0 e1 e2
  rw [e0, e1, e2] at h2
  have hne' : b ≠ a := by
    rintro rfl
    exact hne h2
  have hbt : b = t - a := by
    rcases ha with rfl | rfl <;> rcases hb with rfl | rfl
    · exact absurd rfl hne'
    · ring
    · ring
    · exact absurd rfl hne'
  rw [hbt] at h2
  exact Prod.ext hz h2

theorem pair_good {t : ℝ} (h0 : 1 / 2 ≤ t) (h1 : t ≤ 1) : pairAtoms t ∈ goodPositions (cube 4) ![0, 0] 1 2 := by
  refine ⟨⟨by rw [cube_det]; norm_num, by simp [atomsAt], ?_, ?_, by simp⟩, ?_, ?_⟩
  · intro a ha
    obtain ⟨i, rfl⟩ := List.mem_ofFn.1 ha
    fin_cases i
    · exact ⟨0, by simp, by funext i; fin_cases i <;> simp [cartOf, pairAtoms]⟩
    · refine ⟨![t / 4, 0, 0], ?_, ?_⟩
      · intro i
        fin_cases i
        · simp only [Fin.zero_eta, Matrix.cons_val_zero]
          constructor <;> linarith
        · simp
        · simp
      · funext i
        fin_cases i <;> simp [cartOf, pairAtoms, cube, Fin.sum_univ_three]
  · intro p
    refine ⟨p, ?_⟩
    fin_cases p <;> simp [cube]
  · have hps : (atomsAt ![0, 0] (pairAtoms t)).map Prod.snd = [![0, 0, 0], ![t, 0, 0]] := by
      simp [atomsAt, pairAtoms]
    rw [hps]
    intro i j p q m hi hj hne
    by_contra hd
    rw [not_lt] at hd
    -- position and number of an atom
    have hnum : ∀ (i : ℕ) (p : Vec ℝ), ([![0, 0, 0], ![t, 0, 0]] : List (Vec ℝ))[i]? = some p →
        (i = 0 ∧ p = ![0, 0, 0]) ∨ (i = 1 ∧ p = ![t, 0, 0]) := by
      intro i p h
      match i, h with
      | 0, h => cases h; exact Or.inl ⟨rfl, rfl⟩
      | 1, h => cases h; exact Or.inr ⟨rfl, rfl⟩
    have hval : ∀ (i : ℕ) (p : Vec ℝ), ([![0, 0, 0], ![t, 0, 0]] : List (Vec ℝ))[i]? = some p →
        ∃ b, (b = 0 ∨ b = t) ∧ p = ![b, 0, 0] := by
      intro i p h
      rcases hnum i p h with ⟨_, rfl⟩ | ⟨_, rfl⟩
      · exact ⟨0, Or.inl rfl, rfl⟩
      · exact ⟨t, Or.inr rfl, rfl⟩
    obtain ⟨a, ha, hp⟩ := hval i p hi
    obtain ⟨b, hb, hq⟩ := hval j q hj
    have him : imagePos (cube 4) q m = ![b + 4 * m 0, 4 * m 1, 4 * m 2] := by
      rw [imagePos, cube_shift, hq]
      funext i
      fin_cases i <;> simp
    have hp' : p = ![a + 4 * ((0 : Fin 3 → ℤ) 0 : ℝ), 4 * ((0 : Fin 3 → ℤ) 1 : ℝ), 4 * ((0 : Fin 3 → ℤ) 2 : ℝ)] := by
      rw [hp]
      funext i
      fin_cases i <;> simp
    have hmem : ((0 : ℤ), imagePos (cube 4) q m) ∈ typedCrystal (cube 4) (atomsAt ![0, 0] (pairAtoms t)) :=
      (pair_crystal t _).2 ⟨rfl, b, hb, m, him⟩
    have hlt : dist3 (imagePos (cube 4) q m) p < 1 / 2 := by
      by_contra hge
      rw [not_lt] at hge
      nlinarith
    by_cases hpq : imagePos (cube 4) q m = p
    · rw [him, hp] at hpq
      have c0 := congrFun hpq 0
      have c1 := congrFun hpq 1
      have c2 := congrFun hpq 2
      simp at c0 c1 c2
      have hm0 : m 0 = 0 := by
        have hb1 : (4 * (m 0 : ℝ)) < 4 ∧ -4 < (4 * (m 0 : ℝ)) := by
          rcases ha with rfl | rfl <;> rcases hb with rfl | rfl <;> constructor <;> linarith
        have l1 : (m 0 : ℝ) < ((1 : ℤ) : ℝ) := by push_cast; linarith
        have l2 : ((-1 : ℤ) : ℝ) < (m 0 : ℝ) := by push_cast; linarith
        have l1' : m 0 < 1 := by exact_mod_cast l1
        have l2' : -1 < m 0 := by exact_mod_cast l2
        omega
      have hm : m = 0 := by
        funext k
        fin_cases k
        · exact hm0
        · exact c1
        · exact c2
      rw [hm0] at c0
      have hab : b = a := by simpa using c0
      refine hne ?_
      rw [hm]
      rcases hnum i p hi with ⟨rfl, hpi⟩ | ⟨rfl, hpi⟩ <;> rcases hnum j q hj with ⟨rfl, hqj⟩ | ⟨rfl, hqj⟩
      · rfl
      · have e1 := congrFun (hp.symm.trans hpi) 0
        have e2 := congrFun (hq.symm.trans hqj) 0
        simp at e1 e2
        linarith
      · have e1 := congrFun (hp.symm.trans hpi) 0
        have e2 := congrFun (hq.symm.trans hqj) 0
        simp at e1 e2
        linarith
      · rfl
    · have h2 : dist3 (imagePos (cube 4) q m) p < 2 := by linarith
      rw [hp'] at hpq h2
      have := pair_near h0 h1 ha 0 hmem hpq h2
      rw [Prod.mk.injEq] at this
      have hd2 : dist3 (imagePos (cube 4) q m) p ^ 2 = (t - 2 * a) ^ 2 := by
        rw [dist3_sq_comp, this.2, hp]
        simp
        ring
      rcases ha with rfl | rfl <;> nlinarith
  · rintro x hx l hl hall
    obtain ⟨hz, a, ha, k, hk⟩ := (pair_crystal t x).1 hx
    have hall' : ∀ y ∈ l, y = ((0 : ℤ), ![t - a + 4 * k 0, 4 * (k 1 : ℝ), 4 * (k 2 : ℝ)]) := by
      intro y hy
      obtain ⟨g1, g2, g3⟩ := hall y hy
      rw [hk] at g2 g3
      exact pair_near h0 h1 ha k g1 g2 g3
    have := List.eq_replicate_of_mem hall'
    rw [this] at hl
    exact List.nodup_replicate.1 hl

/-- C182 fails at the distance `rcut_smooth`: for two atoms in a cubic cell of edge 4, with `rcut_smooth` 1 and
cutoff 2, the only basis function of level 2 is 0 at every distance from 1/2 to 1, but 1 at the distance 1. -/
theorem C182_violated_jump (A : ArgSort) (sort : Bool) (S : NuSort) (t : ℝ) (h0 : 1 / 2 ≤ t) (h1 : t ≤ 1) :
    pairAtoms t ∈ goodPositions (cube 4) ![0, 0] 1 2 ∧
    ∃ N info, NbrLists.make A (CStruct.make (cube 4) (atomsAt ![0, 0] (pairAtoms t)) true) 2 (fun _ => true) sort = .ok N ∧
      N.findInfo 1 = .ok info ∧
      mtpOfTables jumpMtp (mtpBuild S 2) info 1 = .ok [if t = 1 then [[1], [1]] else [[0], [0]]] := by
  have hgood := pair_good h0 h1
  refine ⟨hgood, ?_⟩
  rw [mtpBuild_two]
  obtain ⟨N, info, out, g1, g2, g3, g4, g5⟩ := mtp_core A (cube 4) (atomsAt ![0, 0] (pairAtoms t)) 2 (by norm_num) sort
    hgood.1 hgood.2.1 jumpMtp [[(0, 0)]] 1 (by simp [jumpMtp]) (by simp) (by simp [dimRun])
    (by
      intro a ha
      obtain ⟨i, rfl⟩ := List.mem_ofFn.1 ha
      fin_cases i <;> simp [jumpMtp]) (by norm_num [jumpMtp]) 1 hgood.2.2
  refine ⟨N, info, g1, g2, ?_⟩
  rw [g3]
  have hone : ∀ (i : ℕ) (a : ℝ), (a = 0 ∨ a = t) → (atomsAt ![0, 0] (pairAtoms t))[i]? = some (0, ![a, 0, 0]) →
      out[i]? = some [if t = 1 then 1 else 0] := by
    intro i a ha hi
    obtain ⟨rels, q1, q2, vs, q3, q4⟩ := g5 i _ hi
    have hrel : rels = [(0, ![t - 2 * a, 0, 0])] := by
      have hmem : ∀ y : ℤ × Vec ℝ, y ∈ rels ↔ y = (0, ![t - 2 * a, 0, 0]) := by
        intro y
        rw [q2]
        have hc : (![a, 0, 0] : Vec ℝ)
            = ![a + 4 * ((0 : Fin 3 → ℤ) 0 : ℝ), 4 * ((0 : Fin 3 → ℤ) 1 : ℝ), 4 * ((0 : Fin 3 → ℤ) 2 : ℝ)] := by
          funext i
          fin_cases i <;> simp
        constructor
        · rintro ⟨m1, m2, m3⟩
          have := pair_near h0 h1 ha 0 m1 (by
            rw [← hc]
            intro h
            exact m2 (add_eq_left.1 h)) (by
            rw [← hc, dist3_rel, add_sub_cancel_left]
            exact m3)
          rw [Prod.mk.injEq] at this
          refine Prod.ext this.1 ?_
          have e : y.2 = (![a, 0, 0] + y.2) - ![a, 0, 0] := by rw [add_sub_cancel_left]
          rw [e, this.2]
          funext i
          fin_cases i <;> simp <;> ring
        · rintro rfl
          refine ⟨(pair_crystal t _).2 ⟨rfl, t - a, ?_, 0, ?_⟩, ?_, ?_⟩
          · rcases ha with rfl | rfl
            · right; ring
            · left; ring
          · funext i
            fin_cases i <;> simp <;> ring
          · intro h
            have := congrFun h 0
            simp at this
            rcases ha with rfl | rfl <;> linarith
          · have hd : dist3 (![t - 2 * a, 0, 0] : Vec ℝ) 0 ^ 2 = (t - 2 * a) ^ 2 := by
              rw [dist3_sq_comp]; simp
            have hn := dist3_nonneg (![t - 2 * a, 0, 0] : Vec ℝ) 0
            show dist3 (![t - 2 * a, 0, 0] : Vec ℝ) 0 < 2
            by_contra hge
            rw [not_lt] at hge
            rcases ha with rfl | rfl <;> nlinarith
      exact List.perm_singleton.1 ((List.perm_ext_iff_of_nodup q1 (List.nodup_singleton _)).2 (by
        intro y
        rw [hmem, List.mem_singleton]))
    have hval : relBasis jumpMtp 0 rels [(0, 0)] = .ok (if t = 1 then 1 else 0) := by
      have hm := relBasis_moment (P := jumpMtp) (nmus := 1) (mu := 0) 0 (zi := 0) (rels := rels) (by simp [jumpMtp])
        (by norm_num) (by simp [jumpMtp]) (by rw [hrel]; simp [jumpMtp])
      have hw : relWeight jumpMtp 0 0 0 ![t - 2 * a, 0, 0] = if t = 1 then 1 else 0 := by
        have hd : mtpDist (![t - 2 * a, 0, 0] : Vec ℝ) = t := by
          have : mtpDist (![t - 2 * a, 0, 0] : Vec ℝ) = Real.sqrt (t ^ 2) := by
            unfold mtpDist
            congr 1
            rcases ha with rfl | rfl <;> simp
            ring
          rw [this, Real.sqrt_sq (by linarith)]
        unfold relWeight
        rw [hd]
        split
        · next h =>
          subst h
          simp [jumpMtp, mtpQ, mtpCheb, mtpSwitch, chebLoop, chebStep, List.range_succ, torchDot]
        · next h =>
          have hlt : t < 1 := lt_of_le_of_ne h1 h
          rw [mtpQ_out _ (Or.inl (by simpa [jumpMtp] using hlt))]
          simp [jumpMtp, torchDot]
      have hmom : relMoment jumpMtp 0 0 0 rels [] = if t = 1 then 1 else 0 := by
        rw [hrel]
        simp [relMoment, hw, angularPow]
      unfold relBasis mtpBasis mtpBLoop
      simp only
      rw [hm, ok_bind]
      simp [mtpContract, mtpBLoop, sumIdx, hmom, ok_bind]
      rfl
    rw [List.mapM_cons, hval, ok_bind, List.mapM_nil] at q4
    rw [q3, ← Except.ok.inj q4]
  have o0 := hone 0 0 (Or.inl rfl) (by simp [atomsAt, pairAtoms])
  have o1 := hone 1 t (Or.inr rfl) (by simp [atomsAt, pairAtoms])
  have hlen : out.length = 2 := by rw [g4]; simp [atomsAt]
  obtain ⟨u, v, rfl⟩ := List.length_eq_two.1 hlen
  simp only [List.getElem?_cons_zero, List.getElem?_cons_succ, Option.some.injEq] at o0 o1
  rw [o0, o1]
  split <;> rfl

end MaterSDK
