import Verif.Model.NeighD
import Verif.Lemmas.NeighAux
import Verif.Lemmas.Supercell
import Verif.Lemmas.CellListDPlane
import Verif.Lemmas.CellListDErr
import Verif.Spec.NeighD

/-! # The Python neighbour table in doubles -/

namespace MaterSDK

open Classical

/-- Without rounding these are the functions of `Structure.lean` and `Neigh.lean`. -/
theorem neighborTableD_id (A : ArgSort) (s : Struct ℝ) (rcut : ℝ) (sc : Fin 3 → ℤ) :
    neighborTableD id (fun _ x => x) A s rcut sc = neighborTable A s rcut sc := by
  have hg : gridCoeffsD id sc = gridCoeffs sc := rfl
  have hsc : shiftCoeffsD id sc = shiftCoeffs sc := by
    unfold shiftCoeffsD shiftCoeffs
    rw [hg]
  have hsv : ∀ c, shiftVectorD id s.lattice c = shiftVector s.lattice c := by
    intro c
    funext j
    simp [shiftVectorD, shiftVector, Fin.sum_univ_three, Matrix.diagonal_mul]
  have hl : superLatticeD id s.lattice sc = Matrix.diagonal (fun i => (sc i : ℝ)) * s.lattice := by
    funext i j
    simp [superLatticeD, Matrix.diagonal_mul]
  have hms : ∀ b, s.makeSupercellD id (fun _ x => x) sc b = s.makeSupercell sc b := by
    intro b
    unfold Struct.makeSupercellD Struct.makeSupercell
    simp only [hsc, hsv, hl, id]
    rfl
  have hn : ∀ v : Vec ℝ, lengthD id v = norm3 v := fun v => rfl
  have hd : ∀ coords c, distancesFromD id coords c = distancesFrom coords c := by
    intro coords c
    unfold distancesFromD distancesFrom
    simp only [hn]
    rfl
  unfold neighborTableD neighborTable Struct.getKeyIdxsD Struct.getKeyIdxs bidx2aidx keyNeighsInfoD keyNeighsInfo
  simp only [hms, bind_assoc]
  have he : nbrEntriesD id = nbrEntries := by
    funext A coords zs r k
    unfold nbrEntriesD nbrEntries
    simp only [hd]
  rw [he]
  cases s.makeSupercell sc false <;> rfl

theorem centredD_odd {m : ℕ} (hm : m ≤ 2 ^ 52) {n : ℤ} (hn : n = 2 * (m : ℤ) + 1) {i : ℕ} (hi : i < 2 * m + 1) :
    centredD flR n i = centred n i := by
  have e : (((n : ℤ) : ℝ) - 1) / 2 = ((m : ℤ) : ℝ) := by rw [hn]; push_cast; ring
  unfold centredD centred
  rw [e, flR_int _ (by rw [abs_of_nonneg (by positivity)]; exact_mod_cast hm.trans (by norm_num))]
  have e2 : (i : ℝ) - ((m : ℤ) : ℝ) = (((i : ℤ) - (m : ℤ) : ℤ) : ℝ) := by push_cast; rfl
  rw [e2, flR_int]
  rw [abs_le]
  have : (m : ℤ) ≤ 2 ^ 52 := by exact_mod_cast hm
  constructor <;> omega

theorem shiftCoeffsD_odd {m : Fin 3 → ℕ} (hm : ∀ i, m i ≤ 2 ^ 52) {sc : Fin 3 → ℤ}
    (h : ∀ i, sc i = 2 * (m i : ℤ) + 1) : shiftCoeffsD flR sc = shiftCoeffs sc := by
  have hg : gridCoeffsD flR sc = gridCoeffs sc := by
    have ht : ∀ i, (sc i).toNat = 2 * m i + 1 := by intro i; rw [h]; omega
    unfold gridCoeffsD gridCoeffs
    refine List.flatMap_congr fun i hi => List.flatMap_congr fun j hj => List.map_congr_left fun k hk => ?_
    rw [List.mem_range, ht] at hi hj hk
    rw [centredD_odd (hm 0) (h 0) hi, centredD_odd (hm 1) (h 1) hj, centredD_odd (hm 2) (h 2) hk]
  unfold shiftCoeffsD shiftCoeffs
  rw [hg]

/-- A site of the supercell, exactly and as stored. -/
noncomputable def superPair (keep : Matrix (Fin 3) (Fin 3) ℝ → Vec ℝ → Vec ℝ) (s : Struct ℝ) (sc : Fin 3 → ℤ)
    (t : Fin 3 → ℤ) (u : Site ℝ) : Site ℝ × Site ℝ :=
  (⟨u.z, u.pos + ∑ i, (t i : ℝ) • s.lattice i, none⟩,
    ⟨u.z, keep (superLatticeD flR s.lattice sc)
      (fun j => flR (u.pos j + shiftVectorD flR s.lattice (castVec t) j)), none⟩)

noncomputable def superPairs (keep : Matrix (Fin 3) (Fin 3) ℝ → Vec ℝ → Vec ℝ) (s : Struct ℝ) (sc : Fin 3 → ℤ)
    (m : Fin 3 → ℕ) : List (Site ℝ × Site ℝ) :=
  (shiftsZ m).flatMap (fun t => s.sites.map (superPair keep s sc t))

variable (keep : Matrix (Fin 3) (Fin 3) ℝ → Vec ℝ → Vec ℝ)

theorem superPairs_fst (s : Struct ℝ) (sc : Fin 3 → ℤ) (m : Fin 3 → ℕ) :
    (superPairs keep s sc m).map Prod.fst = superSites s m := by
  unfold superPairs superSites
  rw [List.map_flatMap]
  refine List.flatMap_congr fun t _ => ?_
  rw [List.map_map]
  rfl

theorem makeSupercellD_odd (s : Struct ℝ) {m : Fin 3 → ℕ} (hm : ∀ i, m i ≤ 2 ^ 52)
    {sc : Fin 3 → ℤ} (h : ∀ i, sc i = 2 * (m i : ℤ) + 1) (r : Bool) :
    s.makeSupercellD flR keep sc r = .ok
      (let S : Struct ℝ := ⟨superLatticeD flR s.lattice sc, (superPairs keep s sc m).map Prod.snd⟩
       if r then S.reformat_ else S) := by
  have ht : ∀ i, (sc i).toNat = 2 * m i + 1 := by intro i; rw [h]; omega
  unfold Struct.makeSupercellD
  simp only [pyRepeat3, shiftCoeffsD_odd hm h, shiftCoeffs_odd m h, ht, ← shiftsZ_length]
  rw [if_neg]
  · congr 1
    have e : (List.map (fun p => ({ z := p.1, pos := keep (superLatticeD flR s.lattice sc) p.2, mag := none } : Site ℝ))
        ((List.replicate (shiftsZ m).length (List.map Site.z s.sites)).flatten.zip
          (List.flatMap (fun c => List.map (fun t : Site ℝ => (fun j => flR (t.pos j + shiftVectorD flR s.lattice c j)))
            s.sites) (List.map castVec (shiftsZ m))))) = (superPairs keep s sc m).map Prod.snd := by
      rw [List.flatMap_map, zip_replicate_flatMap _ _ _ (by intro t; simp), List.map_flatMap]
      unfold superPairs
      rw [List.map_flatMap]
      apply List.flatMap_congr
      intro t _
      rw [List.zip_map', List.map_map, List.map_map]
      rfl
    rw [e]
  · rw [not_not]
    simp [List.length_flatMap, Function.comp_def]

theorem sortByKey_pairs {α β : Type} (f : α → β) (ka : α → ℕ) (kb : β → ℕ) (l : List α)
    (h : ∀ a ∈ l, kb (f a) = ka a) : sortByKey kb (l.map f) = (sortByKey ka l).map f := by
  unfold sortByKey
  refine (List.map_insertionSort (fun a b => ka a ≤ ka b) (fun a b => kb a ≤ kb b) f l ?_).symm
  intro a ha b hb
  rw [h a ha, h b hb]

theorem sortedIndexes_congr (l l' : List (Site ℝ)) (h : l.map Site.z = l'.map Site.z) :
    sortedIndexes l = sortedIndexes l' := by
  have key : ∀ l : List (Site ℝ), sortedIndexes l =
      (sortByKey (fun p : ℕ × ℕ => p.1) (l.map Site.z).zipIdx).map Prod.snd := by
    intro l
    rw [List.zipIdx_map, sortByKey_map, List.map_map]
    rfl
  rw [key, key, h]

theorem superPairs_z (s : Struct ℝ) (sc : Fin 3 → ℤ) (m : Fin 3 → ℕ) :
    ∀ p ∈ superPairs keep s sc m, p.2.z = p.1.z := by
  intro p hp
  obtain ⟨t, _, h⟩ := List.mem_flatMap.1 hp
  obtain ⟨u, _, rfl⟩ := List.mem_map.1 h
  rfl

/-- The sorted supercell, exactly and as stored. -/
noncomputable def superSorted (keep : Matrix (Fin 3) (Fin 3) ℝ → Vec ℝ → Vec ℝ) (s : Struct ℝ) (sc : Fin 3 → ℤ)
    (m : Fin 3 → ℕ) : List (Site ℝ × Site ℝ) :=
  sortByKey (fun p => p.1.z) (superPairs keep s sc m)

theorem superSorted_exact (s : Struct ℝ) {m : Fin 3 → ℕ} {sc : Fin 3 → ℤ}
    (h : ∀ i, sc i = 2 * (m i : ℤ) + 1) {S : Struct ℝ} (hS : s.makeSupercell sc true = .ok S) :
    S.sites = (superSorted keep s sc m).map Prod.fst := by
  rw [makeSupercell_odd s m h] at hS
  simp only [if_true, Except.ok.injEq] at hS
  rw [← hS]
  unfold superSorted Struct.reformat_
  rw [← superPairs_fst keep s sc m]
  exact sortByKey_pairs _ _ _ _ (fun _ _ => rfl)

theorem superSorted_stored (s : Struct ℝ) {m : Fin 3 → ℕ} (hm : ∀ i, m i ≤ 2 ^ 52) {sc : Fin 3 → ℤ}
    (h : ∀ i, sc i = 2 * (m i : ℤ) + 1) :
    ∃ S, s.makeSupercellD flR keep sc true = .ok S ∧ S.sites = (superSorted keep s sc m).map Prod.snd := by
  refine ⟨_, makeSupercellD_odd keep s hm h true, ?_⟩
  exact sortByKey_pairs _ _ _ _ (superPairs_z keep s sc m)

theorem getKeyIdxsD_eq (s : Struct ℝ) {m : Fin 3 → ℕ} (hm : ∀ i, m i ≤ 2 ^ 52) {sc : Fin 3 → ℤ}
    (h : ∀ i, sc i = 2 * (m i : ℤ) + 1) : s.getKeyIdxsD flR keep sc = s.getKeyIdxs sc := by
  unfold Struct.getKeyIdxsD Struct.getKeyIdxs bidx2aidx
  rw [makeSupercellD_odd keep s hm h, makeSupercell_odd s m h]
  have e := sortedIndexes_congr ((superPairs keep s sc m).map Prod.snd) (superSites s m) (by
    rw [← superPairs_fst keep s sc m, List.map_map, List.map_map]
    exact List.map_congr_left (superPairs_z keep s sc m))
  simp only [ok_bind, e, Bool.false_eq_true, if_false]
  rfl

/-! ## Errors -/

theorem superPos_near (s : Struct ℝ) {m : Fin 3 → ℕ} {M : ℝ}
    {u : Site ℝ} (p : Fin 3) (hM : |u.pos p| + ∑ i, (m i : ℝ) * |s.lattice i p| ≤ M) {t : Fin 3 → ℤ}
    (ht : ∀ i, |t i| ≤ (m i : ℤ)) :
    NearR M 9 (flR (u.pos p + shiftVectorD flR s.lattice (castVec t) p)) ((u.pos + ∑ i, (t i : ℝ) • s.lattice i) p) ∧
    |(u.pos + ∑ i, (t i : ℝ) • s.lattice i) p| ≤ M := by
  have hb : ∀ i, |(t i : ℝ) * s.lattice i p| ≤ (m i : ℝ) * |s.lattice i p| := by
    intro i
    rw [abs_mul]
    refine mul_le_mul_of_nonneg_right ?_ (abs_nonneg _)
    exact_mod_cast ht i
  rw [Fin.sum_univ_three] at hM
  have b0 := hb 0
  have b1 := hb 1
  have b2 := hb 2
  have n0 := abs_nonneg ((t 0 : ℝ) * s.lattice 0 p)
  have n1 := abs_nonneg ((t 1 : ℝ) * s.lattice 1 p)
  have n2 := abs_nonneg ((t 2 : ℝ) * s.lattice 2 p)
  have nu := abs_nonneg (u.pos p)
  have e : (u.pos + ∑ i, (t i : ℝ) • s.lattice i) p
      = u.pos p + ((t 0 : ℝ) * s.lattice 0 p + (t 1 : ℝ) * s.lattice 1 p + (t 2 : ℝ) * s.lattice 2 p) := by
    simp [Fin.sum_univ_three]
  have a01 := abs_add_le ((t 0 : ℝ) * s.lattice 0 p) ((t 1 : ℝ) * s.lattice 1 p)
  have a012 := abs_add_le ((t 0 : ℝ) * s.lattice 0 p + (t 1 : ℝ) * s.lattice 1 p) ((t 2 : ℝ) * s.lattice 2 p)
  have aall := abs_add_le (u.pos p)
    ((t 0 : ℝ) * s.lattice 0 p + (t 1 : ℝ) * s.lattice 1 p + (t 2 : ℝ) * s.lattice 2 p)
  have r0 : NearR M 1 _ _ := nearR_round (S := M) (z := (t 0 : ℝ) * s.lattice 0 p) (by linarith)
  have r1 : NearR M 1 _ _ := nearR_round (S := M) (z := (t 1 : ℝ) * s.lattice 1 p) (by linarith)
  have r2 : NearR M 1 _ _ := nearR_round (S := M) (z := (t 2 : ℝ) * s.lattice 2 p) (by linarith)
  have r01 := (r0.add r1).round (by linarith) (by norm_num)
  have r012 := (r01.add r2).round (by linarith) (by norm_num)
  have rall := ((nearR_self (S := M) (z := u.pos p)).add r012).round (by linarith) (by norm_num)
  rw [e]
  refine ⟨?_, by linarith⟩
  have : (0 + (1 + 1 + 2 + 1 + 2) + 2 : ℝ) = 9 := by norm_num
  rw [this] at rall
  exact rall

/-- Coordinates within `η` of exact ones of size `M` give distances within `6 η + 72 u M`. -/
theorem lengthD_near {M η : ℝ} (hη : 0 ≤ η) (hηM : η ≤ M) {X X' C C' : Vec ℝ}
    (hX : ∀ p, |X p| ≤ M) (hC : ∀ p, |C p| ≤ M) (hX' : ∀ p, |X' p - X p| ≤ η) (hC' : ∀ p, |C' p - C p| ≤ η) :
    |lengthD flR (fun p => flR (X' p - C' p)) - dist3 X C| ≤ 6 * η + 72 * (uR * M) := by
  have hM : 0 ≤ M := hη.trans hηM
  have hu := uR_pos
  have hu1 : uR ≤ 1 / 1000 := by rw [uR_eq]; norm_num
  have huM : 0 ≤ uR * M := mul_nonneg hu.le hM
  set v : Vec ℝ := fun p => flR (X' p - C' p) with hv
  have hd : ∀ p, |v p - (X - C) p| ≤ 2 * η + 4 * (uR * M) ∧ |v p| ≤ 5 * M := by
    intro p
    have h1 := flR_err (X' p - C' p)
    have h2 : |(X' p - C' p) - (X p - C p)| ≤ 2 * η := by
      have := abs_sub (X' p - X p) (C' p - C p)
      have e : (X' p - C' p) - (X p - C p) = (X' p - X p) - (C' p - C p) := by ring
      rw [e]
      linarith [hX' p, hC' p]
    have h3 : |X p - C p| ≤ 2 * M := by
      have := abs_sub (X p) (C p)
      linarith [hX p, hC p]
    have h4 : |X' p - C' p| ≤ 4 * M := by
      have := abs_add_le ((X' p - C' p) - (X p - C p)) (X p - C p)
      rw [sub_add_cancel] at this
      linarith
    have h5 : |X' p - C' p| * uR ≤ 4 * (uR * M) := by nlinarith
    have h6 : |v p - (X' p - C' p)| ≤ 4 * (uR * M) := h1.trans h5
    have h7 := abs_add_le (v p - (X' p - C' p)) ((X' p - C' p) - (X p - C p))
    have h8 := abs_add_le (v p - (X' p - C' p)) (X' p - C' p)
    rw [sub_add_sub_cancel] at h7
    rw [sub_add_cancel] at h8
    refine ⟨?_, ?_⟩
    · rw [Pi.sub_apply]
      linarith
    · nlinarith
  obtain ⟨n1, n2⟩ := normD_bounds v
  have n3 := norm3_diff v (X - C)
  have n4 : sum1 (v - (X - C)) ≤ 3 * (2 * η + 4 * (uR * M)) := by
    have a := (hd 0).1
    have b := (hd 1).1
    have c := (hd 2).1
    unfold sum1
    simp only [Pi.sub_apply] at a b c ⊢
    linarith
  have n5 : norm3 v ≤ 15 * M := by
    refine (norm3_le_sum1 v).trans ?_
    have a := (hd 0).2
    have b := (hd 1).2
    have c := (hd 2).2
    unfold sum1
    linarith
  have n6 : uR * norm3 v ≤ 15 * (uR * M) := by nlinarith
  have n7 : 0 ≤ uR * norm3 v := mul_nonneg hu.le (norm3_nonneg v)
  have e : dist3 X C = norm3 (X - C) := (norm3_eq_dist3 _ _).symm
  have e' : lengthD flR v = flR (Real.sqrt (flR (flR (flR (v 0 ^ 2) + flR (v 1 ^ 2)) + flR (v 2 ^ 2)))) := rfl
  rw [e, e', abs_le]
  rw [abs_le] at n3
  constructor <;> nlinarith

/-! ## One row -/

/-- The table entry of a stored site seen from a stored centre. -/
noncomputable def entryD (c : Vec ℝ) (t : Site ℝ) : NbrEntry :=
  (t.z, lengthD flR (fun q => flR (t.pos q - c q)), t.pos)

theorem nbrEntriesD_spec (A : ArgSort) (sites : List (Site ℝ)) (r : ℝ) (k : ℕ) (c : Site ℝ)
    (hk : sites[k]? = some c) :
    ∃ real, nbrEntriesD flR A (sites.map Site.pos) (sites.map Site.z) r k = .ok real ∧
      real.Perm ((sites.filter (fun t => (entryD c.pos t).2.1 ≤ r)).map (entryD c.pos)) ∧
      real.Pairwise (fun a b => a.2.1 ≤ b.2.1) := by
  set ds := distancesFromD flR (sites.map Site.pos) c.pos with hds
  have hdsl : ds.length = sites.length := by simp [hds, distancesFromD]
  have hds' : ds = (sites.map (entryD c.pos)).map (fun e => e.2.1) := by
    simp [hds, distancesFromD, entryD, Function.comp_def]
  set f : ℕ → Option NbrEntry := fun i => sites[i]?.map (entryD c.pos) with hf
  set I := A.run ds with hI
  set E := I.filterMap f with hE
  have hIr : I.Perm (List.range sites.length) := by rw [hI, ← hdsl]; exact A.perm ds
  have hIs : ∀ i ∈ I, (f i).isSome := by
    intro i hi
    have : i < sites.length := List.mem_range.1 (hIr.mem_iff.1 hi)
    simp [hf, this]
  have hEp : E.Perm (sites.map (entryD c.pos)) := by
    rw [← range_filterMap_get]
    exact hIr.filterMap f
  have hEd : E.map (fun e => e.2.1) = I.map (fun i => ds[i]?.getD 0) := by
    rw [hE]
    clear_value I
    clear hE hEp hIr hI
    induction I with
    | nil => rfl
    | cons i I ih =>
      obtain ⟨b, hb⟩ := Option.isSome_iff_exists.1 (hIs i (by simp))
      rw [List.filterMap_cons_some hb, List.map_cons, List.map_cons, ih (fun x hx => hIs x (by simp [hx]))]
      congr 1
      rw [hds', List.getElem?_map, List.getElem?_map]
      simp only [hf] at hb
      rw [hb]
      rfl
  have hEs : E.Pairwise (fun a b => a.2.1 ≤ b.2.1) := by
    have := A.sorted ds
    rw [← hI, ← hEd, List.pairwise_map] at this
    exact this
  have hnum : ds.countP (fun d => d ≤ r) = E.countP (fun e => e.2.1 ≤ r) := by
    rw [hds', List.countP_map, hEp.countP_eq]
    rfl
  refine ⟨E.filter (fun e => e.2.1 ≤ r), ?_, ?_, ?_⟩
  · unfold nbrEntriesD
    rw [pyGet_eq_ok.2 (by rw [List.getElem?_map, hk]; rfl), ok_bind]
    simp only [← hds, ← hI]
    rw [hnum, ← take_countP_sorted _ _ _ hEs, hE, ← filterMap_take_total f I _ hIs, ← hE]
    rw [mapM_eq_ok]
    have hsub : ∀ i ∈ I.take (E.countP (fun e => decide (e.2.1 ≤ r))), (f i).isSome :=
      fun i hi => hIs i (List.mem_of_mem_take hi)
    generalize I.take (E.countP (fun e => decide (e.2.1 ≤ r))) = J at hsub
    induction J with
    | nil => exact .nil
    | cons i J ih =>
      obtain ⟨b, hb⟩ := Option.isSome_iff_exists.1 (hsub i (by simp))
      rw [List.filterMap_cons_some hb]
      refine .cons ?_ (ih (fun x hx => hsub x (by simp [hx])))
      simp only [hf, Option.map_eq_some_iff] at hb
      obtain ⟨t, ht, rfl⟩ := hb
      rw [pyGet_eq_ok.2 (show (sites.map Site.z)[i]? = some t.z by rw [List.getElem?_map, ht]; rfl), ok_bind,
        pyGet_eq_ok.2 (show ds[i]? = some ((entryD c.pos t).2.1) by
          rw [hds', List.getElem?_map, List.getElem?_map, ht]; rfl), ok_bind,
        pyGet_eq_ok.2 (show (sites.map Site.pos)[i]? = some t.pos by rw [List.getElem?_map, ht]; rfl), ok_bind]
      rfl
  · refine (hEp.filter _).trans ?_
    rw [List.filter_map]
    apply List.Perm.of_eq
    rfl
  · exact hEs.filter _

/-- A site of the stored supercell against the exact one. -/
theorem superSorted_near {keep : Matrix (Fin 3) (Fin 3) ℝ → Vec ℝ → Vec ℝ} {s : Struct ℝ} {sc : Fin 3 → ℤ}
    {m : Fin 3 → ℕ} {M δ : ℝ} (hM : CoordsUpTo s m M)
    (hk : KeptWithin (keep (superLatticeD flR s.lattice sc)) (2 * M) δ) :
    ∀ a ∈ superSorted keep s sc m, a.2.z = a.1.z ∧
      ∀ p, |a.1.pos p| ≤ M ∧ |a.2.pos p - a.1.pos p| ≤ δ + 9 * (uR * M) := by
  intro a ha
  have ha' : a ∈ superPairs keep s sc m := (sortByKey_perm _ _).mem_iff.1 ha
  obtain ⟨t, ht, h⟩ := List.mem_flatMap.1 ha'
  obtain ⟨u, hu, rfl⟩ := List.mem_map.1 h
  rw [mem_shiftsZ] at ht
  have h1 := fun p => superPos_near s p (hM u hu p) ht
  refine ⟨rfl, fun p => ⟨(h1 p).2, ?_⟩⟩
  have hM0 : 0 ≤ M := (abs_nonneg _).trans (h1 0).2
  have hu0 := uR_pos
  have hu1 : uR ≤ 1 / 1000 := by rw [uR_eq]; norm_num
  have h2 := hk (fun j => flR (u.pos j + shiftVectorD flR s.lattice (castVec t) j)) (by
    intro q
    have g1 : |_ - _| ≤ 9 * (uR * M) := (h1 q).1
    have g2 := abs_add_le (flR (u.pos q + shiftVectorD flR s.lattice (castVec t) q)
      - (u.pos + ∑ i, (t i : ℝ) • s.lattice i) q) ((u.pos + ∑ i, (t i : ℝ) • s.lattice i) q)
    rw [sub_add_cancel] at g2
    have g3 := (h1 q).2
    nlinarith) p
  have g1 : |_ - _| ≤ 9 * (uR * M) := (h1 p).1
  have g2 := abs_add_le (keep (superLatticeD flR s.lattice sc)
      (fun j => flR (u.pos j + shiftVectorD flR s.lattice (castVec t) j)) p
    - flR (u.pos p + shiftVectorD flR s.lattice (castVec t) p))
    (flR (u.pos p + shiftVectorD flR s.lattice (castVec t) p) - (u.pos + ∑ i, (t i : ℝ) • s.lattice i) p)
  rw [sub_add_sub_cancel] at g2
  show |keep (superLatticeD flR s.lattice sc)
      (fun j => flR (u.pos j + shiftVectorD flR s.lattice (castVec t) j)) p
    - (u.pos + ∑ i, (t i : ℝ) • s.lattice i) p| ≤ _
  linarith

/-- What is proved about one row. -/
def RowD (S : Struct ℝ) (n : ℕ) (r η τ : ℝ) (c : Site ℝ) (real : List NbrEntry) : Prop :=
  real.Pairwise (fun a b => a.2.1 ≤ b.2.1) ∧ real.length ≤ n ∧
  ∃ (atoms sub : List (Site ℝ)),
    List.Forall₂ (fun (e : NbrEntry) (t : Site ℝ) => e.1 = t.z ∧ |e.2.1 - dist3 t.pos c.pos| ≤ τ ∧
      ∀ p, |e.2.2 p - t.pos p| ≤ η) real atoms ∧ atoms.Perm sub ∧
    (within S c.pos (r - τ)).Sublist sub ∧ sub.Sublist (within S c.pos (r + τ))

theorem rowD_aux {S SD : Struct ℝ} {P : List (Site ℝ × Site ℝ)} (hS : S.sites = P.map Prod.fst)
    (hSD : SD.sites = P.map Prod.snd) {η τ r : ℝ} {c : Vec ℝ} {E : Site ℝ → NbrEntry}
    (hE1 : ∀ t, (E t).1 = t.z) (hE2 : ∀ t, (E t).2.2 = t.pos)
    (hnear : ∀ a ∈ P, a.2.z = a.1.z ∧ ∀ p, |a.2.pos p - a.1.pos p| ≤ η)
    (hdist : ∀ b ∈ P, |(E b.2).2.1 - dist3 b.1.pos c| ≤ τ) {real : List NbrEntry}
    (g2 : real.Perm ((SD.sites.filter (fun t => (E t).2.1 ≤ r)).map E)) :
    ∃ (atoms sub : List (Site ℝ)),
      List.Forall₂ (fun (e : NbrEntry) (t : Site ℝ) => e.1 = t.z ∧ |e.2.1 - dist3 t.pos c| ≤ τ ∧
        ∀ p, |e.2.2 p - t.pos p| ≤ η) real atoms ∧ atoms.Perm sub ∧
      (within S c (r - τ)).Sublist sub ∧ sub.Sublist (within S c (r + τ)) := by
  have g4 : (SD.sites.filter (fun t => (E t).2.1 ≤ r)).map E
      = (P.filter (fun b => (E b.2).2.1 ≤ r)).map (fun b => E b.2) := by
    rw [hSD, List.filter_map, List.map_map]
    rfl
  rw [g4] at g2
  obtain ⟨Q, q1, q2⟩ := List.perm_comp_forall₂ g2
    (show List.Forall₂ (fun e b => e = E b.2)
      ((P.filter (fun b => (E b.2).2.1 ≤ r)).map (fun b => E b.2))
      (P.filter (fun b => (E b.2).2.1 ≤ r)) from
      List.forall₂_map_left_iff.2 (List.forall₂_same.2 (fun _ _ => rfl)))
  refine ⟨Q.map Prod.fst, (P.filter (fun b => (E b.2).2.1 ≤ r)).map Prod.fst, ?_, q2.map _, ?_, ?_⟩
  · rw [List.forall₂_map_right_iff]
    have hQ : ∀ b ∈ Q, b ∈ P := fun b hb => (List.mem_filter.1 (q2.mem_iff.1 hb)).1
    clear g2 q2
    induction q1 with
    | nil => exact .nil
    | @cons e b es bs he _ ih =>
      have hb := hQ b (by simp)
      refine .cons ⟨?_, ?_, ?_⟩ (ih (fun x hx => hQ x (by simp [hx])))
      · rw [he]
        rw [hE1]
        exact (hnear b hb).1
      · rw [he]
        exact hdist b hb
      · intro p
        rw [he]
        rw [hE2]
        exact (hnear b hb).2 p
  · unfold within
    rw [hS, List.filter_map]
    refine List.Sublist.map _ ?_
    have e : P.filter ((fun t : Site ℝ => decide (dist3 t.pos c ≤ r - τ)) ∘ Prod.fst)
        = (P.filter (fun b => (E b.2).2.1 ≤ r)).filter
          ((fun t : Site ℝ => decide (dist3 t.pos c ≤ r - τ)) ∘ Prod.fst) := by
      rw [List.filter_filter]
      refine List.filter_congr fun b hb => ?_
      have := (abs_le.1 (hdist b hb)).2
      simp only [Function.comp_apply]
      by_cases hb' : dist3 b.1.pos c ≤ r - τ
      · have : (E b.2).2.1 ≤ r := by linarith
        simp [hb', this]
      · simp [hb']
    rw [e]
    exact List.filter_sublist
  · unfold within
    rw [hS, List.filter_map]
    refine List.Sublist.map _ ?_
    have e : P.filter (fun b => (E b.2).2.1 ≤ r)
        = (P.filter ((fun t : Site ℝ => decide (dist3 t.pos c ≤ r + τ)) ∘ Prod.fst)).filter
          (fun b => (E b.2).2.1 ≤ r) := by
      rw [List.filter_filter]
      refine List.filter_congr fun b hb => ?_
      have := (abs_le.1 (hdist b hb)).1
      simp only [Function.comp_apply]
      by_cases hb' : (E b.2).2.1 ≤ r
      · have : dist3 b.1.pos c ≤ r + τ := by linarith
        simp [hb', this]
      · simp [hb']
    rw [e]
    exact List.filter_sublist

theorem rowD_spec (A : ArgSort) {S SD : Struct ℝ} {P : List (Site ℝ × Site ℝ)} (hS : S.sites = P.map Prod.fst)
    (hSD : SD.sites = P.map Prod.snd) {M δ : ℝ}
    (hnear : ∀ a ∈ P, a.2.z = a.1.z ∧ ∀ p, |a.1.pos p| ≤ M ∧ |a.2.pos p - a.1.pos p| ≤ δ + 9 * (uR * M))
    (hδ : 0 ≤ δ) (hδM : 2 * δ ≤ M) (r : ℝ) {k : ℕ} {c : Site ℝ} (hc' : S.sites[k]? = some c) :
    ∃ real, nbrEntriesD flR A (SD.sites.map Site.pos) (SD.sites.map Site.z) r k = .ok real ∧
      RowD S SD.sites.length r (δ + 9 * (uR * M)) (6 * (δ + 9 * (uR * M)) + 72 * (uR * M)) c real := by
  have hu0 := uR_pos
  have hu1 : uR ≤ 1 / 1000 := by rw [uR_eq]; norm_num
  generalize hηd : δ + 9 * (uR * M) = η at hnear ⊢
  generalize hτd : 6 * η + 72 * (uR * M) = τ
  rw [hS, List.getElem?_map, Option.map_eq_some_iff] at hc'
  obtain ⟨a, ha, rfl⟩ := hc'
  have haP := hnear a (List.mem_of_getElem? ha)
  have hM0 : 0 ≤ M := (abs_nonneg _).trans (haP.2 0).1
  have huM : 0 ≤ uR * M := mul_nonneg hu0.le hM0
  have hη0 : 0 ≤ η := by rw [← hηd]; linarith
  have hηM : η ≤ M := by rw [← hηd]; nlinarith
  obtain ⟨real, g1, g2, g3⟩ := nbrEntriesD_spec A SD.sites r k a.2 (by rw [hSD, List.getElem?_map, ha]; rfl)
  have hdist : ∀ b ∈ P, |(entryD a.2.pos b.2).2.1 - dist3 b.1.pos a.1.pos| ≤ τ := by
    intro b hb
    have hbP := hnear b hb
    rw [← hτd]
    exact lengthD_near hη0 hηM (fun p => (hbP.2 p).1) (fun p => (haP.2 p).1) (fun p => (hbP.2 p).2)
      (fun p => (haP.2 p).2)
  refine ⟨real, g1, g3, ?_, rowD_aux hS hSD (fun _ => rfl) (fun _ => rfl)
    (fun b hb => ⟨(hnear b hb).1, fun p => ((hnear b hb).2 p).2⟩) hdist g2⟩
  rw [g2.length_eq, List.length_map]
  exact List.length_filter_le _ _

/-- Where the entries of a row come from. -/
theorem neighborTableD_rows (A : ArgSort) (s : Struct ℝ) (r : ℝ) {m : Fin 3 → ℕ} (hm : ∀ i, m i ≤ 2 ^ 52)
    {sc : Fin 3 → ℤ} (h : ∀ i, sc i = 2 * (m i : ℤ) + 1) :
    ∃ table, neighborTableD flR keep A s r sc = .ok table ∧
      List.Forall₂ (fun (c : Site ℝ) row => ∃ a ∈ superPairs keep s sc m, a.1.z = c.z ∧ a.1.pos = c.pos ∧
        ∀ e ∈ row, e = zeroEntry ∨ ∃ b ∈ superPairs keep s sc m, e = entryD a.2.pos b.2 ∧ e.2.1 ≤ r)
        s.reformat_.sites table := by
  obtain ⟨keys, S, h1, h2, _, h3⟩ := keys_sites s sc m h
  have hS := superSorted_exact keep s h h2
  obtain ⟨SD, h4, hSD⟩ := superSorted_stored keep s hm h
  have hmem : ∀ a, a ∈ superSorted keep s sc m → a ∈ superPairs keep s sc m := fun a ha =>
    (sortByKey_perm _ _).mem_iff.1 ha
  obtain ⟨rows, h5, h6⟩ := forall₂_mapM_ok
    (f := nbrEntriesD flR A (SD.sites.map Site.pos) (SD.sites.map Site.z) r)
    (R := fun (c : Site ℝ) real => ∃ a ∈ superPairs keep s sc m, a.1.z = c.z ∧ a.1.pos = c.pos ∧
        ∀ e ∈ real, ∃ b ∈ superPairs keep s sc m, e = entryD a.2.pos b.2 ∧ e.2.1 ≤ r) h3 (by
    rintro c k ⟨c', hc', hz, hp⟩
    rw [hS, List.getElem?_map, Option.map_eq_some_iff] at hc'
    obtain ⟨a, ha, rfl⟩ := hc'
    obtain ⟨real, g1, g2, _⟩ := nbrEntriesD_spec A SD.sites r k a.2 (by rw [hSD, List.getElem?_map, ha]; rfl)
    refine ⟨real, g1, a, hmem _ (List.mem_of_getElem? ha), hz, hp, fun e he => ?_⟩
    obtain ⟨t, ht, rfl⟩ := List.mem_map.1 (g2.mem_iff.1 he)
    obtain ⟨ht, htr⟩ := List.mem_filter.1 ht
    rw [hSD] at ht
    obtain ⟨b, hb, rfl⟩ := List.mem_map.1 ht
    exact ⟨b, hmem _ hb, rfl, of_decide_eq_true htr⟩)
  refine ⟨rows.map (fun r => (r ++ List.replicate ((SD.sites.map Site.z).length - r.length)
    zeroEntry).take (runningMax (rows.map List.length))), ?_, ?_⟩
  · unfold neighborTableD
    rw [h4, ok_bind, getKeyIdxsD_eq keep s hm h, h1, ok_bind]
    unfold keyNeighsInfoD
    rw [h5, ok_bind]
    rfl
  · apply forall₂_map_right'
    refine h6.imp ?_
    rintro c real ⟨a, g1, g2, g3, g4⟩
    refine ⟨a, g1, g2, g3, fun e he => ?_⟩
    rcases List.mem_append.1 (List.mem_of_mem_take he) with he | he
    · exact .inr (g4 e he)
    · exact .inl (List.eq_of_mem_replicate he)

/-! ## Two atoms exactly at the cutoff -/

/-- Two atoms in a cubic cell of edge 16, one right at the lower face, one a unit below the upper face. -/
noncomputable def cutCell : Struct ℝ :=
  ⟨Matrix.diagonal (fun _ => 16), [⟨8, ![15, 0, 0], none⟩, ⟨14, ![3 * 2 ^ (-50 : ℤ), 0, 0], none⟩]⟩

/-- The distance of the first atom and an image of the second. -/
noncomputable def cutR : ℝ := 1 + 3 * 2 ^ (-50 : ℤ)

theorem cutR_double : flR cutR = cutR := by
  have h := flR_int_mul (2 ^ 50 + 3) (by norm_num) (-50)
  have e : (((2 ^ 50 + 3 : ℤ) : ℝ)) * (2 : ℝ) ^ (-50 : ℤ) = cutR := by
    unfold cutR
    rw [zpow_neg]
    norm_num
  rwa [e] at h

theorem cutPos_double : flR (3 * 2 ^ (-50 : ℤ)) = 3 * 2 ^ (-50 : ℤ) := by
  have h := flR_int_mul 3 (by norm_num) (-50)
  exact_mod_cast h

theorem cut_up : flR (3 * 2 ^ (-50 : ℤ) + 16) = 16 + 2 ^ (-48 : ℤ) := by
  have e : (3 * 2 ^ (-50 : ℤ) + 16 : ℝ) = (((3 / 2 ^ 50 + 16 : ℚ)) : ℝ) := by
    push_cast; rw [zpow_neg]; norm_num
  rw [e, flR_cast]
  have : fl (3 / 2 ^ 50 + 16) = 16 + 1 / 2 ^ 48 := by decide +kernel
  rw [this]
  push_cast
  rw [zpow_neg]
  norm_num

/-- The computed first coordinate of the shift. -/
theorem cut_shift (t : Fin 3 → ℤ) (ht : ∀ i, |t i| ≤ 1) :
    shiftVectorD flR cutCell.lattice (castVec t) 0 = 16 * (t 0 : ℝ) := by
  have h0 := ht 0
  have e : flR ((t 0 : ℝ) * 16) = 16 * (t 0 : ℝ) := by
    have := flR_int (t 0 * 16) (by
      rw [abs_mul]
      have : |t 0| * |(16 : ℤ)| ≤ 1 * 16 := by
        simpa using h0
      norm_num at this ⊢
      omega)
    push_cast at this
    rw [this]; ring
  have e' : flR (16 * (t 0 : ℝ)) = 16 * (t 0 : ℝ) := by rw [← e, flR_flR]
  simp [shiftVectorD, cutCell, castVec, flR_zero, e, e']

end MaterSDK
