import Verif.Spec.MtpCrystal
import Verif.Lemmas.CrystalCpp
import Verif.Lemmas.MtpMomentAux

/-! # Helper lemmas for C181 -/

namespace MaterSDK

open Classical

/-! ### Basis functions as functions of types and relative positions -/

/-- The factor of a neighbour of type `t` at `r`. -/
noncomputable def relWeight (P : MtpParams) (mu : ℕ) (zi t : ℤ) (r : Vec ℝ) : ℝ :=
  torchDot (P.coeffs.getD ((mu : ℤ) * P.ntypes * P.ntypes + zi * P.ntypes + t).toNat [])
    ((mtpQ P.size P.rcut P.rs (mtpDist r)).map Prod.fst)

/-- The moment of a list of types and relative positions. -/
noncomputable def relMoment (P : MtpParams) (mu nu : ℕ) (zi : ℤ) (rels : List (ℤ × Vec ℝ)) (idx : List (Fin 3)) : ℝ :=
  (rels.map (fun x => relWeight P mu zi x.1 x.2 * angularPow x.2 nu idx)).sum

theorem momentRow_rel {P : MtpParams} {nmus mu : ℕ} {types : List ℤ} {zi t : ℤ} {e : ℤ × Vec ℝ}
    (hc : P.coeffs.length = nmus * P.ntypes * P.ntypes) (hmu : mu < nmus)
    (hzi : 0 ≤ zi ∧ zi < P.ntypes) (ht : 0 ≤ t ∧ t < P.ntypes) (he : torchGet types e.1 = .ok t) :
    momentRow P mu types zi e = .ok (relWeight P mu zi t e.2, e.2) := by
  unfold momentRow
  rw [he, ok_bind]
  obtain ⟨a, ha⟩ := Int.eq_ofNat_of_zero_le hzi.1
  obtain ⟨b, hb⟩ := Int.eq_ofNat_of_zero_le ht.1
  have ha2 : a < P.ntypes := by have := hzi.2; omega
  have hb2 : b < P.ntypes := by have := ht.2; omega
  have hk : ((mu : ℤ) * P.ntypes * P.ntypes + zi * P.ntypes + t)
      = ((mu * P.ntypes * P.ntypes + a * P.ntypes + b : ℕ) : ℤ) := by
    rw [ha, hb]
    push_cast
    rfl
  have hlt : mu * P.ntypes * P.ntypes + a * P.ntypes + b < P.coeffs.length := by
    rw [hc]
    exact tableIdx_lt hmu ha2 hb2
  unfold paramGet relWeight
  rw [hk, if_pos (Int.natCast_nonneg _), Int.toNat_natCast, List.getElem?_eq_getElem hlt, ok_bind]
  simp [List.getD, hlt]
  rfl

theorem moment_items {ι : Type} {P : MtpParams} {nmus mu : ℕ} (nu : ℕ) {types : List ℤ} {i zi : ℤ} {items : List ι}
    {a : ι → ℤ} {b : ι → Vec ℝ} {g : ι → ℤ}
    (hc : P.coeffs.length = nmus * P.ntypes * P.ntypes) (hmu : mu < nmus)
    (hzi : 0 ≤ zi ∧ zi < P.ntypes) (hi : torchGet types i = .ok zi)
    (hg : ∀ x ∈ items, torchGet types (a x) = .ok (g x) ∧ 0 ≤ g x ∧ g x < P.ntypes) :
    mtpMoment P mu nu i (items.map a) types (items.map b)
      = .ok { dim := nu, val := relMoment P mu nu zi (items.map (fun x => (g x, b x))) } := by
  unfold mtpMoment
  have hz : List.zip (items.map a) (items.map b) = items.map (fun x => (a x, b x)) := by
    rw [List.zip_map']
  have hrows : items.mapM (fun x => momentRow P mu types zi (a x, b x))
      = .ok (items.map (fun x => (relWeight P mu zi (g x) (b x), b x))) := by
    refine mapM_map_ok ?_
    intro x hx
    exact momentRow_rel (e := (a x, b x)) hc hmu hzi (hg x hx).2 (hg x hx).1
  rw [hi, ok_bind, if_neg (by simp), hz, mapM_map_eq, hrows, ok_bind]
  unfold relMoment
  simp only [List.map_map]
  rfl

/-- Basis function of a centre of type `zi` with neighbours of given types and relative positions. -/
noncomputable def relBasis (P : MtpParams) (zi : ℤ) (rels : List (ℤ × Vec ℝ)) (comb : List (ℕ × ℕ)) : Except CErr ℝ :=
  mtpBasis P 0 ((List.range rels.length).map (fun k : ℕ => (k : ℤ) + 1)) (zi :: rels.map Prod.fst)
    (rels.map Prod.snd) comb

theorem relBasis_moment {P : MtpParams} {nmus mu : ℕ} (nu : ℕ) {zi : ℤ} {rels : List (ℤ × Vec ℝ)}
    (hc : P.coeffs.length = nmus * P.ntypes * P.ntypes) (hmu : mu < nmus) (hzi : 0 ≤ zi ∧ zi < P.ntypes)
    (hr : ∀ x ∈ rels, 0 ≤ x.1 ∧ x.1 < P.ntypes) :
    mtpMoment P mu nu 0 ((List.range rels.length).map (fun k : ℕ => (k : ℤ) + 1)) (zi :: rels.map Prod.fst)
      (rels.map Prod.snd) = .ok { dim := nu, val := relMoment P mu nu zi rels } := by
  have h := moment_items (ι := (ℤ × Vec ℝ) × ℕ) nu (types := zi :: rels.map Prod.fst) (i := 0) (zi := zi)
    (items := rels.zipIdx)
    (a := fun x => (x.2 : ℤ) + 1) (b := fun x => x.1.2) (g := fun x => x.1.1) hc hmu hzi
    (torchGet_nat (i := 0) (by simp)) (by
      intro x hx
      obtain ⟨hlt, hxe⟩ := List.getElem?_eq_some_iff.1 (List.mem_zipIdx_iff_getElem?.1 hx)
      have h2 := torchGet_nat (l := zi :: rels.map Prod.fst) (i := x.2 + 1) (by simpa using hlt)
      refine ⟨?_, hr x.1 (hxe ▸ List.getElem_mem hlt)⟩
      rw [Nat.cast_add, Nat.cast_one] at h2
      rw [h2]
      simp [hxe])
  have e1 : rels.zipIdx.map (fun x => (x.2 : ℤ) + 1) = (List.range rels.length).map (fun k : ℕ => (k : ℤ) + 1) := by
    apply List.ext_getElem <;> simp
  have e2 : rels.zipIdx.map (fun x => x.1.2) = rels.map Prod.snd := by
    apply List.ext_getElem <;> simp
  have e3 : rels.zipIdx.map (fun x => (x.1.1, x.1.2)) = rels := by
    apply List.ext_getElem <;> simp
  rw [e1, e2, e3] at h
  exact h

theorem bLoop_same {P : MtpParams} {i i' : ℤ} {types types' : List ℤ} {f f' : List ℤ} {x x' : List (Vec ℝ)}
    {comb : List (ℕ × ℕ)} (h : ∀ c ∈ comb, mtpMoment P c.1 c.2 i f types x = mtpMoment P c.1 c.2 i' f' types' x')
    (p : Tens) : mtpBLoop P i f types x p comb = mtpBLoop P i' f' types' x' p comb := by
  induction comb generalizing p with
  | nil => rfl
  | cons c cs ih =>
    unfold mtpBLoop
    rw [h c (by simp)]
    refine bind_congr ?_
    intro m
    refine bind_congr ?_
    intro q
    exact ih (fun c hc => h c (by simp [hc])) q

theorem basis_items {ι : Type} {P : MtpParams} {nmus : ℕ} {types : List ℤ} {i zi : ℤ} {items : List ι}
    {a : ι → ℤ} {b : ι → Vec ℝ} {g : ι → ℤ} {comb : List (ℕ × ℕ)}
    (hc : P.coeffs.length = nmus * P.ntypes * P.ntypes) (hmu : ∀ c ∈ comb, c.1 < nmus)
    (hzi : 0 ≤ zi ∧ zi < P.ntypes) (hi : torchGet types i = .ok zi)
    (hg : ∀ x ∈ items, torchGet types (a x) = .ok (g x) ∧ 0 ≤ g x ∧ g x < P.ntypes) :
    mtpBasis P i (items.map a) types (items.map b) comb = relBasis P zi (items.map (fun x => (g x, b x))) comb := by
  unfold relBasis mtpBasis
  rw [bLoop_same]
  intro c hcm
  rw [moment_items c.2 hc (hmu c hcm) hzi hi hg, relBasis_moment c.2 hc (hmu c hcm) hzi]
  intro x hx
  obtain ⟨y, hy, rfl⟩ := List.mem_map.1 hx
  exact (hg y hy).2

theorem relMoment_filter (P : MtpParams) (mu nu : ℕ) (zi : ℤ) (rels : List (ℤ × Vec ℝ)) (idx : List (Fin 3)) :
    relMoment P mu nu zi (rels.filter (fun x => decide (dist3 x.2 0 < P.rcut))) idx = relMoment P mu nu zi rels idx := by
  unfold relMoment
  induction rels with
  | nil => rfl
  | cons x rels ih =>
    by_cases hx : dist3 x.2 0 < P.rcut
    · rw [List.filter_cons_of_pos (by simpa using hx), List.map_cons, List.map_cons, List.sum_cons, List.sum_cons, ih]
    · rw [List.filter_cons_of_neg (by simpa using hx), List.map_cons, List.sum_cons, ih]
      have hd : mtpDist x.2 = dist3 x.2 0 := by
        unfold mtpDist dist3
        simp [Fin.sum_univ_three]
      have : relWeight P mu zi x.1 x.2 = 0 := by
        unfold relWeight
        rw [hd, mtpQ_out P.size (Or.inr (not_lt.1 hx)), List.map_replicate]
        unfold torchDot
        rw [List.sum_eq_zero]
        intro z hz
        obtain ⟨i, hi⟩ := List.mem_iff_getElem.1 hz
        obtain ⟨hi, rfl⟩ := hi
        simp
      rw [this, zero_mul, zero_add]

theorem relBasis_perm {P : MtpParams} {nmus : ℕ} {zi : ℤ} {rels rels' : List (ℤ × Vec ℝ)} {comb : List (ℕ × ℕ)}
    (hc : P.coeffs.length = nmus * P.ntypes * P.ntypes) (hmu : ∀ c ∈ comb, c.1 < nmus)
    (hzi : 0 ≤ zi ∧ zi < P.ntypes) (hr : ∀ x ∈ rels, 0 ≤ x.1 ∧ x.1 < P.ntypes)
    (hr' : ∀ x ∈ rels', 0 ≤ x.1 ∧ x.1 < P.ntypes)
    (hp : (rels'.filter (fun x => decide (dist3 x.2 0 < P.rcut))).Perm
      (rels.filter (fun x => decide (dist3 x.2 0 < P.rcut)))) :
    relBasis P zi rels' comb = relBasis P zi rels comb := by
  unfold relBasis mtpBasis
  rw [bLoop_same]
  intro c hcm
  rw [relBasis_moment c.2 hc (hmu c hcm) hzi hr, relBasis_moment c.2 hc (hmu c hcm) hzi hr']
  refine congrArg (fun v => Except.ok (Tens.mk c.2 v)) ?_
  funext idx
  rw [← relMoment_filter P c.1 c.2 zi rels', ← relMoment_filter P c.1 c.2 zi rels]
  exact (hp.map _).sum_eq

theorem relBasis_rot {Q : Matrix (Fin 3) (Fin 3) ℝ} (hQ : Q.transpose * Q = 1) (P : MtpParams) (zi : ℤ)
    (rels : List (ℤ × Vec ℝ)) (comb : List (ℕ × ℕ)) :
    relBasis P zi (rels.map (fun x => (x.1, Q.mulVec x.2))) comb = relBasis P zi rels comb := by
  unfold relBasis
  rw [List.length_map, List.map_map, List.map_map]
  have h := basis_rot hQ P 0 ((List.range rels.length).map (fun k : ℕ => (k : ℤ) + 1)) (zi :: rels.map Prod.fst)
    (rels.map Prod.snd) comb
  rw [List.map_map] at h
  exact h

/-! ### Tables -/

theorem coordRows_append {ι : Type} (items : List ι) (f : ι → Vec ℝ) (l : List ℝ) :
    coordRows (items.flatMap (fun x => [f x 0, f x 1, f x 2]) ++ l) = items.map f ++ coordRows l := by
  induction items with
  | nil => rfl
  | cons x items ih =>
    have e : (![f x 0, f x 1, f x 2] : Vec ℝ) = f x := by
      funext i
      fin_cases i <;> rfl
    rw [List.flatMap_cons, List.append_assoc, List.map_cons]
    show (![f x 0, f x 1, f x 2] : Vec ℝ) :: coordRows (items.flatMap (fun x => [f x 0, f x 1, f x 2]) ++ l) = f x :: (items.map f ++ coordRows l)
    rw [ih, e]

theorem coordRows_zeros (k : ℕ) : coordRows (List.replicate (k * 3) 0) = List.replicate k (0 : Vec ℝ) := by
  induction k with
  | zero => rfl
  | succ k ih =>
    rw [Nat.succ_mul, List.replicate_succ, List.replicate_succ, List.replicate_succ, List.replicate_succ, ← ih]
    show ![(0 : ℝ), 0, 0] :: _ = _
    congr 1
    funext i
    fin_cases i <;> rfl

/-- One input: tables and basis functions exist, and the basis functions of an atom are those of its
neighbours in the crystal. -/
theorem mtp_core (A : ArgSort) (L : Fin 3 → Vec ℝ) (atoms : List (ℤ × Vec ℝ)) (rc : ℝ) (hr : 0 < rc) (sort : Bool)
    (hok : CellOk L atoms (fun _ => true)) (hap : ApartImages L (atoms.map Prod.snd)) (P : MtpParams)
    (combs : List (List (ℕ × ℕ))) (nmus : ℕ) (hc : P.coeffs.length = nmus * P.ntypes * P.ntypes)
    (hmu : ∀ comb ∈ combs, ∀ c ∈ comb, c.1 < nmus)
    (hdim : ∀ comb ∈ combs, dimRun 0 (comb.map Prod.snd) = some 0)
    (hty : ∀ a ∈ atoms, 0 ≤ a.1 ∧ a.1 < P.ntypes) (hrs : 0 < P.rs) (w : ℕ)
    (hroom : CrystalSlots (typedCrystal L atoms) w rc) :
    ∃ N info out, NbrLists.make A (CStruct.make L atoms true) rc (fun _ => true) sort = .ok N ∧
      N.findInfo w = .ok info ∧ mtpOfTables P combs info w = .ok [out] ∧ out.length = atoms.length ∧
      ∀ (i : ℕ) (c : ℤ × Vec ℝ), atoms[i]? = some c → ∃ rels : List (ℤ × Vec ℝ), rels.Nodup ∧
        (∀ x : ℤ × Vec ℝ, x ∈ rels ↔
          (x.1, c.2 + x.2) ∈ typedCrystal L atoms ∧ x.2 ≠ 0 ∧ dist3 x.2 0 < rc) ∧
        ∃ vs, out[i]? = some vs ∧ combs.mapM (relBasis P c.1 rels) = .ok vs := by
  obtain ⟨N, h1, h2, _, I, h4, h5, _, h6⟩ := nbr_exact A L atoms rc (fun _ => true) sort hok hr
  have hIlen : I.length = atoms.length := by
    rw [← h2, ← List.length_map (f := List.length) (as := N.lists), h4, List.length_map]
  have hmem : ∀ (i : ℕ) (c : ℤ × Vec ℝ), atoms[i]? = some c → ∃ imgs, I[i]? = some imgs ∧ imgs.Nodup ∧
      (∀ e, e ∈ imgs ↔ NearBy L (fun _ => true) (atoms.map Prod.snd) rc c.2 e ∧ e ≠ (i, 0)) := by
    intro i c hc
    obtain ⟨imgs, g1, g2, g3, _⟩ := h5 i c hc
    have hci : (atoms.map Prod.snd)[i]? = some c.2 := by rw [List.getElem?_map, hc]; rfl
    refine ⟨imgs, g1, g2, ?_⟩
    intro e
    rw [g3]
    constructor
    · rintro ⟨k1, k2⟩
      refine ⟨k1, ?_⟩
      rintro rfl
      have := k2 c.2 hci
      rw [imagePos_zero, dist3_sq_comp] at this
      norm_num at this
    · rintro ⟨k1, k2⟩
      exact ⟨k1, fun p hp => hap i e.1 c.2 p e.2 hci hp k2⟩
  have hfit : ∀ imgs ∈ I, imgs.length ≤ w := by
    intro imgs himgs
    obtain ⟨i, hi⟩ := List.mem_iff_getElem?.1 himgs
    have hlt : i < atoms.length := by rw [← hIlen]; exact (List.getElem?_eq_some_iff.1 hi).1
    obtain ⟨imgs', g1, g2, g3⟩ := hmem i _ (List.getElem?_eq_getElem hlt)
    rw [hi] at g1; cases g1
    obtain ⟨n1, n2⟩ := rels_mem L atoms rc hap i _ (List.getElem?_eq_getElem hlt) imgs g2 g3
    have hx0 : (atoms[i].1, atoms[i].2) ∈ typedCrystal L atoms := ⟨atoms[i], List.getElem_mem hlt, 0, by simp⟩
    have := hroom _ hx0 ((imgs.map (imageRel L atoms atoms[i].2)).map (fun x => (x.1, atoms[i].2 + x.2)))
      (n1.map (fun x y h => by
        rw [Prod.mk.injEq] at h
        exact Prod.ext h.1 (add_left_cancel h.2))) (by
        intro y hy
        obtain ⟨x, hx, rfl⟩ := List.mem_map.1 hy
        obtain ⟨m1, m2, m3⟩ := (n2 x).1 hx
        refine ⟨m1, ?_, ?_⟩
        · intro h
          exact m2 (by simpa using h)
        · show dist3 (atoms[i].2 + x.2) atoms[i].2 < rc
          rw [dist3_rel, add_sub_cancel_left]
          exact m3)
    simpa using this
  obtain ⟨info, k1, k2, k3, k4, _, _, k7⟩ := h6 w hfit
  -- the rows of one atom
  have hrow : ∀ (i : ℕ) (c : ℤ × Vec ℝ), atoms[i]? = some c → ∃ rels : List (ℤ × Vec ℝ), rels.Nodup ∧
      (∀ x : ℤ × Vec ℝ, x ∈ rels ↔
        (x.1, c.2 + x.2) ∈ typedCrystal L atoms ∧ x.2 ≠ 0 ∧ dist3 x.2 0 < rc) ∧
      ∀ comb ∈ combs, mtpBasis P (i : ℤ) (flatRow info.firstneigh w i) info.types
        (coordRows (flatRow info.rel (w * 3) i)) comb = relBasis P c.1 rels comb := by
    intro i c hci
    obtain ⟨imgs, g1, g2, g3⟩ := hmem i c hci
    obtain ⟨n1, n2⟩ := rels_mem L atoms rc hap i c hci imgs g2 g3
    refine ⟨_, n1, n2, ?_⟩
    intro comb hcomb
    obtain ⟨r1, r2⟩ := k7 i c imgs hci g1
    have hatom : ∀ e ∈ imgs, ∃ a, atoms[e.1]? = some a ∧ imageRel L atoms c.2 e = (a.1, imagePos L a.2 e.2 - c.2) ∧
        relCoords L (atoms.map Prod.snd) c.2 e = [(imageRel L atoms c.2 e).2 0, (imageRel L atoms c.2 e).2 1,
          (imageRel L atoms c.2 e).2 2] := by
      intro e he
      obtain ⟨⟨_, p, hp, hd⟩, _⟩ := (g3 e).1 he
      have hp' := hp
      rw [List.getElem?_map] at hp
      obtain ⟨a, ha, rfl⟩ := Option.map_eq_some_iff.1 hp
      refine ⟨a, ha, by unfold imageRel; rw [ha], ?_⟩
      unfold relCoords imageRel
      rw [hp', ha]
      rfl
    have hfm : imgs.flatMap (relCoords L (atoms.map Prod.snd) c.2)
        = imgs.flatMap (fun e => [(imageRel L atoms c.2 e).2 0, (imageRel L atoms c.2 e).2 1,
          (imageRel L atoms c.2 e).2 2]) :=
      List.flatMap_congr (fun e he => (hatom e he).choose_spec.2.2)
    rw [r1, r2, hfm, coordRows_append imgs (fun e => (imageRel L atoms c.2 e).2), coordRows_zeros]
    have htyp : ∀ t ∈ info.types, 0 ≤ t ∧ t < P.ntypes := by
      intro t ht
      rw [k4] at ht
      obtain ⟨a, ha, rfl⟩ := List.mem_map.1 ht
      exact hty a ha
    have hlen : info.types.length = atoms.length := by rw [k4, List.length_map]
    have hpos : 0 < atoms.length := List.length_pos_iff.2 hok.nonempty
    have hget : ∀ (j : ℕ) (a : ℤ × Vec ℝ), atoms[j]? = some a → torchGet info.types (j : ℤ) = .ok a.1 := by
      intro j a hj
      obtain ⟨hlt, hje⟩ := List.getElem?_eq_some_iff.1 hj
      rw [torchGet_nat (by omega)]
      simp [k4, hje]
    have hpad : mtpBasis P (i : ℤ) (imgs.map (fun e => (e.1 : ℤ)) ++ List.replicate (w - imgs.length) (-1)) info.types
        (imgs.map (fun e => (imageRel L atoms c.2 e).2) ++ List.replicate (w - imgs.length) 0) comb
        = mtpBasis P (i : ℤ) (imgs.map (fun e => (e.1 : ℤ))) info.types
          (imgs.map (fun e => (imageRel L atoms c.2 e).2)) comb := by
      unfold mtpBasis
      rw [bLoop_congr]
      intro q hq
      refine moment_pad q.2 _ (by simp) (by simp) hc (hmu comb hcomb q hq) htyp ?_ ?_
      · intro j hj
        rw [List.eq_of_mem_replicate hj]
        omega
      · intro r hr'
        rw [List.eq_of_mem_replicate hr']
        left
        simpa [norm3] using hrs
    rw [hpad, basis_items (g := fun e => (imageRel L atoms c.2 e).1) (zi := c.1) hc (hmu comb hcomb)
      (hty c (List.mem_of_getElem? hci)) (hget i c hci)]
    intro e he
    obtain ⟨a, ha, he1, _⟩ := hatom e he
    rw [he1]
    exact ⟨hget e.1 a ha, hty a (List.mem_of_getElem? ha)⟩
  have hvals : ∀ (i : ℕ) (c : ℤ × Vec ℝ) (rels : List (ℤ × Vec ℝ)), atoms[i]? = some c →
      (∀ x : ℤ × Vec ℝ, x ∈ rels ↔
        (x.1, c.2 + x.2) ∈ typedCrystal L atoms ∧ x.2 ≠ 0 ∧ dist3 x.2 0 < rc) →
      ∃ vs, combs.mapM (relBasis P c.1 rels) = .ok vs := by
    intro i c rels hci hrels
    have hrt : ∀ x ∈ rels, 0 ≤ x.1 ∧ x.1 < P.ntypes := by
      intro x hx
      obtain ⟨⟨a, ha, n, hn⟩, _⟩ := (hrels x).1 hx
      rw [Prod.mk.injEq] at hn
      rw [hn.1]
      exact hty a ha
    have hone : ∀ comb ∈ combs, ∃ v, relBasis P c.1 rels comb = .ok v := by
      intro comb hcomb
      obtain ⟨t, t1, t2⟩ := bLoop_ok (P := P) (iidx := 0)
        (ifirst := (List.range rels.length).map (fun k : ℕ => (k : ℤ) + 1)) (types := c.1 :: rels.map Prod.fst)
        (rcs := rels.map Prod.snd) (p := { dim := 0, val := fun _ => 1 }) (comb := comb) (d := 0)
        (fun q hq => ⟨_, relBasis_moment q.2 hc (hmu comb hcomb q hq) (hty c (List.mem_of_getElem? hci)) hrt⟩)
        (hdim comb hcomb)
      unfold relBasis mtpBasis
      rw [t1, ok_bind, if_pos t2]
      exact ⟨_, rfl⟩
    choose! v hv using hone
    exact ⟨combs.map v, mapM_map_ok hv⟩
  have hall : ∀ i : ℕ, i < atoms.length → ∃ (rels : List (ℤ × Vec ℝ)) (vs : List ℝ), ∀ c, atoms[i]? = some c →
      rels.Nodup ∧ (∀ x : ℤ × Vec ℝ, x ∈ rels ↔
        (x.1, c.2 + x.2) ∈ typedCrystal L atoms ∧ x.2 ≠ 0 ∧ dist3 x.2 0 < rc) ∧
      combs.mapM (relBasis P c.1 rels) = .ok vs ∧
      combs.mapM (fun comb => mtpBasis P (i : ℤ) (flatRow info.firstneigh w i) info.types
        (coordRows (flatRow info.rel (w * 3) i)) comb) = .ok vs := by
    intro i hi
    obtain ⟨rels, q1, q2, q3⟩ := hrow i _ (List.getElem?_eq_getElem hi)
    obtain ⟨vs, hvs⟩ := hvals i _ rels (List.getElem?_eq_getElem hi) q2
    refine ⟨rels, vs, ?_⟩
    intro c hci
    rw [List.getElem?_eq_getElem hi] at hci
    cases hci
    refine ⟨q1, q2, hvs, ?_⟩
    rw [← hvs]
    exact mapM_congr_mem q3
  choose! rels vs hall using hall
  refine ⟨N, info, (List.range atoms.length).map vs, h1, k1, ?_, by simp, ?_⟩
  · unfold mtpOfTables mtpForward
    rw [k2, k3]
    show ([((List.range atoms.length).map (fun i : ℕ => (i : ℤ)), 0)] : List (List ℤ × ℕ)).mapM _ = _
    rw [List.mapM_cons, List.mapM_nil]
    have hz : ((List.range atoms.length).map (fun i : ℕ => (i : ℤ))).zipIdx
        = (List.range atoms.length).map (fun i : ℕ => ((i : ℤ), i)) := by
      apply List.ext_getElem <;> simp
    rw [hz, mapM_map_eq, mapM_map_ok (g := vs)]
    · rfl
    · intro i hi
      have hlt := List.mem_range.1 hi
      rw [← (hall i hlt _ (List.getElem?_eq_getElem hlt)).2.2.2]
      refine mapM_congr_mem ?_
      intro comb _
      have e0 : ∀ {β : Type} (x : β), torchGet [x] ((0 : ℕ) : ℤ) = .ok x := fun x => torchGet_nat (i := 0) (by simp)
      simp only
      rw [e0, ok_bind, torchGet_nat (by simpa using hlt), ok_bind, e0, ok_bind,
        torchGet_nat (by simpa using hlt), ok_bind]
      simp
  · intro i c hci
    have hlt := (List.getElem?_eq_some_iff.1 hci).1
    obtain ⟨q1, q2, q3, _⟩ := hall i hlt c hci
    exact ⟨rels i, q1, q2, vs i, by simp [hlt], q3⟩

end MaterSDK
