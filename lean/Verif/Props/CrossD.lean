import Verif.Lemmas.CrossD
import Verif.Props.EnvMatrixD
import Verif.Props.Cross

/-!
# C210: the Python and the C++ environment matrices agree in doubles

`M` bounds the coordinates in the Python supercell, `δ` is the change of a coordinate on its way through the fractional
ones of pymatgen, `d` is the smallest distance of two atoms of the crystal.
-/

namespace MaterSDK

open Classical

/-- C210: both codes run in doubles on the same crystal, no atom of which is as close to the cutoff as the rounding
errors.  Then, for every centre and every neighbour element, the Python rows and derivative blocks can be paired with
the slots of the C++ code, each with one, so that the values differ by at most the sum of the tolerances of the two
codes, and the derivatives, which have opposite signs, too. -/
theorem C210_agree_doubles (keep : Matrix (Fin 3) (Fin 3) ℝ → Vec ℝ → Vec ℝ) (A A' : ArgSort) (s : Struct ℝ)
    (els umax : List ℕ) (rcut rs d M δ : ℝ) (sort : Bool)
    (sc : Fin 3 → ℤ) (m : Fin 3 → ℕ) (h : ∀ i, sc i = 2 * (m i : ℤ) + 1) (hm : ∀ i, m i ≤ 2 ^ 52)
    (hok : CellOkD s.lattice (typedAtoms els s) (fun _ => true) rcut) (hrc : flR rcut = rcut)
    (hdbl : ∀ t ∈ s.sites, ∀ p, flR (t.pos p) = t.pos p)
    (hap : FarImages s.lattice (s.sites.map Site.pos) d) (hd : 1 / 20 ≤ d)
    (hbig : ∀ i, rcut ≤ (m i : ℝ) * planeDist s.lattice i)
    (hM : CoordsUpTo s m M) (hδ : 0 ≤ δ) (hδM : 2 * δ ≤ M)
    (hk : KeptWithin (keep (superLatticeD flR s.lattice sc)) (2 * M) δ)
    (hc1 : 64 * nbrTol s.lattice rcut ≤ d) (hc2 : 64 * nbrTol s.lattice rcut ≤ rcut - rs)
    (hp1 : 64 * pyPosTol M δ ≤ d) (hp2 : 64 * pyPosTol M δ ≤ rcut - rs)
    (hgap : NoneNear s rcut (max (nbrTol s.lattice rcut) (pyDistTol M δ)))
    (hels : ∀ t ∈ s.sites, t.z ∈ els) (h0 : 0 ∉ els) (hnd : els.Nodup) (hlen : umax.length = els.length)
    (hroom : SlotsSuffice els umax s rcut) :
    ∃ table N info out, neighborTableD flR keep A s rcut sc = .ok table ∧
      NbrLists.makeD flR A' (CStruct.makeD flR s.lattice (typedAtoms els s) true) rcut (fun _ => true) sort = .ok N ∧
      N.findInfoD flR umax.sum = .ok info ∧
      envFindD flR ⟨info.inum, info.numneigh.map (fun k : ℕ => (k : ℤ)), info.firstneigh, info.types,
        umax.map (fun m : ℕ => (m : ℤ))⟩ info.rel rcut rs = .ok out ∧
      ∀ cz k nz w : ℕ, els[k]? = some nz → umax[k]? = some w →
        ∃ rows : List (List (Fin 4 → ℝ) × List (Matrix (Fin 4) (Fin 3) ℝ)),
          getTildeRD flR rcut rs table cz nz w = .ok (rows.map Prod.fst) ∧
          calcDerivativeD flR rcut rs table cz nz w = .ok (rows.map Prod.snd) ∧
          List.Forall₂ (fun c row => row.1.length = w ∧ row.2.length = w ∧ ∃ i : ℕ, s.sites[i]? = some c ∧
              ∃ slots, slots.Perm (typeSlots umax k (flatRow out umax.sum i)) ∧
                List.Forall₂ (fun (x y : (Fin 4 → ℝ) × Matrix (Fin 4) (Fin 3) ℝ) =>
                  (∀ a, |x.1 a - y.1 a| ≤ pyEnvTol M δ rcut rs d + envTol s.lattice rcut rs d) ∧
                  ∀ a b, |x.2 a b + y.2 a b| ≤ pyDerivTol M δ rcut rs d + envDerivTol s.lattice rcut rs d)
                  (row.1.zip row.2) slots)
            (s.reformat_.sites.filter (fun c => c.z = cz)) rows := by
  have hL : s.lattice.det ≠ 0 := hok.nonsing
  have hr := hok.rcut_pos
  have hd0 : 0 < d := by linarith
  have hps : (typedAtoms els s).map Prod.snd = s.sites.map Site.pos := by
    unfold typedAtoms; rw [List.map_map]; rfl
  have hatom : ∀ (i : ℕ) (t : Site ℝ), s.sites[i]? = some t →
      (typedAtoms els s)[i]? = some (((els.idxOf t.z : ℕ) : ℤ), t.pos) := by
    intro i t ht
    unfold typedAtoms
    rw [List.getElem?_map, ht]; rfl
  have hin : ∀ t ∈ s.sites, InCell s.lattice t.pos := by
    intro t ht
    exact hok.inCell (_, t.pos) (List.mem_map.2 ⟨t, ht, rfl⟩)
  have hidx : ∀ t ∈ s.sites, ∀ k nz : ℕ, els[k]? = some nz → (els.idxOf t.z = k ↔ t.z = nz) := by
    intro t ht k nz hk
    obtain ⟨hk1, hk2⟩ := List.getElem?_eq_some_iff.1 hk
    constructor
    · intro e
      rw [← hk2]
      subst e
      exact (List.getElem_idxOf _).symm
    · intro e
      rw [e, ← hk2]
      exact hnd.idxOf_getElem k hk1
  have hne : s.sites ≠ [] := by
    intro e
    apply hok.nonempty
    unfold typedAtoms
    rw [e]; rfl
  obtain ⟨ht1, _, ht3, _⟩ := tol_bounds s.lattice (typedAtoms els s) (fun _ => true) rcut hok
  have hut := mul_pos uR_pos ht3
  have htol : 0 < nbrTol s.lattice rcut := by linarith
  have hrs : rs < rcut := by linarith
  have hM0 : 0 ≤ M := by linarith
  have huM : 0 ≤ M * 2 ^ (-53 : ℤ) := by positivity
  -- the gap at the cutoff
  have hg : ∀ c ∈ s.sites, ∀ t ∈ s.sites, ∀ n : Fin 3 → ℤ,
      nbrTol s.lattice rcut < |dist3 (imagePos s.lattice t.pos n) c.pos - rcut| ∧
      pyDistTol M δ < |dist3 (imagePos s.lattice t.pos n) c.pos - rcut| := by
    intro c hc t ht n
    have := hgap c hc t ht n
    exact max_lt_iff.1 this
  have hgen : NoneAt s rcut := by
    intro c hc t ht n e
    have := (hg c hc t ht n).1
    rw [e, sub_self, abs_zero] at this
    linarith
  have hup : ∀ c ∈ s.sites, ∀ t ∈ s.sites, ∀ n : Fin 3 → ℤ,
      dist3 (imagePos s.lattice t.pos n) c.pos < rcut + nbrTol s.lattice rcut →
      dist3 (imagePos s.lattice t.pos n) c.pos < rcut := by
    intro c hc t ht n hlt
    by_contra hcon
    have h1 := (hg c hc t ht n).1
    rw [abs_of_nonneg (by linarith)] at h1
    linarith
  have hdown : ∀ c ∈ s.sites, ∀ t ∈ s.sites, ∀ n : Fin 3 → ℤ,
      dist3 (imagePos s.lattice t.pos n) c.pos < rcut →
      dist3 (imagePos s.lattice t.pos n) c.pos < rcut - nbrTol s.lattice rcut := by
    intro c hc t ht n hlt
    have h1 := (hg c hc t ht n).1
    rw [abs_of_neg (by linarith)] at h1
    linarith
  have hap' : ApartImages s.lattice (s.sites.map Site.pos) := by
    intro i j p q t hi hj hij
    have := hap i j p q t hi hj hij
    nlinarith
  obtain ⟨N, info, out, c1, c2, c3, c4⟩ := env_double A' s.lattice (typedAtoms els s) rcut rs d (fun _ => true)
    sort hok hrc
    (by
      intro a ha
      obtain ⟨t, ht, rfl⟩ := List.mem_map.1 ha
      exact hdbl t ht)
    (by rw [hps]; exact hap) hd hc1 hc2 umax
    (by
      intro a ha
      obtain ⟨t, ht, rfl⟩ := List.mem_map.1 ha
      refine ⟨by simp, ?_⟩
      simp only
      rw [hlen]
      exact_mod_cast List.idxOf_lt_length_iff.2 (hels t ht))
    (by
      intro i c hc t w hw l hl hall
      have hi : i < s.sites.length := by
        have := (List.getElem?_eq_some_iff.1 hc).1
        simpa [typedAtoms] using this
      have hsi : s.sites[i]? = some s.sites[i] := List.getElem?_eq_getElem hi
      have hc' := hatom i _ hsi
      rw [hc] at hc'
      cases hc'
      have hk : t < els.length := by rw [← hlen]; exact (List.getElem?_eq_some_iff.1 hw).1
      refine hroom i _ hsi t els[t] w (List.getElem?_eq_getElem hk) hw l hl ?_
      intro e he
      obtain ⟨⟨_, p, hp, hdd⟩, e2, e3⟩ := hall e he
      rw [hps, List.getElem?_map] at hp
      obtain ⟨u, hu, rfl⟩ := Option.map_eq_some_iff.1 hp
      refine ⟨e2, u, hu, ?_, hup _ (List.getElem_mem hi) u (List.mem_of_getElem? hu) e.2 hdd⟩
      rw [hatom _ _ hu] at e3
      simp only [Option.map_some, Option.some.injEq, Nat.cast_inj] at e3
      exact (hidx u (List.mem_of_getElem? hu) t _ (List.getElem?_eq_getElem hk)).1 e3)
  obtain ⟨S, table, _, t1, t2, _⟩ := C208_table_doubles keep A s rcut sc m h hm M δ hM hδ hδM hk
  have hsep := supercell_far s S sc m h t1 d hap
  have hnod : (S.sites.map Site.pos).Nodup := by
    rw [List.Nodup, List.pairwise_map]
    refine hsep.imp ?_
    intro t u htu e
    rw [e, dist3_self] at htu
    linarith
  refine ⟨table, N, info, out, t2, c1, c2, c3, ?_⟩
  intro cz k nz w hkk hw
  have hnz : 0 < nz := by
    rcases Nat.eq_zero_or_pos nz with e | e
    · subst e; exact absurd (List.mem_of_getElem? hkk) h0
    · exact e
  -- images of one centre
  have himgs : ∀ (i : ℕ) (c : Site ℝ), s.sites[i]? = some c → ∃ (imgs : List (ℕ × (Fin 3 → ℤ)))
      (val : ℕ × (Fin 3 → ℤ) → (Fin 4 → ℝ) × Matrix (Fin 4) (Fin 3) ℝ),
      ((nbrsOf S c.pos rcut nz).map Site.pos).Perm (imgs.map (posOfImage s)) ∧ imgs.length ≤ w ∧
      (∀ e ∈ imgs,
        (∀ a, |(val e).1 a - envAt rcut rs (posOfImage s e) c.pos a| ≤ envTol s.lattice rcut rs d) ∧
        ∀ a b, |(val e).2 a b - cEnvDeriv rcut rs (posOfImage s e - c.pos) a b| ≤ envDerivTol s.lattice rcut rs d) ∧
      typeSlots umax k (flatRow out umax.sum i) = imgs.map val ++ List.replicate (w - imgs.length) (0, 0) := by
    intro i c hc
    have hcm := List.mem_of_getElem? hc
    obtain ⟨imgs, g1, g2, g3, _, val, g4, g5⟩ := c4 i _ (hatom i c hc)
    rw [hps] at g2 g3 g4
    have hsite : ∀ e ∈ imgs, ∃ t, s.sites[e.1]? = some t ∧ posOfImage s e = imagePos s.lattice t.pos e.2 ∧
        dist3 (imagePos s.lattice t.pos e.2) c.pos < rcut ∧ e ≠ (i, 0) := by
      intro e he
      obtain ⟨⟨_, p, hp, hdd⟩, hee⟩ := g2 e he
      rw [List.getElem?_map] at hp
      obtain ⟨t, ht, rfl⟩ := Option.map_eq_some_iff.1 hp
      exact ⟨t, ht, by simp only [posOfImage, ht], hup c hcm t (List.mem_of_getElem? ht) e.2 hdd, hee⟩
    have hiff : ∀ e, e ∈ imgs ↔
        NearBy s.lattice (fun _ => true) (s.sites.map Site.pos) rcut c.pos e ∧ e ≠ (i, 0) := by
      intro e
      constructor
      · intro he
        obtain ⟨t, ht, _, hlt, hee⟩ := hsite e he
        exact ⟨⟨by simp, t.pos, by rw [List.getElem?_map, ht]; rfl, hlt⟩, hee⟩
      · rintro ⟨⟨hb, p, hp, hdd⟩, hee⟩
        refine g3 e ⟨hb, p, hp, ?_⟩ hee
        rw [List.getElem?_map] at hp
        obtain ⟨t, ht, rfl⟩ := Option.map_eq_some_iff.1 hp
        exact hdown c hcm t (List.mem_of_getElem? ht) e.2 hdd
    have hP := crystal_perm_nodup s S hL sc m h t1 hnod rcut hbig hin hgen hap' i c hc imgs g1 hiff nz
    have hty : ∀ e ∈ imgs, ∃ t, s.sites[e.1]? = some t ∧
        (((typedAtoms els s).map Prod.fst)[e.1]?).getD 0 = ((els.idxOf t.z : ℕ) : ℤ) := by
      intro e he
      obtain ⟨t, ht, _⟩ := hsite e he
      exact ⟨t, ht, by rw [List.getElem?_map, hatom _ _ ht]; rfl⟩
    have hfil : imgs.filter (fun e => decide ((s.sites[e.1]?).map Site.z = some nz))
        = imgs.filter (fun e => decide ((((typedAtoms els s).map Prod.fst)[e.1]?).getD 0 = (k : ℤ))) := by
      refine List.filter_congr ?_
      intro e he
      obtain ⟨t, ht, hte⟩ := hty e he
      rw [hte]
      simp only [ht, Option.map_some, Option.some.injEq, Nat.cast_inj,
        hidx t (List.mem_of_getElem? ht) k nz hkk]
    have hroomf : RoomFor umax (imgs.map (fun e => ((((typedAtoms els s).map Prod.fst)[e.1]?).getD 0, val e))) := by
      refine ⟨?_, ?_⟩
      · intro q hq
        obtain ⟨e, he, rfl⟩ := List.mem_map.1 hq
        obtain ⟨t, ht, hte⟩ := hty e he
        simp only
        rw [hte, hlen]
        refine ⟨by simp, ?_⟩
        exact_mod_cast List.idxOf_lt_length_iff.2 (hels t (List.mem_of_getElem? ht))
      · intro t w' hw'
        have hk : t < els.length := by rw [← hlen]; exact (List.getElem?_eq_some_iff.1 hw').1
        rw [List.countP_map, List.countP_eq_length_filter]
        refine hroom i c hc t els[t] w' (List.getElem?_eq_getElem hk) hw' _ (g1.filter _) ?_
        intro e he
        obtain ⟨he1, he2⟩ := List.mem_filter.1 he
        obtain ⟨u, hu, _, hlt, hee⟩ := hsite e he1
        obtain ⟨u', hu', hte⟩ := hty e he1
        rw [hu] at hu'; cases hu'
        simp only [Function.comp, decide_eq_true_eq] at he2
        rw [hte, Nat.cast_inj] at he2
        exact ⟨hee, u, hu, (hidx u (List.mem_of_getElem? hu) t _ (List.getElem?_eq_getElem hk)).1 he2, hlt⟩
    refine ⟨_, val, hP, ?_, ?_, ?_⟩
    · rw [hfil]
      have := hroomf.2 k w hw
      rw [List.countP_map, List.countP_eq_length_filter] at this
      exact this
    · intro e he
      obtain ⟨he1, _⟩ := List.mem_filter.1 he
      obtain ⟨t, ht, hpe, _, _⟩ := hsite e he1
      obtain ⟨_, q2, q3⟩ := g4 e he1 t.pos (by rw [List.getElem?_map, ht]; rfl)
      rw [hpe]
      refine ⟨fun a => ?_, q3⟩
      rw [← cEnvRow_envAt]
      exact q2 a
    · rw [g5, typeSlots_typeBlocks _ _ _ hroomf k w hw]
      unfold typeBlock
      rw [List.countP_map, List.countP_eq_length_filter, List.filter_map, List.map_map]
      have hcomp : (fun q : ℤ × (Fin 4 → ℝ) × Matrix (Fin 4) (Fin 3) ℝ => decide (q.1 = (k : ℤ)))
          ∘ (fun e => ((((typedAtoms els s).map Prod.fst)[e.1]?).getD 0, val e))
          = fun e => decide ((((typedAtoms els s).map Prod.fst)[e.1]?).getD 0 = (k : ℤ)) := rfl
      rw [hcomp, ← hfil]
      rfl
  have hw' : ∀ c ∈ s.sites, c.z = cz → (nbrsOf S c.pos rcut nz).length ≤ w := by
    intro c hc _
    obtain ⟨i, hi⟩ := List.mem_iff_getElem?.1 hc
    obtain ⟨imgs, _, g1, g2, _⟩ := himgs i c hi
    have := g1.length_eq
    simp only [List.length_map] at this
    omega
  obtain ⟨table', rows, r0, r1, r2, r3⟩ := pyD_rows keep A s S hne rcut rs hr.le hrs sc m h hm t1 M δ d hM hδ hδM hk
    hd0 hsep hp1 hp2
    (by
      intro c hc t ht
      obtain ⟨u, hu, n, _, hp⟩ := mem_supercell_image s S sc m h t1 t ht
      rw [hp]
      exact (hg c hc u hu n).2)
    cz nz hnz w hw'
  rw [t2] at r0
  cases r0
  refine ⟨rows, r1, r2, ?_⟩
  refine (List.forall₂_and_left (p := fun c => c ∈ s.sites) _ _).2 ⟨?_, r3⟩ |>.imp ?_
  · intro c hc
    exact (sortByKey_perm _ _).mem_iff.1 (List.mem_filter.1 hc).1
  rintro c row ⟨hc, l1, l2, ts, p1, p2, p3⟩
  obtain ⟨i, hi⟩ := List.mem_iff_getElem?.1 hc
  obtain ⟨imgs, val, g1, g2, g3, g4⟩ := himgs i c hi
  obtain ⟨imgs', q1, q2⟩ := perm_lift (posOfImage s) _ imgs ((p1.map _).trans g1)
  have hlen' : ts.length = imgs'.length := by
    have := congrArg List.length q2
    simpa using this
  have hlen2 := q1.length_eq
  refine ⟨l1, l2, i, hi, imgs'.map val ++ List.replicate (w - imgs.length) (0, 0), ?_, ?_⟩
  · rw [g4]
    exact (q1.map _).append_right _
  have e1 : (0 : ℝ) ≤ pyEnvTol M δ rcut rs d + envTol s.lattice rcut rs d := by
    have a1 : 0 < rcut - rs := by linarith
    unfold pyEnvTol envTol pyPosTol
    positivity
  have e2 : (0 : ℝ) ≤ pyDerivTol M δ rcut rs d + envDerivTol s.lattice rcut rs d := by
    have a1 : 0 < rcut - rs := by linarith
    unfold pyDerivTol envDerivTol pyPosTol
    positivity
  rw [List.forall₂_iff_get]
  refine ⟨by simp [l1, l2]; omega, ?_⟩
  intro j hj1 hj2
  have hjw : j < w := by
    simp only [List.length_zip, l1, l2, min_self] at hj1
    exact hj1
  simp only [List.get_eq_getElem, List.getElem_zip]
  rcases lt_or_ge j ts.length with hjt | hjt
  · obtain ⟨⟨v, f1, f2⟩, f3, B, f4, f5⟩ := p2 j ts[j] (List.getElem?_eq_getElem hjt)
    have hji : j < imgs'.length := by omega
    obtain ⟨_, rfl⟩ := List.getElem?_eq_some_iff.1 f1
    obtain ⟨_, rfl⟩ := List.getElem?_eq_some_iff.1 f4
    have hpos : ts[j].pos = posOfImage s imgs'[j] := by
      have := congrArg (fun l => l[j]?) q2
      simp only [List.getElem?_map, List.getElem?_eq_getElem hjt, List.getElem?_eq_getElem hji, Option.map_some,
        Option.some.injEq] at this
      exact this
    obtain ⟨g5, g6⟩ := g3 _ (q1.mem_iff.1 (List.getElem_mem hji))
    rw [List.getElem_append_left (by simpa using hji), List.getElem_map]
    rw [← hpos] at g5 g6
    constructor
    · intro a
      have b1 := f2 a
      have b2 := g5 a
      have b3 : 32 * ((2 * δ + 400 * (M * 2 ^ (-53 : ℤ))) * (1 / (rcut - rs) + 1 / d) * (1 / d))
          = pyEnvTol M δ rcut rs d := by
        unfold pyEnvTol pyPosTol; ring
      rw [b3] at b1
      rw [abs_le] at b1 b2 ⊢
      constructor <;> linarith [b1.1, b1.2, b2.1, b2.2]
    · intro a b
      have b1 := f5 a b
      have b2 := g6 a b
      have b3 : 256 * ((2 * δ + 400 * (M * 2 ^ (-53 : ℤ))) * (1 / (rcut - rs) + 1 / d) *
          (1 / d * (1 / (rcut - rs) + 1 / d))) = pyDerivTol M δ rcut rs d := by
        unfold pyDerivTol pyPosTol; ring
      rw [b3] at b1
      rw [abs_le] at b1 b2 ⊢
      constructor <;> linarith [b1.1, b1.2, b2.1, b2.2]
  · obtain ⟨f1, f2⟩ := p3 j hjt hjw
    obtain ⟨_, f1⟩ := List.getElem?_eq_some_iff.1 f1
    obtain ⟨_, f2⟩ := List.getElem?_eq_some_iff.1 f2
    rw [List.getElem_append_right (by simp; omega), List.getElem_replicate, f1, f2]
    exact ⟨fun a => by simpa using e1, fun a b => by simpa using e2⟩

/-! ### Example -/

theorem exCross_slots3 : SlotsSuffice [3, 8] [2, 2] exCross 3 := by
  intro i c hc k nz w hk hw l hl hall
  have hw2 : w = 2 := by
    rcases k with _ | _ | k <;> simp at hw <;> exact hw.symm
  subst hw2
  have hc' : exTyped[i]? = some (((List.idxOf c.z [3, 8] : ℕ) : ℤ), c.pos) := by
    rw [← exCross_typed, typedAtoms, List.getElem?_map, hc]; rfl
  refine (hl.subperm (fun e he => exTyped_near i _ hc' e ?_ (hall e he).1)).length_le
  obtain ⟨_, t, ht, _, hd⟩ := hall e he
  refine ⟨by simp, t.pos, ?_, hd⟩
  rw [← exCross_typed, typedAtoms, List.map_map, List.getElem?_map, ht]; rfl

theorem exCross_big3 (i : Fin 3) : (3 : ℝ) ≤ ((1 : ℕ) : ℝ) * planeDist exCross.lattice i := by
  have hdet : exCross.lattice.det = 120 := by
    show (Matrix.of exL).det = 120
    simp [Matrix.det_fin_three, exL]; norm_num
  have key : ∀ (v : Vec ℝ), 0 < dist3 v 0 → dist3 v 0 ≤ 40 → (3 : ℝ) ≤ ((1 : ℕ) : ℝ) * (|(120 : ℝ)| / dist3 v 0) := by
    intro v h0 h1
    rw [Nat.cast_one, one_mul, abs_of_pos (by norm_num), le_div_iff₀ h0]
    linarith
  have norm : ∀ v : Vec ℝ, 0 < v 0 ^ 2 + v 1 ^ 2 + v 2 ^ 2 → v 0 ^ 2 + v 1 ^ 2 + v 2 ^ 2 ≤ 40 ^ 2 →
      0 < dist3 v 0 ∧ dist3 v 0 ≤ 40 := by
    intro v h0 h1
    have e : dist3 v 0 = Real.sqrt (v 0 ^ 2 + v 1 ^ 2 + v 2 ^ 2) := by
      simp [dist3, Fin.sum_univ_three]
    rw [e]
    exact ⟨Real.sqrt_pos.2 h0, by rw [Real.sqrt_le_left (by norm_num)]; exact h1⟩
  unfold planeDist
  rw [hdet]
  have hlat : ∀ i, exCross.lattice i = exL i := fun _ => rfl
  simp only [hlat]
  fin_cases i
  · have := norm (crossProduct (exL 1) (exL 2)) (by simp [exL, crossProduct]; norm_num)
      (by simp [exL, crossProduct]; norm_num)
    exact key _ this.1 this.2
  · have := norm (crossProduct (exL 2) (exL 0)) (by simp [exL, crossProduct])
      (by simp [exL, crossProduct]; norm_num)
    exact key _ this.1 this.2
  · have := norm (crossProduct (exL 0) (exL 1)) (by simp [exL, crossProduct])
      (by simp [exL, crossProduct]; norm_num)
    exact key _ this.1 this.2

theorem exCross_gap : NoneNear exCross 3 (1 / 10 ^ 3) := by
  intro c hc t ht n
  by_contra hcon
  rw [not_lt, abs_le] at hcon
  set r := dist3 (imagePos exCross.lattice t.pos n) c.pos with hr
  have hfin : ∀ a b : Fin 3 → ℤ, a = b ∨ (a = ![0, 0, 0] ∧ b = ![2, 1, 1]) ∨ (a = ![2, 1, 1] ∧ b = ![0, 0, 0]) →
      -3 ≤ b 0 + (n 0 * 4 + n 1) - a 0 ∧ b 0 + (n 0 * 4 + n 1) - a 0 ≤ 3 →
      -3 ≤ b 1 + n 1 * 5 - a 1 ∧ b 1 + n 1 * 5 - a 1 ≤ 3 → -3 ≤ b 2 + n 2 * 6 - a 2 ∧ b 2 + n 2 * 6 - a 2 ≤ 3 →
      (b 0 + (n 0 * 4 + n 1) - a 0) ^ 2 + (b 1 + n 1 * 5 - a 1) ^ 2 + (b 2 + n 2 * 6 - a 2) ^ 2 = 9 → False := by
    intro a b hab b0 b1 b2 h9
    rcases hab with rfl | ⟨rfl, rfl⟩ | ⟨rfl, rfl⟩
    · have h1 : n 1 = 0 := by omega
      have h2 : n 2 = 0 := by omega
      have h0 : n 0 = 0 := by omega
      simp [h0, h1, h2] at h9
    · simp at b0 b1 b2 h9
      have h1 : n 1 = 0 := by omega
      have h2 : n 2 = 0 := by omega
      have h0 : n 0 = 0 ∨ n 0 = -1 := by omega
      rcases h0 with h0 | h0 <;> simp [h0, h1, h2] at h9
    · simp at b0 b1 b2 h9
      have h1 : n 1 = 0 := by omega
      have h2 : n 2 = 0 := by omega
      have h0 : n 0 = 0 ∨ n 0 = 1 := by omega
      rcases h0 with h0 | h0 <;> simp [h0, h1, h2] at h9
  have key : ∀ a b : Fin 3 → ℤ, (a = b ∨ (a = ![0, 0, 0] ∧ b = ![2, 1, 1]) ∨ (a = ![2, 1, 1] ∧ b = ![0, 0, 0])) →
      (∀ k, t.pos k = b k) → (∀ k, c.pos k = a k) → False := by
    intro a b hab hb ha
    have hd2 : r ^ 2 = ((((b 0 + (n 0 * 4 + n 1) - a 0) ^ 2 + (b 1 + n 1 * 5 - a 1) ^ 2 +
        (b 2 + n 2 * 6 - a 2) ^ 2 : ℤ)) : ℝ) := by
      rw [hr, dist3_sq_comp]
      have e0 : ∀ k, imagePos exCross.lattice t.pos n k
          = t.pos k + (n 0 * exL 0 k + n 1 * exL 1 k + n 2 * exL 2 k) := by
        intro k
        show (imagePos exL t.pos n) k = _
        rw [imagePos_apply]
        ring
      rw [e0, e0, e0]
      simp [exL, ha, hb]
    set q : ℤ := (b 0 + (n 0 * 4 + n 1) - a 0) ^ 2 + (b 1 + n 1 * 5 - a 1) ^ 2 + (b 2 + n 2 * 6 - a 2) ^ 2 with hq
    have h1 : (q : ℝ) < (10 : ℤ) := by
      rw [← hd2]; push_cast; norm_num at hcon ⊢; nlinarith [hcon.1, hcon.2]
    have h2 : ((8 : ℤ) : ℝ) < q := by
      rw [← hd2]; push_cast; norm_num at hcon ⊢; nlinarith [hcon.1, hcon.2]
    have h1' : q < 10 := by exact_mod_cast h1
    have h2' : 8 < q := by exact_mod_cast h2
    have h9 : q = 9 := by omega
    have b0 := abs_le.1 (abs_le_of_sq_le_sq (a := b 0 + (n 0 * 4 + n 1) - a 0) (b := 3) (by nlinarith) (by norm_num))
    have b1 := abs_le.1 (abs_le_of_sq_le_sq (a := b 1 + n 1 * 5 - a 1) (b := 3) (by nlinarith) (by norm_num))
    have b2 := abs_le.1 (abs_le_of_sq_le_sq (a := b 2 + n 2 * 6 - a 2) (b := 3) (by nlinarith) (by norm_num))
    exact hfin a b hab b0 b1 b2 (by rw [← hq, h9])
  simp only [exCross, List.mem_cons, List.not_mem_nil, or_false] at hc ht
  rcases hc with rfl | rfl <;> rcases ht with rfl | rfl
  · exact key ![0, 0, 0] ![0, 0, 0] (Or.inl rfl) (by intro k; fin_cases k <;> simp) (by intro k; fin_cases k <;> simp)
  · exact key ![0, 0, 0] ![2, 1, 1] (Or.inr (Or.inl ⟨rfl, rfl⟩)) (by intro k; fin_cases k <;> simp)
      (by intro k; fin_cases k <;> simp)
  · exact key ![2, 1, 1] ![0, 0, 0] (Or.inr (Or.inr ⟨rfl, rfl⟩)) (by intro k; fin_cases k <;> simp)
      (by intro k; fin_cases k <;> simp)
  · exact key ![2, 1, 1] ![2, 1, 1] (Or.inl rfl) (by intro k; fin_cases k <;> simp) (by intro k; fin_cases k <;> simp)

theorem exCross_margin : NoneNear exCross 3 (max (nbrTol exCross.lattice 3) (pyDistTol 8 (2 ^ (-40 : ℤ)))) := by
  intro c hc t ht n
  refine lt_of_le_of_lt (max_le ?_ ?_) (exCross_gap c hc t ht n)
  · have : nbrTol exL 3 ≤ 1 / 10 ^ 11 := exL_tol.2
    exact le_trans this (by norm_num)
  · unfold pyDistTol
    rw [zpow_neg, zpow_neg]
    norm_num

theorem exCross_double : ∀ t ∈ exCross.sites, ∀ p, flR (t.pos p) = t.pos p := by
  intro t ht p
  have := exTyped_double (((List.idxOf t.z [3, 8] : ℕ) : ℤ), t.pos)
    (by rw [← exCross_typed]; exact List.mem_map.2 ⟨t, ht, rfl⟩) p
  exact this

theorem exCross_upTo : CoordsUpTo exCross ![1, 1, 1] 8 := by
  intro t ht p
  simp only [exCross, List.mem_cons, List.not_mem_nil, or_false] at ht
  rcases ht with rfl | rfl <;> fin_cases p <;> simp [exCross, exL, Fin.sum_univ_three] <;> norm_num

/-- The hypotheses hold for lithium and oxygen in a skew cell, cutoff 3 and a way of keeping coordinates that changes
each by `2⁻⁴⁰`. -/
example (A A' : ArgSort) := C210_agree_doubles (fun _ x p => x p + 2 ^ (-40 : ℤ)) A A' exCross [3, 8] [2, 2] 3 1 1 8
  (2 ^ (-40 : ℤ)) true ![3, 3, 3] ![1, 1, 1] (by decide) (by decide) (by rw [exCross_typed]; exact exTyped_okD) flR_three
  exCross_double exTyped_far (by norm_num) (by intro i; fin_cases i <;> exact exCross_big3 _) exCross_upTo
  (by positivity) (by rw [zpow_neg]; norm_num)
  (by intro x _ p; simp only [add_sub_cancel_left]; rw [abs_of_pos (by positivity)])
  exTyped_tol (exTyped_tol.trans (by norm_num)) (by unfold pyPosTol; rw [zpow_neg, zpow_neg]; norm_num)
  (by unfold pyPosTol; rw [zpow_neg, zpow_neg]; norm_num)
  exCross_margin (by simp [exCross]) (by decide) (by decide) rfl exCross_slots3

/-- The tolerances of the example. -/
example : pyEnvTol 8 (2 ^ (-40 : ℤ)) 3 1 1 + envTol exL 3 1 1 ≤ 1 / 10 ^ 8 ∧
    pyDerivTol 8 (2 ^ (-40 : ℤ)) 3 1 1 + envDerivTol exL 3 1 1 ≤ 1 / 10 ^ 7 := by
  obtain ⟨h1, h2⟩ := exTyped_envTol
  have e1 : pyEnvTol 8 (2 ^ (-40 : ℤ)) 3 1 1 ≤ 9 / 10 ^ 9 := by
    unfold pyEnvTol pyPosTol; rw [zpow_neg, zpow_neg]; norm_num
  have e2 : pyDerivTol 8 (2 ^ (-40 : ℤ)) 3 1 1 ≤ 9 / 10 ^ 8 := by
    unfold pyDerivTol pyPosTol; rw [zpow_neg, zpow_neg]; norm_num
  constructor
  · norm_num at *; linarith
  · norm_num at *; linarith

end MaterSDK
