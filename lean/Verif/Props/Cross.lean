import Verif.Lemmas.Cross
import Verif.Props.EnvMatrix
import Verif.Props.DeepMD

/-! # Agreement of the Python and the C++ environment matrices: property C171 -/

namespace MaterSDK

open Classical

/-- C171: for a crystal with no atom exactly at the cutoff, wrapped into a cell the C++ code handles, a
supercell large enough for the cutoff and enough slots, the Python rows and derivative blocks of every
centre and neighbour element are the C++ ones (derivatives with the opposite sign) up to the order of
the neighbours; they are the same lists when the C++ list is sorted and no two neighbours of the same
element are equally far. -/
theorem C171_agree_partial (A A' : ArgSort) (s : Struct ℝ) (els umax : List ℕ) (rcut rs : ℝ) (sort : Bool)
    (sc : Fin 3 → ℤ) (m : Fin 3 → ℕ) (h : ∀ i, sc i = 2 * (m i : ℤ) + 1) (hr : 0 < rcut) (hrs : rs < rcut)
    (hok : CellOk s.lattice (typedAtoms els s) (fun _ => true))
    (hap : ApartImages s.lattice (s.sites.map Site.pos)) (hsep : Separated s)
    (hbig : ∀ i, rcut ≤ (m i : ℝ) * planeDist s.lattice i) (hgen : NoneAt s rcut)
    (hels : ∀ t ∈ s.sites, t.z ∈ els) (h0 : 0 ∉ els) (hnd : els.Nodup) (hlen : umax.length = els.length)
    (hroom : SlotsSuffice els umax s rcut) :
    ∃ table N info out, neighborTable A s rcut sc = .ok table ∧
      NbrLists.make A' (CStruct.make s.lattice (typedAtoms els s) true) rcut (fun _ => true) sort = .ok N ∧
      N.findInfo umax.sum = .ok info ∧
      envFind ⟨info.inum, info.numneigh.map (fun k : ℕ => (k : ℤ)), info.firstneigh, info.types,
        umax.map (fun m : ℕ => (m : ℤ))⟩ info.rel rcut rs = .ok out ∧
      ∀ cz k nz w : ℕ, els[k]? = some nz → umax[k]? = some w →
        ∃ rows : List (List (Fin 4 → ℝ) × List (Matrix (Fin 4) (Fin 3) ℝ)),
          getTildeR rcut rs table cz nz w = .ok (rows.map Prod.fst) ∧
          calcDerivative rcut rs table cz nz w = .ok (rows.map Prod.snd) ∧
          List.Forall₂ (fun c row => row.1.length = w ∧ row.2.length = w ∧ ∃ i : ℕ, s.sites[i]? = some c ∧
              (row.1.zip row.2).Perm
                ((typeSlots umax k (flatRow out umax.sum i)).map (fun e => (e.1, -e.2))) ∧
              (sort = true → NoTies s rcut → row.1.zip row.2
                = (typeSlots umax k (flatRow out umax.sum i)).map (fun e => (e.1, -e.2))))
            (s.reformat_.sites.filter (fun c => c.z = cz)) rows := by
  have hL : s.lattice.det ≠ 0 := hok.nonsing
  have hps : (typedAtoms els s).map Prod.snd = s.sites.map Site.pos := by
    unfold typedAtoms; rw [List.map_map]; rfl
  have hatom : ∀ (i : ℕ) (t : Site ℝ), s.sites[i]? = some t →
      (typedAtoms els s)[i]? = some (((els.idxOf t.z : ℕ) : ℤ), t.pos) := by
    intro i t ht
    unfold typedAtoms
    rw [List.getElem?_map, ht]; rfl
  have hin : ∀ t ∈ s.sites, InCell s.lattice t.pos := by
    intro t ht
    exact hok.inCell (_, t.pos) (List.mem_map.2 ⟨t, ht, rfl⟩)
  have hidx : ∀ t ∈ s.sites, ∀ k nz : ℕ, els[k]? = some nz → (els.idxOf t.z = k ↔ t.z = nz) := by
    intro t ht k nz hk
    obtain ⟨hk1, hk2⟩ := List.getElem?_eq_some_iff.1 hk
    constructor
    · intro e
      rw [← hk2]
      subst e
      exact (List.getElem_idxOf _).symm
    · intro e
      rw [e, ← hk2]
      exact hnd.idxOf_getElem k hk1
  have hne : s.sites ≠ [] := by
    intro e
    apply hok.nonempty
    unfold typedAtoms
    rw [e]; rfl
  obtain ⟨N, info, out, c1, c2, c3, c4⟩ := env_core A' s.lattice (typedAtoms els s) rcut rs (fun _ => true)
    sort hok hr (by rw [hps]; exact hap) umax
    (by
      intro a ha
      obtain ⟨t, ht, rfl⟩ := List.mem_map.1 ha
      refine ⟨by simp, ?_⟩
      simp only
      rw [hlen]
      exact_mod_cast List.idxOf_lt_length_iff.2 (hels t ht))
    (by
      intro i c hc t w hw l hl hall
      have hi : i < s.sites.length := by
        have := (List.getElem?_eq_some_iff.1 hc).1
        simpa [typedAtoms] using this
      have hsi : s.sites[i]? = some s.sites[i] := List.getElem?_eq_getElem hi
      have hc' := hatom i _ hsi
      rw [hc] at hc'
      cases hc'
      have hk : t < els.length := by rw [← hlen]; exact (List.getElem?_eq_some_iff.1 hw).1
      refine hroom i _ hsi t els[t] w (List.getElem?_eq_getElem hk) hw l hl ?_
      intro e he
      obtain ⟨⟨_, p, hp, hd⟩, e2, e3⟩ := hall e he
      rw [hps, List.getElem?_map] at hp
      obtain ⟨u, hu, rfl⟩ := Option.map_eq_some_iff.1 hp
      refine ⟨e2, u, hu, ?_, hd⟩
      rw [hatom _ _ hu] at e3
      simp only [Option.map_some, Option.some.injEq, Nat.cast_inj] at e3
      exact (hidx u (List.mem_of_getElem? hu) t _ (List.getElem?_eq_getElem hk)).1 e3)
  obtain ⟨S, table, _, t1, t2, _⟩ := C17_table_exact A s rcut sc m h
  refine ⟨table, N, info, out, t2, c1, c2, c3, ?_⟩
  intro cz k nz w hk hw
  have hnz : 0 < nz := by
    rcases Nat.eq_zero_or_pos nz with e | e
    · subst e; exact absurd (List.mem_of_getElem? hk) h0
    · exact e
  -- images of one centre
  have himgs : ∀ (i : ℕ) (c : Site ℝ), s.sites[i]? = some c → ∃ imgs : List (ℕ × (Fin 3 → ℤ)),
      ((nbrsOf S c.pos rcut nz).map Site.pos).Perm (imgs.map (posOfImage s)) ∧ imgs.length ≤ w ∧
      (sort = true → (imgs.map (posOfImage s)).Pairwise (fun p q => dist3 p c.pos ≤ dist3 q c.pos)) ∧
      (∀ e ∈ imgs, ∃ t, s.sites[e.1]? = some t ∧ t.z = nz ∧
        dist3 (imagePos s.lattice t.pos e.2) c.pos < rcut ∧ posOfImage s e = imagePos s.lattice t.pos e.2) ∧
      typeSlots umax k (flatRow out umax.sum i) = (imgs.map (posOfImage s)).map (fun p =>
          (cEnvRow rcut rs (p - c.pos), cEnvDeriv rcut rs (p - c.pos)))
        ++ List.replicate (w - imgs.length) (0, 0) := by
    intro i c hc
    obtain ⟨imgs, g1, g2, g3, g4, g5⟩ := c4 i _ (hatom i c hc)
    rw [hps] at g2 g3
    have hsite : ∀ e ∈ imgs, ∃ t, s.sites[e.1]? = some t ∧
        dist3 (imagePos s.lattice t.pos e.2) c.pos < rcut := by
      intro e he
      obtain ⟨⟨_, p, hp, hd⟩, _⟩ := (g2 e).1 he
      rw [List.getElem?_map] at hp
      obtain ⟨t, ht, rfl⟩ := Option.map_eq_some_iff.1 hp
      exact ⟨t, ht, hd⟩
    have hP := crystal_perm s S hL hsep sc m h t1 rcut hbig hin hgen hap i c hc imgs g1 g2 nz
    have hfil : imgs.filter (fun e => decide ((s.sites[e.1]?).map Site.z = some nz))
        = imgs.filter (fun e => decide ((imageBoth s.lattice (typedAtoms els s) rcut rs c.pos e).1 = (k : ℤ))) := by
      refine List.filter_congr ?_
      intro e he
      obtain ⟨t, ht, _⟩ := hsite e he
      simp only [imageBoth, hatom _ _ ht, ht, Option.map_some, Option.some.injEq, Nat.cast_inj,
        hidx t (List.mem_of_getElem? ht) k nz hk]
    refine ⟨_, hP, ?_, ?_, ?_, ?_⟩
    · rw [hfil]
      have := g5.2 k w hw
      rw [List.countP_map, List.countP_eq_length_filter] at this
      exact this
    · intro hs
      rw [List.pairwise_map]
      refine ((g3 hs).sublist List.filter_sublist).imp_of_mem ?_
      intro e f he hf hef
      obtain ⟨t, ht, _⟩ := hsite e (List.mem_filter.1 he).1
      obtain ⟨u, hu, _⟩ := hsite f (List.mem_filter.1 hf).1
      simp only [posOfImage, ht, hu]
      exact hef t.pos u.pos (by rw [List.getElem?_map, ht]; rfl) (by rw [List.getElem?_map, hu]; rfl)
    · intro e he
      obtain ⟨he1, he2⟩ := List.mem_filter.1 he
      obtain ⟨t, ht, hd⟩ := hsite e he1
      simp only [ht, Option.map_some, Option.some.injEq, decide_eq_true_eq] at he2
      exact ⟨t, ht, he2, hd, by simp only [posOfImage, ht]⟩
    · rw [g4, typeSlots_typeBlocks _ _ _ g5 k w hw]
      unfold typeBlock
      rw [List.countP_map, List.countP_eq_length_filter, List.filter_map, List.map_map, List.map_map]
      have hcomp : (fun q : ℤ × (Fin 4 → ℝ) × Matrix (Fin 4) (Fin 3) ℝ => decide (q.1 = (k : ℤ)))
          ∘ imageBoth s.lattice (typedAtoms els s) rcut rs c.pos
          = fun e => decide ((imageBoth s.lattice (typedAtoms els s) rcut rs c.pos e).1 = (k : ℤ)) := rfl
      rw [hcomp, ← hfil]
      congr 1
      refine List.map_congr_left ?_
      intro e he
      obtain ⟨t, ht, _⟩ := hsite e (List.mem_filter.1 he).1
      simp only [Function.comp, imageBoth, hatom _ _ ht, posOfImage, ht]
  have hw' : ∀ c ∈ s.sites, c.z = cz → (nbrsOf S c.pos rcut nz).length ≤ w := by
    intro c hc _
    obtain ⟨i, hi⟩ := List.mem_iff_getElem?.1 hc
    obtain ⟨imgs, g1, g2, _⟩ := himgs i c hi
    have := g1.length_eq
    simp only [List.length_map] at this
    omega
  obtain ⟨rows, r1, r2, r3⟩ := py_rows A s S hL hsep hne rcut rs hr.le hrs sc m h t1 cz nz hnz w hw' table t2
  refine ⟨rows, r1, r2, ?_⟩
  refine (List.forall₂_and_left (p := fun c => c ∈ s.sites) _ _).2 ⟨?_, r3⟩ |>.imp ?_
  · intro c hc
    exact (sortByKey_perm _ _).mem_iff.1 (List.mem_filter.1 hc).1
  rintro c row ⟨hc, l1, l2, ts, p1, p2, p3⟩
  obtain ⟨i, hi⟩ := List.mem_iff_getElem?.1 hc
  obtain ⟨imgs, g1, g2, g3, g4, g5⟩ := himgs i c hi
  have hperm : (ts.map Site.pos).Perm (imgs.map (posOfImage s)) := (p1.map _).trans g1
  have hlen' : ts.length = imgs.length := by
    have := hperm.length_eq
    simpa using this
  have hpy : row.1.zip row.2 = (ts.map Site.pos).map (fun p =>
      (cEnvRow rcut rs (p - c.pos), -cEnvDeriv rcut rs (p - c.pos))) ++
      List.replicate (w - ts.length) (0, 0) := by
    rw [p3, List.map_map]
    congr 1
    refine List.map_congr_left ?_
    intro t ht
    have : t.pos ∈ imgs.map (posOfImage s) := hperm.mem_iff.1 (List.mem_map_of_mem ht)
    obtain ⟨e, he, hep⟩ := List.mem_map.1 this
    obtain ⟨u, _, _, hd, hp⟩ := g4 e he
    rw [hp] at hep
    rw [hep] at hd
    simp only [Function.comp, envRow_c rcut rs nz t.pos c.pos hrs hd, derivBlock_neg rcut rs nz t.pos c.pos hd]
  have hcpp : (typeSlots umax k (flatRow out umax.sum i)).map (fun e => (e.1, -e.2))
      = (imgs.map (posOfImage s)).map (fun p =>
      (cEnvRow rcut rs (p - c.pos), -cEnvDeriv rcut rs (p - c.pos))) ++
      List.replicate (w - ts.length) (0, 0) := by
    rw [g5, List.map_append, List.map_map, List.map_replicate, hlen', neg_zero]
    rfl
  refine ⟨l1, l2, i, hi, ?_, ?_⟩
  · rw [hpy, hcpp]
    exact (hperm.map _).append_right _
  · intro hs hti
    rw [hpy, hcpp]
    congr 2
    refine hperm.eq_of_pairwise (le := fun p q => dist3 p c.pos ≤ dist3 q c.pos) ?_ ?_ (g3 hs)
    · intro p q hp hq hpq hqp
      have hp' := hperm.mem_iff.1 hp
      obtain ⟨e, he, rfl⟩ := List.mem_map.1 hp'
      obtain ⟨f, hf, rfl⟩ := List.mem_map.1 hq
      obtain ⟨t, ht, htz, hd, hpt⟩ := g4 e he
      obtain ⟨u, hu, huz, _, hpu⟩ := g4 f hf
      rw [hpt, hpu] at hpq hqp ⊢
      exact hti c hc t (List.mem_of_getElem? ht) u (List.mem_of_getElem? hu) e.2 f.2 (by rw [htz, huz]) hd
        (le_antisymm hpq hqp)
    · rw [List.pairwise_map]
      exact p2

/-! ### Example -/

/-- The cell of the examples of C82 as a structure: lithium at the origin, oxygen at `(2, 1, 1)`. -/
noncomputable def exCross : Struct ℝ := ⟨exL, [⟨3, ![0, 0, 0], none⟩, ⟨8, ![2, 1, 1], none⟩]⟩

theorem exCross_typed : typedAtoms [3, 8] exCross = exTyped := by
  simp [typedAtoms, exCross, exTyped]

theorem exCross_separated : Separated exCross := by
  intro i j t u hij ht hu
  rintro ⟨n, e, he, hp⟩
  have h1 := congrFun hp 1
  have he1 := abs_le.1 (he 1)
  simp only [exCross] at ht hu
  have key : ∀ x : ℤ, (5 : ℝ) * (n 1 + e 1) = x → x = 1 ∨ x = -1 → False := by
    intro x hx h
    have a1 : (x : ℝ) - 5 * n 1 ≤ 1 / 2 := by linarith
    have a2 : -(1 / 2) ≤ (x : ℝ) - 5 * n 1 := by linarith
    have b1 : (x : ℝ) - 5 * n 1 < (1 : ℤ) := by push_cast; linarith
    have b2 : ((-1 : ℤ) : ℝ) < (x : ℝ) - 5 * n 1 := by push_cast; linarith
    have c1 : x - 5 * n 1 < 1 := by exact_mod_cast b1
    have c2 : -1 < x - 5 * n 1 := by exact_mod_cast b2
    omega
  rcases i with _ | _ | i <;> rcases j with _ | _ | j <;> simp at ht hu hij
  · subst ht; subst hu
    simp [exCross, exL, Fin.sum_univ_three] at h1
    exact key (-1) (by push_cast; linarith) (Or.inr rfl)
  · subst ht; subst hu
    simp [exCross, exL, Fin.sum_univ_three] at h1
    exact key 1 (by push_cast; linarith) (Or.inl rfl)

theorem exCross_none : NoneAt exCross (5 / 2) := by
  intro c hc t ht n hd
  have hd2 : dist3 (imagePos exCross.lattice t.pos n) c.pos ^ 2 = 25 / 4 := by rw [hd]; norm_num
  have key : ∀ a b : Fin 3 → ℤ, (∀ k, t.pos k = b k) → (∀ k, c.pos k = a k) → False := by
    intro a b hb ha
    rw [dist3_sq_comp] at hd2
    have e0 : ∀ k, imagePos exCross.lattice t.pos n k = t.pos k + (n 0 * exL 0 k + n 1 * exL 1 k + n 2 * exL 2 k) := by
      intro k
      show (imagePos exL t.pos n) k = _
      rw [imagePos_apply]
      ring
    rw [e0, e0, e0] at hd2
    simp [exL, ha, hb] at hd2
    have : ((4 * ((b 0 + (n 0 * 4 + n 1) - a 0) ^ 2 + (b 1 + n 1 * 5 - a 1) ^ 2 + (b 2 + n 2 * 6 - a 2) ^ 2) : ℤ) : ℝ)
        = ((25 : ℤ) : ℝ) := by
      push_cast
      linarith
    have := Int.cast_injective this
    omega
  simp only [exCross, List.mem_cons, List.not_mem_nil, or_false] at hc ht
  rcases hc with rfl | rfl <;> rcases ht with rfl | rfl
  · exact key ![0, 0, 0] ![0, 0, 0] (by intro k; fin_cases k <;> simp) (by intro k; fin_cases k <;> simp)
  · exact key ![0, 0, 0] ![2, 1, 1] (by intro k; fin_cases k <;> simp) (by intro k; fin_cases k <;> simp)
  · exact key ![2, 1, 1] ![0, 0, 0] (by intro k; fin_cases k <;> simp) (by intro k; fin_cases k <;> simp)
  · exact key ![2, 1, 1] ![2, 1, 1] (by intro k; fin_cases k <;> simp) (by intro k; fin_cases k <;> simp)

theorem exCross_slots : SlotsSuffice [3, 8] [2, 2] exCross (5 / 2) := by
  intro i c hc k nz w hk hw l hl hall
  have hw2 : w = 2 := by
    rcases k with _ | _ | k <;> simp at hw <;> exact hw.symm
  subst hw2
  have hc' : exTyped[i]? = some (((List.idxOf c.z [3, 8] : ℕ) : ℤ), c.pos) := by
    rw [← exCross_typed, typedAtoms, List.getElem?_map, hc]; rfl
  refine (hl.subperm (fun e he => exTyped_near i _ hc' e ?_ (hall e he).1)).length_le
  obtain ⟨_, t, ht, _, hd⟩ := hall e he
  refine ⟨by simp, t.pos, ?_, ?_⟩
  · rw [← exCross_typed, typedAtoms, List.map_map, List.getElem?_map, ht]; rfl
  · exact lt_trans hd (by norm_num)

theorem exCross_big (i : Fin 3) : (5 / 2 : ℝ) ≤ ((1 : ℕ) : ℝ) * planeDist exCross.lattice i := by
  have hdet : exCross.lattice.det = 120 := by
    show (Matrix.of exL).det = 120
    simp [Matrix.det_fin_three, exL]; norm_num
  have key : ∀ (v : Vec ℝ), 0 < dist3 v 0 → dist3 v 0 ≤ 48 → (5 / 2 : ℝ) ≤ ((1 : ℕ) : ℝ) * (|(120 : ℝ)| / dist3 v 0) := by
    intro v h0 h1
    rw [Nat.cast_one, one_mul, abs_of_pos (by norm_num), le_div_iff₀ h0]
    linarith
  have norm : ∀ v : Vec ℝ, 0 < v 0 ^ 2 + v 1 ^ 2 + v 2 ^ 2 → v 0 ^ 2 + v 1 ^ 2 + v 2 ^ 2 ≤ 48 ^ 2 →
      0 < dist3 v 0 ∧ dist3 v 0 ≤ 48 := by
    intro v h0 h1
    have e : dist3 v 0 = Real.sqrt (v 0 ^ 2 + v 1 ^ 2 + v 2 ^ 2) := by
      simp [dist3, Fin.sum_univ_three]
    rw [e]
    exact ⟨Real.sqrt_pos.2 h0, by rw [Real.sqrt_le_left (by norm_num)]; exact h1⟩
  unfold planeDist
  rw [hdet]
  have hlat : ∀ i, exCross.lattice i = exL i := fun _ => rfl
  simp only [hlat]
  fin_cases i
  · have := norm (crossProduct (exL 1) (exL 2)) (by simp [exL, crossProduct]; norm_num)
      (by simp [exL, crossProduct]; norm_num)
    exact key _ this.1 this.2
  · have := norm (crossProduct (exL 2) (exL 0)) (by simp [exL, crossProduct])
      (by simp [exL, crossProduct]; norm_num)
    exact key _ this.1 this.2
  · have := norm (crossProduct (exL 0) (exL 1)) (by simp [exL, crossProduct])
      (by simp [exL, crossProduct]; norm_num)
    exact key _ this.1 this.2

example (A A' : ArgSort) := C171_agree_partial A A' exCross [3, 8] [2, 2] (5 / 2) 1 true ![3, 3, 3] ![1, 1, 1]
  (by decide) (by norm_num) (by norm_num) (by rw [exCross_typed]; exact exTyped_ok) exL_apart
  exCross_separated (by intro i; fin_cases i <;> exact exCross_big _) exCross_none
  (by simp [exCross]) (by decide) (by decide) rfl exCross_slots

/-! ### Where the two differ -/

/-- C171 fails for an atom exactly at the cutoff: in the cubic cell of edge 1 with cutoff 1 the Python
code gives a row of weight 1, the C++ code only empty slots. -/
theorem C171_violated_at_cutoff (A A' : ArgSort) (sort : Bool) :
    ∃ table width rows N info out, neighborTable A cubicCell 1 ![3, 3, 3] = .ok table ∧
      getTildeR 1 (1 / 2) table 14 14 (width : ℕ) = .ok rows ∧
      NbrLists.make A' (CStruct.make cubicCell.lattice (typedAtoms [14] cubicCell) true) 1 (fun _ => true) sort
        = .ok N ∧
      N.findInfo width = .ok info ∧
      envFind ⟨info.inum, info.numneigh.map (fun k : ℕ => (k : ℤ)), info.firstneigh, info.types,
        [(width : ℤ)]⟩ info.rel 1 (1 / 2) = .ok out ∧
      (∃ row ∈ rows, ∃ v ∈ row, v 0 = 1) ∧ flatRow out width 0 = List.replicate width (0, 0) := by
  have hpl : ∀ i, planeDist cubicCell.lattice i = 1 := by
    intro i
    unfold planeDist
    have h1 : cubicCell.lattice = 1 := rfl
    rw [h1, Matrix.det_one]
    have e : ∀ v : Vec ℝ, dist3 v 0 = Real.sqrt (v 0 ^ 2 + v 1 ^ 2 + v 2 ^ 2) := by
      intro v; simp [dist3, Fin.sum_univ_three]
    have g : ∀ a b : Fin 3, (a = 1 ∧ b = 2) ∨ (a = 2 ∧ b = 0) ∨ (a = 0 ∧ b = 1) →
        |(1 : ℝ)| / dist3 (crossProduct ((1 : Matrix (Fin 3) (Fin 3) ℝ) a) ((1 : Matrix (Fin 3) (Fin 3) ℝ) b)) 0
          = 1 := by
      intro a b hab
      rw [e]
      rcases hab with ⟨rfl, rfl⟩ | ⟨rfl, rfl⟩ | ⟨rfl, rfl⟩ <;> simp [crossProduct]
    fin_cases i
    · exact g 1 2 (by simp)
    · exact g 2 0 (by simp)
    · exact g 0 1 (by simp)
  have hodd : ∀ i, (![3, 3, 3] : Fin 3 → ℤ) i = 2 * ((![1, 1, 1] : Fin 3 → ℕ) i : ℤ) + 1 := by decide
  obtain ⟨S, _, _, hS, _⟩ := C17_table_exact A cubicCell 1 ![3, 3, 3] ![1, 1, 1] hodd
  have hsep : Separated cubicCell := by
    intro i j t u hij ht hu
    simp only [cubicCell] at ht hu
    rcases i with _ | i <;> rcases j with _ | j <;> simp at ht hu hij
  have himg : ∀ n : Fin 3 → ℤ, dist3 (imagePos cubicCell.lattice 0 n) 0 ^ 2
      = ((n 0 ^ 2 + n 1 ^ 2 + n 2 ^ 2 : ℤ) : ℝ) := by
    intro n
    rw [dist3_sq_comp]
    have h1 : cubicCell.lattice = 1 := rfl
    simp [imagePos, h1, Fin.sum_univ_three]
  have hmem : (⟨14, 0, none⟩ : Site ℝ) ∈ cubicCell.sites := by simp [cubicCell]
  have hd1 : dist3 (imagePos cubicCell.lattice 0 ![1, 0, 0]) 0 = 1 := by
    have := himg ![1, 0, 0]
    simp at this
    rcases this with h | h
    · exact h
    · have := dist3_nonneg (imagePos cubicCell.lattice 0 ![1, 0, 0]) 0
      linarith
  obtain ⟨u, hu, huz, hup⟩ := C19_supercell_complete cubicCell S (by simp [cubicCell]) ![3, 3, 3] ![1, 1, 1]
    hodd hS 1 (by intro i; rw [hpl]; fin_cases i <;> simp)
    (by
      intro t ht
      simp only [cubicCell, List.mem_singleton] at ht
      subst ht
      exact ⟨0, by intro i; simp, by simp⟩) _ _ hmem hmem ![1, 0, 0] hd1.le
  obtain ⟨table, width, rows, p1, p2, row, hrow, v, hv, hv1⟩ := C25_atom_at_cutoff A cubicCell S
    (by simp [cubicCell]) hsep 1 (1 / 2) (by norm_num) (by norm_num) ![3, 3, 3] ![1, 1, 1] hodd hS _ u hmem hu
    (by rw [huz]; norm_num) (by rw [hup]; exact hd1)
  rw [huz] at p2
  have hat : typedAtoms [14] cubicCell = [(0, 0)] := by simp [typedAtoms, cubicCell]
  have hap : ApartImages cubicCell.lattice ((typedAtoms [14] cubicCell).map Prod.snd) := by
    rw [hat]
    intro i j p q t hi hj hne
    rcases i with _ | i <;> rcases j with _ | j <;> simp at hi hj
    subst hi; subst hj
    rw [himg]
    have : (1 : ℤ) ≤ t 0 ^ 2 + t 1 ^ 2 + t 2 ^ 2 := by
      by_contra hlt
      have h0 : t 0 ^ 2 + t 1 ^ 2 + t 2 ^ 2 ≤ 0 := by omega
      apply hne
      have ht : t = 0 := by
        funext k
        have a := sq_nonneg (t 0)
        have b := sq_nonneg (t 1)
        have c := sq_nonneg (t 2)
        fin_cases k
        · exact pow_eq_zero_iff (two_ne_zero) |>.1 (by linarith : t 0 ^ 2 = 0)
        · exact pow_eq_zero_iff (two_ne_zero) |>.1 (by linarith : t 1 ^ 2 = 0)
        · exact pow_eq_zero_iff (two_ne_zero) |>.1 (by linarith : t 2 ^ 2 = 0)
      rw [ht]
    have : ((1 : ℤ) : ℝ) ≤ ((t 0 ^ 2 + t 1 ^ 2 + t 2 ^ 2 : ℤ) : ℝ) := by exact_mod_cast this
    push_cast at this ⊢
    linarith
  have hfar : ∀ e : ℕ × (Fin 3 → ℤ), NearBy cubicCell.lattice (fun _ => true)
      ((typedAtoms [14] cubicCell).map Prod.snd) 1 0 e → e = (0, 0) := by
    rintro ⟨j, t⟩ ⟨_, p, hp, hd⟩
    rw [hat] at hp
    rcases j with _ | j <;> simp at hp
    subst hp
    have h0 := dist3_nonneg (imagePos cubicCell.lattice 0 t) 0
    have h2 : dist3 (imagePos cubicCell.lattice 0 t) 0 ^ 2 < 1 := by
      have : dist3 (imagePos cubicCell.lattice 0 t) 0 < 1 := hd
      nlinarith
    rw [himg] at h2
    have h3 : t 0 ^ 2 + t 1 ^ 2 + t 2 ^ 2 < 1 := by exact_mod_cast h2
    have ht : t = 0 := by
      funext k
      have a := sq_nonneg (t 0)
      have b := sq_nonneg (t 1)
      have c := sq_nonneg (t 2)
      fin_cases k
      · exact pow_eq_zero_iff (two_ne_zero) |>.1 (by linarith : t 0 ^ 2 = 0)
      · exact pow_eq_zero_iff (two_ne_zero) |>.1 (by linarith : t 1 ^ 2 = 0)
      · exact pow_eq_zero_iff (two_ne_zero) |>.1 (by linarith : t 2 ^ 2 = 0)
    rw [ht]
  obtain ⟨N, info, out, c1, c2, c3, c4⟩ := env_core A' cubicCell.lattice (typedAtoms [14] cubicCell) 1 (1 / 2)
    (fun _ => true) sort
    ⟨by show cubicCell.lattice.det ≠ 0; simp [cubicCell], by rw [hat]; simp, by
      rw [hat]
      intro a ha
      simp only [List.mem_singleton] at ha
      subst ha
      exact ⟨0, by intro i; simp, by simp [cartOf]⟩, by
      intro p
      refine ⟨p, ?_⟩
      have h1 : cubicCell.lattice = 1 := rfl
      rw [h1]
      simp, by simp⟩ (by norm_num) hap [width] (by rw [hat]; simp)
    (by
      intro i c hc t w _ l _ hl
      rcases i with _ | i
      · rw [hat] at hc
        simp at hc
        subst hc
        rcases l with _ | ⟨e, l⟩
        · simp
        · have := hl e (by simp)
          exact absurd (hfar e this.1) this.2.1
      · rw [hat] at hc
        simp at hc)
  refine ⟨table, width, rows, N, info, out, p1, p2, c1, by simpa using c2, c3, ⟨row, hrow, v, hv, by simpa using hv1⟩, ?_⟩
  obtain ⟨imgs, _, g2, _, g4, _⟩ := c4 0 (0, 0) (by rw [hat]; rfl)
  have h0 : imgs = [] := by
    rcases imgs with _ | ⟨e, l⟩
    · rfl
    · have := (g2 e).1 (by simp)
      exact absurd (hfar e this.1) this.2
  subst h0
  simp only [List.sum_cons, List.sum_nil, add_zero] at g4
  rw [g4]
  simp [typeBlocks]

end MaterSDK
