import Verif.Lemmas.StableCpp
import Verif.Props.ExtensiveCpp
import Verif.Props.CrossD

/-! # C216: C++ features of slightly different inputs -/

namespace MaterSDK

open Classical

/-- C216: two inputs of the C++ code with the same types in the same order, both in cells the neighbour list handles,
whose atoms differ by at most `ε`, no distance being as close to the cutoff as that (`SmallMove`). If the slots suffice
for one, the matrices of both exist, and for every atom and type the values and derivatives of one are those of the
other up to the order of the slots and a change proportional to `ε`. With sorted lists the weights agree slot by slot up
to that change. Missing: atoms that leave the cell (`C216_violated`). -/
theorem C216_stable_partial (A A' : ArgSort) (L L' : Fin 3 → Vec ℝ) (atoms atoms' : List (ℤ × Vec ℝ)) (m : Fin 3 → ℕ)
    (rcut rs d ε : ℝ) (hm : SmallMove L L' atoms atoms' m rcut d ε) (hrs : rs < rcut) (h2 : 128 * ε ≤ rcut - rs)
    (h3 : rcut * 2 ^ (-48 : ℤ) ≤ ε) (sort sort' : Bool)
    (umax : List ℕ) (hty : ∀ a ∈ atoms, 0 ≤ a.1 ∧ a.1 < umax.length)
    (hroom : ∀ (i : ℕ) (c : ℤ × Vec ℝ), atoms[i]? = some c → ∀ (t w : ℕ), umax[t]? = some w →
      ∀ l : List (ℕ × (Fin 3 → ℤ)), l.Nodup → (∀ e ∈ l, NearBy L (fun _ => true) (atoms.map Prod.snd) rcut c.2 e ∧
        e ≠ (i, 0) ∧ (atoms[e.1]?).map Prod.fst = some (t : ℤ)) → l.length ≤ w) :
    ∃ N info out N' info' out',
      NbrLists.make A (CStruct.make L atoms true) rcut (fun _ => true) sort = .ok N ∧
      N.findInfo umax.sum = .ok info ∧
      envFind ⟨info.inum, info.numneigh.map (fun k : ℕ => (k : ℤ)), info.firstneigh, info.types,
        umax.map (fun m : ℕ => (m : ℤ))⟩ info.rel rcut rs = .ok out ∧
      NbrLists.make A' (CStruct.make L' atoms' true) rcut (fun _ => true) sort' = .ok N' ∧
      N'.findInfo umax.sum = .ok info' ∧
      envFind ⟨info'.inum, info'.numneigh.map (fun k : ℕ => (k : ℤ)), info'.firstneigh, info'.types,
        umax.map (fun m : ℕ => (m : ℤ))⟩ info'.rel rcut rs = .ok out' ∧
      ∀ i < atoms.length, ∀ (k w : ℕ), umax[k]? = some w →
        ((typeSlots umax k (flatRow out umax.sum i)).length = w ∧
          (typeSlots umax k (flatRow out' umax.sum i)).length = w) ∧
        (∃ slots, slots.Perm (typeSlots umax k (flatRow out' umax.sum i)) ∧
          List.Forall₂ (fun (x y : (Fin 4 → ℝ) × Matrix (Fin 4) (Fin 3) ℝ) =>
            (∀ a, |x.1 a - y.1 a| ≤ envMoveTol ε rcut rs d) ∧ ∀ a b, |x.2 a b - y.2 a b| ≤ derivMoveTol ε rcut rs d)
            (typeSlots umax k (flatRow out umax.sum i)) slots) ∧
        (sort = true → sort' = true →
          List.Forall₂ (fun (x y : (Fin 4 → ℝ) × Matrix (Fin 4) (Fin 3) ℝ) =>
            |x.1 0 - y.1 0| ≤ envMoveTol ε rcut rs d)
            (typeSlots umax k (flatRow out umax.sum i)) (typeSlots umax k (flatRow out' umax.sum i))) := by
  have hdpos : 0 < d := by linarith [hm.d_ge]
  have hr : 0 < rcut := by linarith [hm.d_le]
  have hε := hm.eps
  have hty' : ∀ a ∈ atoms', 0 ≤ a.1 ∧ a.1 < umax.length := by
    intro a' ha'
    obtain ⟨i, hi⟩ := List.mem_iff_getElem?.1 ha'
    obtain ⟨a, ha⟩ := hm.get hi
    rw [(hm.atom ha hi).1]
    exact hty a (List.mem_of_getElem? ha)
  have hroom' : ∀ (i : ℕ) (c : ℤ × Vec ℝ), atoms'[i]? = some c → ∀ (t w : ℕ), umax[t]? = some w →
      ∀ l : List (ℕ × (Fin 3 → ℤ)), l.Nodup → (∀ e ∈ l, NearBy L' (fun _ => true) (atoms'.map Prod.snd) rcut c.2 e ∧
        e ≠ (i, 0) ∧ (atoms'[e.1]?).map Prod.fst = some (t : ℤ)) → l.length ≤ w := by
    intro i c' hc' t w hw l hl hall
    obtain ⟨c, hc⟩ := hm.get hc'
    refine hroom i c hc t w hw l hl ?_
    intro e he
    obtain ⟨e1, e2, e3⟩ := hall e he
    refine ⟨(hm.nearBy hc hc' e).1 e1, e2, ?_⟩
    obtain ⟨a', ha', hz⟩ := Option.map_eq_some_iff.1 e3
    obtain ⟨a, ha⟩ := hm.get ha'
    rw [ha, Option.map_some, ← (hm.atom ha ha').1, hz]
  obtain ⟨N, info, out, c1, c2, c3, c4⟩ := env_core A L atoms rcut rs (fun _ => true) sort hm.ok hr hm.apart umax hty
    hroom
  obtain ⟨N', info', out', c1', c2', c3', c4'⟩ := env_core A' L' atoms' rcut rs (fun _ => true) sort' hm.ok' hr hm.apart'
    umax hty' hroom'
  refine ⟨N, info, out, N', info', out', c1, c2, c3, c1', c2', c3', ?_⟩
  intro i hi k w hk
  have hc := List.getElem?_eq_getElem hi
  obtain ⟨c', hc'⟩ := hm.get' hc
  generalize atoms[i] = c at hc
  obtain ⟨imgs, g1, g2, g3, g4, g5⟩ := c4 i c hc
  obtain ⟨imgs', g1', g2', g3', g4', g5'⟩ := c4' i c' hc'
  have hperm : imgs'.Perm imgs := (List.perm_ext_iff_of_nodup g1' g1).2 fun e => by
    rw [g2, g2', hm.nearBy hc hc']
  have hzero : ((0, 0) : (Fin 4 → ℝ) × Matrix (Fin 4) (Fin 3) ℝ) = 0 := rfl
  rw [hzero] at g4 g4'
  have hlen : ∀ {nb : List (ℤ × (Fin 4 → ℝ) × Matrix (Fin 4) (Fin 3) ℝ)}, RoomFor umax nb →
      (typeBlock (0 : (Fin 4 → ℝ) × Matrix (Fin 4) (Fin 3) ℝ) nb (w, k)).length = w := by
    intro nb hnb
    have := hnb.2 k w hk
    unfold typeBlock
    rw [List.length_append, List.length_map, List.length_replicate, ← List.countP_eq_length_filter]
    simp only
    omega
  have hl1 := hlen g5
  have hl2 := hlen g5'
  rw [g4, g4', typeSlots_typeBlocks _ _ _ g5 k w hk, typeSlots_typeBlocks _ _ _ g5' k w hk]
  refine ⟨⟨hl1, hl2⟩, ?_⟩
  rw [both_rel L atoms rcut rs imgs i c g2, both_rel L' atoms' rcut rs imgs' i c' g2']
  have e1 : (0 : ℝ) ≤ envMoveTol ε rcut rs d := by
    have a1 : 0 < rcut - rs := by linarith
    unfold envMoveTol; positivity
  have e2 : (0 : ℝ) ≤ derivMoveTol ε rcut rs d := by
    have a1 : 0 < rcut - rs := by linarith
    unfold derivMoveTol; positivity
  have hfil : (imgs.map (imageRel L' atoms' c'.2)).filter (fun x => decide (x.1 = (k : ℤ)))
      = (imgs.filter (fun e => decide ((imageRel L atoms c.2 e).1 = (k : ℤ)))).map (imageRel L' atoms' c'.2) := by
    rw [List.filter_map]
    congr 1
    refine List.filter_congr ?_
    intro e he
    obtain ⟨e1, e2⟩ := (g2 e).1 he
    simp only [Function.comp, (hm.slot hrs h2 h3 hc hc' e2 e1).1]
  have hfil0 : (imgs.map (imageRel L atoms c.2)).filter (fun x => decide (x.1 = (k : ℤ)))
      = (imgs.filter (fun e => decide ((imageRel L atoms c.2 e).1 = (k : ℤ)))).map (imageRel L atoms c.2) := by
    rw [List.filter_map]
    rfl
  have hmatch : ∃ slots, slots.Perm (typeBlock (0 : (Fin 4 → ℝ) × Matrix (Fin 4) (Fin 3) ℝ)
        ((imgs'.map (imageRel L' atoms' c'.2)).map (fun x => (x.1, relBoth rcut rs x.2))) (w, k)) ∧
      List.Forall₂ (fun (x y : (Fin 4 → ℝ) × Matrix (Fin 4) (Fin 3) ℝ) =>
        (∀ a, |x.1 a - y.1 a| ≤ envMoveTol ε rcut rs d) ∧ ∀ a b, |x.2 a b - y.2 a b| ≤ derivMoveTol ε rcut rs d)
        (typeBlock (0 : (Fin 4 → ℝ) × Matrix (Fin 4) (Fin 3) ℝ)
          ((imgs.map (imageRel L atoms c.2)).map (fun x => (x.1, relBoth rcut rs x.2))) (w, k)) slots := by
    refine ⟨typeBlock (0 : (Fin 4 → ℝ) × Matrix (Fin 4) (Fin 3) ℝ)
        ((imgs.map (imageRel L' atoms' c'.2)).map (fun x => (x.1, relBoth rcut rs x.2))) (w, k), ?_, ?_⟩
    · rw [typeBlock_rel, typeBlock_rel]
      have hp := (((hperm.map (imageRel L' atoms' c'.2)).filter (fun x => decide (x.1 = (k : ℤ)))).map Prod.snd).symm
      rw [hp.length_eq]
      exact (hp.map _).append_right _
    · rw [typeBlock_rel, typeBlock_rel, hfil, hfil0]
      simp only [List.length_map]
      refine List.rel_append ?_ ?_
      · simp only [List.map_map]
        rw [List.forall₂_map_left_iff, List.forall₂_map_right_iff, List.forall₂_same]
        intro e he
        obtain ⟨x1, x2⟩ := (g2 e).1 (List.mem_filter.1 he).1
        exact (hm.slot hrs h2 h3 hc hc' x2 x1).2
      · rw [List.forall₂_same]
        intro x _
        exact ⟨fun a => by simpa using e1, fun a b => by simpa using e2⟩
  refine ⟨hmatch, ?_⟩
  intro hs hs'
  obtain ⟨slots, p1, p2⟩ := hmatch
  have hd1 : ∀ x ∈ imgs.map (imageRel L atoms c.2), 0 < dist3 x.2 0 := by
    intro x hx
    obtain ⟨e, he, rfl⟩ := List.mem_map.1 hx
    obtain ⟨⟨_, p, hp, _⟩, he2⟩ := (g2 e).1 he
    rw [List.getElem?_map] at hp
    obtain ⟨a, ha, rfl⟩ := Option.map_eq_some_iff.1 hp
    simp only [imageRel, ha]
    rw [← dist3_rel]
    exact hdpos.trans_le (hm.far i e.1 c.2 a.2 e.2 (by rw [List.getElem?_map, hc]; rfl)
      (by rw [List.getElem?_map, ha]; rfl) he2)
  have hd2 : ∀ x ∈ imgs'.map (imageRel L' atoms' c'.2), 0 < dist3 x.2 0 := by
    intro x hx
    obtain ⟨e, he, rfl⟩ := List.mem_map.1 hx
    obtain ⟨⟨_, p, hp, _⟩, he2⟩ := (g2' e).1 he
    rw [List.getElem?_map] at hp
    obtain ⟨a, ha, rfl⟩ := Option.map_eq_some_iff.1 hp
    simp only [imageRel, ha]
    rw [← dist3_rel]
    exact (lt_min (by linarith [hm.eps_le]) hr).trans_le (hm.far' hc' ha e.2 he2)
  have q1 := weights_decrease hrs _ w k hd1 (rel_sorted L atoms rcut imgs i c g2 (g3 hs))
  have q2 := weights_decrease hrs _ w k hd2 (rel_sorted L' atoms' rcut imgs' i c' g2' (g3' hs'))
  have q3 := decreasing_close q1 q2 (p1.map (fun x => x.1 0)) (by
    rw [List.forall₂_map_left_iff, List.forall₂_map_right_iff]
    exact p2.imp fun x y hxy => hxy.1 0)
  rw [List.forall₂_map_left_iff, List.forall₂_map_right_iff] at q3
  exact q3

/-! ### Example -/

/-- The cell of the examples with its second atom moved. -/
noncomputable def exMoved : List (ℤ × Vec ℝ) := [(0, ![0, 0, 0]), (1, ![2 + 1 / 10 ^ 5, 1, 1])]

theorem exMoved_ok : CellOk exL exMoved (fun _ => true) := by
  refine ⟨exTyped_ok.nonsing, by simp [exMoved], ?_, exTyped_ok.dir, exTyped_ok.perp⟩
  intro a ha
  simp only [exMoved, List.mem_cons, List.not_mem_nil, or_false] at ha
  rcases ha with rfl | rfl
  · exact exTyped_ok.inCell (0, ![0, 0, 0]) (by simp [exTyped])
  · refine ⟨![(9 / 5 + 1 / 10 ^ 5) / 4, 1 / 5, 1 / 6], by intro i; fin_cases i <;> norm_num, ?_⟩
    funext i
    fin_cases i <;> simp [cartOf, exL, Fin.sum_univ_three] <;> norm_num

theorem exMoved_small : SmallMove exL exL exTyped exMoved ![1, 1, 1] 3 1 (1 / 10 ^ 5) where
  ok := exTyped_ok
  ok' := exMoved_ok
  big := by intro i; fin_cases i <;> exact exCross_big3 _
  big' := by intro i; fin_cases i <;> exact exCross_big3 _
  moved := by
    have key : ∀ (p q : Vec ℝ) (n : Fin 3 → ℤ) (a : Fin 3), imagePos exL p n a - imagePos exL q n a = p a - q a := by
      intro p q n a
      simp [imagePos]
    unfold MovedAtoms exTyped exMoved
    refine List.Forall₂.cons ⟨rfl, fun n _ p => ?_⟩ (List.Forall₂.cons ⟨rfl, fun n _ p => ?_⟩ List.Forall₂.nil)
    · simp
    · rw [key]
      fin_cases p <;> simp
  far := exTyped_far
  d_ge := by norm_num
  d_le := by norm_num
  eps_le := by norm_num
  gap := by
    have hmem : ∀ a ∈ exTyped, ∃ t ∈ exCross.sites, t.pos = a.2 := by
      intro a ha
      simp only [exTyped, List.mem_cons, List.not_mem_nil, or_false] at ha
      rcases ha with rfl | rfl
      · exact ⟨⟨3, ![0, 0, 0], none⟩, by simp [exCross], rfl⟩
      · exact ⟨⟨8, ![2, 1, 1], none⟩, by simp [exCross], rfl⟩
    intro c hc a ha n
    obtain ⟨tc, tc1, tc2⟩ := hmem c hc
    obtain ⟨ta, ta1, ta2⟩ := hmem a ha
    have := exCross_gap tc tc1 ta ta1 n
    rw [tc2, ta2] at this
    exact lt_of_le_of_lt (by norm_num) this

/-- The hypotheses hold when one of two atoms in a skew cell moves by `10⁻⁵`. -/
example (A A' : ArgSort) := C216_stable_partial A A' exL exL exTyped exMoved ![1, 1, 1] 3 1 1 (1 / 10 ^ 5) exMoved_small
  (by norm_num) (by norm_num) (by rw [zpow_neg]; norm_num) true true [2, 2] exTyped_types
  (by
    intro i c hc t m hm l hl h
    have hm2 : m = 2 := by
      rcases t with _ | _ | t <;> simp at hm <;> exact hm.symm
    subst hm2
    exact (hl.subperm (fun e he => exTyped_near i c hc e (h e he).1 (h e he).2.1)).length_le)

/-! ### Atoms that leave the cell -/

/-- In an upright cell an atom below the cell makes the neighbour list write outside its array of bins. -/
theorem below_cell (A : ArgSort) (L : Fin 3 → Vec ℝ) (atoms : List (ℤ × Vec ℝ)) (pbc : Fin 3 → Bool)
    (hdet : (Matrix.of L).det ≠ 0) (hdir : ∀ p, ∃ q, 0 < L q p)
    (hz : L 0 2 = 0 ∧ L 1 2 = 0 ∧ L 2 0 = 0 ∧ L 2 1 = 0) (a : ℤ × Vec ℝ) (ha : a ∈ atoms) (f : Vec ℝ)
    (f0 : 0 ≤ f 0 ∧ f 0 < 1) (f1 : 0 ≤ f 1 ∧ f 1 < 1) (f2 : f 2 < 0) (hf : a.2 = cartOf L f) (rcut : ℝ)
    (hr : 0 < rcut) (sort : Bool) :
    NbrLists.make A (CStruct.make L atoms true) rcut pbc sort = .error .outOfBounds := by
  obtain ⟨z0, z1, z2, z3⟩ := hz
  set T := CStruct.make L atoms true with hT
  have hTL : T.basis = L := rfl
  have hdetT : (Matrix.of T.basis).det ≠ 0 := hdet
  have hL22 : 0 < L 2 2 := by
    obtain ⟨q, hq⟩ := hdir 2
    fin_cases q
    · exact absurd hq (by simp [z0])
    · exact absurd hq (by simp [z1])
    · exact hq
  set sc2 := binScaling T rcut pbc with hsc2
  have hpos2 : ∀ i, 0 < sc2 i := by
    intro i
    rw [hsc2]
    unfold binScaling
    split_ifs
    · norm_num
    · have : 0 < ⌈rcut / T.interplanar i⌉ := Int.ceil_pos.2 (div_pos hr (interplanar_pos T hdetT i))
      omega
  have hposR2 : ∀ i, (0 : ℝ) < sc2 i := fun i => by exact_mod_cast hpos2 i
  have hb2 : ∀ i p, (T.makeSupercell sc2).basis i p = L i p * sc2 i := fun i p => rfl
  have ho2 : ∀ p, (T.makeSupercell sc2).origin p = superLo (sc2 0) * L 0 p + superLo (sc2 1) * L 1 p
      + superLo (sc2 2) * L 2 p := fun p => rfl
  have hfp : ∀ p, a.2 p = f 0 * L 0 p + f 1 * L 1 p + f 2 * L 2 p := by
    intro p
    rw [hf, cartOf, Fin.sum_univ_three]
    rfl
  have hmem : (![0, 0, superLo (sc2 2)] : Fin 3 → ℤ) ∈ superShifts sc2 := by
    unfold superShifts
    rw [mem_cRange3]
    intro i
    obtain ⟨g1, g2, _⟩ := super_range (hpos2 i)
    fin_cases i
    · exact ⟨g1, g2⟩
    · exact ⟨g1, g2⟩
    · exact ⟨le_refl _, g1.trans g2⟩
  set x : Vec ℝ := imagePos L a.2 ![0, 0, superLo (sc2 2)] with hx
  have hxp : ∀ p, x p = a.2 p + L 2 p * superLo (sc2 2) := by
    intro p
    rw [hx, imagePos_apply]
    simp
  have hbox : ∀ p : Fin 3, p = 0 ∨ p = 1 → 0 ≤ x p - (T.makeSupercell sc2).minLimit p ∧
      x p - (T.makeSupercell sc2).minLimit p < (T.makeSupercell sc2).projected p := by
    intro p hp
    have hp2 : L 2 p = 0 := by rcases hp with rfl | rfl <;> assumption
    have hg : ∀ i : Fin 3, i ≠ 2 → 0 ≤ (f i - superLo (sc2 i)) / sc2 i ∧ (f i - superLo (sc2 i)) / sc2 i < 1 := by
      intro i hi
      have hfi : 0 ≤ f i ∧ f i < 1 := by
        fin_cases i
        · exact f0
        · exact f1
        · exact absurd rfl hi
      obtain ⟨g1, g2, g3⟩ := super_range (hpos2 i)
      have g1' : (superLo (sc2 i) : ℝ) ≤ 0 := by exact_mod_cast g1
      have g4 : (1 - superLo (sc2 i) : ℝ) ≤ sc2 i := by
        have : 1 - superLo (sc2 i) ≤ sc2 i := by omega
        exact_mod_cast this
      constructor
      · exact div_nonneg (by linarith [hfi.1]) (hposR2 i).le
      · rw [div_lt_one (hposR2 i)]
        linarith [hfi.2]
    refine inside_box (T.makeSupercell sc2) (fun i => if i = 2 then 0 else (f i - superLo (sc2 i)) / sc2 i) ?_ x p ?_ ?_
    · intro i
      by_cases hi : i = 2
      · simp [hi]
      · simp only [hi, if_false]
        exact hg i hi
    · have c0 : (f 0 - superLo (sc2 0)) / sc2 0 * (L 0 p * sc2 0) = (f 0 - superLo (sc2 0)) * L 0 p := by
        have b0 := (hposR2 0).ne'
        field_simp
      have c1 : (f 1 - superLo (sc2 1)) / sc2 1 * (L 1 p * sc2 1) = (f 1 - superLo (sc2 1)) * L 1 p := by
        have b0 := (hposR2 1).ne'
        field_simp
      rw [hxp, ho2, hfp, Fin.sum_univ_three]
      simp only [hb2]
      rw [if_neg (by decide), if_neg (by decide), if_pos trivial, c0, c1, hp2]
      ring
    · obtain ⟨q, hq⟩ := hdir p
      refine ⟨q, ?_⟩
      rw [hb2]
      exact mul_pos hq (hposR2 q)
  have hzlow : x 2 - (T.makeSupercell sc2).minLimit 2 < 0 := by
    rw [minLimit_eq, hxp, ho2, hfp, Fin.sum_univ_three]
    simp only [hb2, z0, z1]
    rw [min_eq_left (mul_pos hL22 (hposR2 2)).le]
    simp only [zero_mul, mul_zero, min_self, add_zero, zero_add]
    nlinarith
  set nb : Fin 3 → ℤ := fun p => ⌈(T.makeSupercell sc2).projected p / (rcut / 2)⌉ with hnb
  refine make_oob A T rcut pbc sort hdetT hr sc2 rfl nb (fun p => rfl) (a.1, x) ?_ ?_
  · rw [superAtoms_eq, List.mem_flatMap]
    exact ⟨_, hmem, List.mem_map.2 ⟨a, ha, rfl⟩⟩
  · left
    have hr2 : 0 < rcut / 2 := by linarith
    have hlt : ∀ p : Fin 3, p = 0 ∨ p = 1 →
        0 ≤ binIdx (T.makeSupercell sc2).minLimit (fun _ => rcut / 2) x p ∧
        binIdx (T.makeSupercell sc2).minLimit (fun _ => rcut / 2) x p < nb p := by
      intro p hp
      obtain ⟨g1, g2⟩ := hbox p hp
      refine ⟨Int.floor_nonneg.2 (div_nonneg g1 hr2.le), ?_⟩
      have : ((binIdx (T.makeSupercell sc2).minLimit (fun _ => rcut / 2) x p : ℤ) : ℝ) < (nb p : ℤ) :=
        lt_of_le_of_lt (Int.floor_le _) (lt_of_lt_of_le (div_lt_div_of_pos_right g2 hr2) (Int.le_ceil _))
      exact_mod_cast this
    have hneg : binIdx (T.makeSupercell sc2).minLimit (fun _ => rcut / 2) x 2 ≤ -1 := by
      have : binIdx (T.makeSupercell sc2).minLimit (fun _ => rcut / 2) x 2 < 0 :=
        Int.floor_lt.2 (by exact_mod_cast div_neg_of_neg_of_pos hzlow hr2)
      omega
    obtain ⟨l0, l1⟩ := hlt 0 (Or.inl rfl)
    obtain ⟨l2, l3⟩ := hlt 1 (Or.inr rfl)
    show linIdx nb (binIdx (T.makeSupercell sc2).minLimit (fun _ => rcut / 2) x) < 0
    unfold linIdx
    have p0 : 0 < nb 0 := by omega
    have p1 : 0 < nb 1 := by omega
    have p01 := mul_pos p0 p1
    nlinarith

/-- C216 fails when an atom leaves the cell: in an upright cell with an atom on the bottom face the neighbour list is
made, but after moving that atom down, by however little, the neighbour list writes outside its array of bins. -/
theorem C216_violated (A : ArgSort) (L : Fin 3 → Vec ℝ) (atoms : List (ℤ × Vec ℝ)) (pbc : Fin 3 → Bool)
    (hok : CellOk L atoms pbc) (hz : L 0 2 = 0 ∧ L 1 2 = 0 ∧ L 2 0 = 0 ∧ L 2 1 = 0) (i : ℕ) (c : ℤ × Vec ℝ)
    (hc : atoms[i]? = some c) (hbot : c.2 2 = 0) (ε : ℝ) (hε : 0 < ε) (rcut : ℝ) (hr : 0 < rcut) (sort : Bool) :
    (∃ N, NbrLists.make A (CStruct.make L atoms true) rcut pbc sort = .ok N) ∧
    NbrLists.make A (CStruct.make L (atoms.set i (c.1, c.2 - ![0, 0, ε])) true) rcut pbc sort
      = .error .outOfBounds := by
  obtain ⟨N, hN, _⟩ := nbr_exact A L atoms rcut pbc sort hok hr
  refine ⟨⟨N, hN⟩, ?_⟩
  obtain ⟨f, f1, f2⟩ := hok.inCell c (List.mem_of_getElem? hc)
  obtain ⟨hi, _⟩ := List.getElem?_eq_some_iff.1 hc
  have hL22 : 0 < L 2 2 := by
    obtain ⟨q, hq⟩ := hok.dir 2
    fin_cases q
    · exact absurd hq (by simp [hz.1])
    · exact absurd hq (by simp [hz.2.1])
    · exact hq
  have hf2 : f 2 = 0 := by
    rw [f2, cartOf, Fin.sum_univ_three] at hbot
    simp only [Pi.add_apply, Pi.smul_apply, smul_eq_mul, hz.1, hz.2.1] at hbot
    have : f 2 * L 2 2 = 0 := by linarith
    exact (mul_eq_zero.1 this).resolve_right hL22.ne'
  refine below_cell A L _ pbc hok.nonsing hok.dir hz (c.1, c.2 - ![0, 0, ε]) ?_ ![f 0, f 1, -(ε / L 2 2)] (f1 0) (f1 1)
    ?_ ?_ rcut hr sort
  · exact List.mem_iff_getElem.2 ⟨i, by simpa using hi, by simp⟩
  · show -(ε / L 2 2) < 0
    have := div_pos hε hL22
    linarith
  · funext p
    rw [f2]
    simp only [cartOf, Fin.sum_univ_three, Pi.add_apply, Pi.sub_apply, Pi.smul_apply, smul_eq_mul, hf2]
    have := hL22.ne'
    fin_cases p
    · simp [hz.2.2.1]
    · simp [hz.2.2.2]
    · simp [hz.1, hz.2.1]
      field_simp

/-- One atom in a cube, moved down by a millionth. -/
example (A : ArgSort) := C216_violated A (cube 4) [(1, ![0, 0, 0])] (fun _ => true) (cube_ok 4 (by norm_num))
  (by simp [cube]) 0 (1, ![0, 0, 0]) rfl (by simp) (1 / 10 ^ 6) (by norm_num) 4 (by norm_num) true

end MaterSDK
