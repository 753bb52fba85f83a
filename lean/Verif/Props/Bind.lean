import Verif.Lemmas.Bind
import Verif.Lemmas.CellListAux
import Mathlib.Tactic.Linarith
import Mathlib.Tactic.NormNum
import Mathlib.Tactic.Push

/-! # C132 - C133: the Python entry point of the neighbour list -/

namespace MaterSDK

/-! ## C132 -/

/-- Python shows the rows `vs`. -/
def NpMat.Shows (a : NpMat) (vs : List (Vec ℝ)) : Prop :=
  ∀ (i : ℕ) (v : Vec ℝ), vs[i]? = some v → ∀ j : Fin 3, a.at i j = .ok (v j)

/-- Python shows the integers `zs`. -/
def NpInts.Shows (a : NpInts) (zs : List ℤ) : Prop :=
  a.n = zs.length ∧ ∀ (i : ℕ) (z : ℤ), zs[i]? = some z → a.at i = .ok z

/-- C132 (partial: row-major contiguous arrays of doubles, contiguous array of 32 bit integers, as
many coordinates as atoms).  The answer of `nblist.find_info4mlff` is the answer of the neighbour list
(C82) for the lattice, the atomic numbers and the coordinates which Python shows. -/
theorem C132_contiguous_partial (A : ArgSort) (lattice : NpMat) (numbers : NpInts) (coords : NpMat)
    (L : Fin 3 → Vec ℝ) (zs : List ℤ) (xs : List (Vec ℝ)) (rcut : ℝ) (pbc : Fin 3 → Bool) (umax : ℕ)
    (sort isCart : Bool)
    (hL : lattice.Shows [L 0, L 1, L 2]) (hz : numbers.Shows zs) (hx : coords.Shows xs)
    (hn : xs.length = zs.length)
    (cL : lattice.s0 = 3 ∧ lattice.s1 = 1) (cz : numbers.stride = 1 ∧ numbers.long = false)
    (cx : coords.s0 = 3 ∧ coords.s1 = 1) :
    bindFindInfo A lattice numbers coords rcut pbc umax sort isCart =
      (NbrLists.make A (CStruct.make L (zs.zip xs) isCart) rcut pbc sort >>= fun N =>
        N.findInfo umax) := by
  have rd : ∀ (a : NpMat) (vs : List (Vec ℝ)), a.Shows vs → a.s0 = 3 ∧ a.s1 = 1 →
      a.rows vs.length = .ok vs := by
    intro a vs hs hc
    refine npRows_ok fun i v hv j => ?_
    rw [← hs i v hv j]
    unfold NpMat.raw NpMat.at
    rw [hc.1, hc.2]
    congr 1
    push_cast
    ring
  have hl : lattice.rows 3 = .ok [L 0, L 1, L 2] := rd lattice _ hL cL
  have hzs : numbers.ints numbers.n = .ok zs := by
    rw [hz.1]
    refine range_mapM_ok fun i z hi => ?_
    rw [← hz.2 i z hi]
    unfold NpInts.raw NpInts.at
    rw [cz.2, if_neg (by simp), cz.1, mul_one]
  have hxs : coords.rows numbers.n = .ok xs := by
    rw [hz.1, ← hn]; exact rd coords xs hx cx
  unfold bindFindInfo
  rw [hl, ok_bind, hzs, ok_bind, hxs, ok_bind]
  congr 3
  have : (fun i : Fin 3 => ([L 0, L 1, L 2] : List (Vec ℝ)).getD i 0) = L := by
    funext i; fin_cases i <;> rfl
  rw [this]

/-- Arrays for `C132_contiguous_partial`: the cell and the atoms of the example of C82. -/
example : ∃ (lattice coords : NpMat) (numbers : NpInts),
    lattice.Shows [exL 0, exL 1, exL 2] ∧ numbers.Shows [3, 8] ∧
      coords.Shows [![0, 0, 0], ![2, 1, 1]] ∧ (lattice.s0 = 3 ∧ lattice.s1 = 1) ∧
      (numbers.stride = 1 ∧ numbers.long = false) ∧ (coords.s0 = 3 ∧ coords.s1 = 1) := by
  refine ⟨⟨[4, 0, 0, 1, 5, 0, 0, 0, 6], 0, 3, 1⟩, ⟨[0, 0, 0, 2, 1, 1], 0, 3, 1⟩,
    ⟨[3, 8], 0, 2, 1, false⟩, ?_, ⟨rfl, ?_⟩, ?_, ⟨rfl, rfl⟩, ⟨rfl, rfl⟩, ⟨rfl, rfl⟩⟩
  · intro i v hv j
    match i, hv with
    | 0, hv => obtain rfl := Option.some.inj hv; fin_cases j <;> simp [NpMat.at, cGet, exL]
    | 1, hv => obtain rfl := Option.some.inj hv; fin_cases j <;> simp [NpMat.at, cGet, exL]
    | 2, hv => obtain rfl := Option.some.inj hv; fin_cases j <;> simp [NpMat.at, cGet, exL]
    | _ + 3, hv => simp at hv
  · intro i z hz
    match i, hz with
    | 0, hz => obtain rfl := Option.some.inj hz; rfl
    | 1, hz => obtain rfl := Option.some.inj hz; rfl
    | _ + 2, hz => simp at hz
  · intro i v hv j
    match i, hv with
    | 0, hv => obtain rfl := Option.some.inj hv; fin_cases j <;> simp [NpMat.at, cGet]
    | 1, hv => obtain rfl := Option.some.inj hv; fin_cases j <;> simp [NpMat.at, cGet]
    | _ + 2, hv => simp at hv

/-- C132 is false for every other layout: whatever the strides, if they are not those of a contiguous
array there are contents for which the code reads other rows than Python shows. -/
theorem C132_layout_violated (n off : ℕ) (s0 s1 : ℤ) (hn : 2 ≤ n) (hs : ¬ (s0 = 3 ∧ s1 = 1))
    (hp : ∀ i j : ℕ, i < n → j < 3 → 0 ≤ (off : ℤ) + i * s0 + j * s1) :
    ∃ (mem : List ℝ) (vs ws : List (Vec ℝ)), vs.length = n ∧ (⟨mem, off, s0, s1⟩ : NpMat).Shows vs ∧
      (⟨mem, off, s0, s1⟩ : NpMat).rows n = .ok ws ∧ vs ≠ ws := by
  set M : ℕ := off + 3 * n + n * s0.natAbs + 3 * s1.natAbs + 1 with hM
  have hmem : ∀ k : ℕ, k < M → ((List.range M).map fun k : ℕ => (k : ℝ))[k]? = some (k : ℝ) := by
    intro k hk
    rw [List.getElem?_map, List.getElem?_range hk]; rfl
  set vs : List (Vec ℝ) := (List.range n).map fun i : ℕ => fun j : Fin 3 =>
    (((off : ℤ) + i * s0 + (j : ℕ) * s1 : ℤ) : ℝ) with hvs
  set ws : List (Vec ℝ) := (List.range n).map fun i : ℕ => fun j : Fin 3 =>
    ((off + (i * 3 + j) : ℕ) : ℝ) with hws
  refine ⟨(List.range M).map fun k : ℕ => (k : ℝ), vs, ws, by simp [hvs], ?_, ?_, ?_⟩
  · intro i v hv j
    have hi : i < n := by
      have := (List.getElem?_eq_some_iff.1 hv).1
      simpa [hvs] using this
    have hv' : v = fun j : Fin 3 => (((off : ℤ) + i * s0 + (j : ℕ) * s1 : ℤ) : ℝ) := by
      rw [hvs, List.getElem?_map, List.getElem?_range hi] at hv
      exact (Option.some.inj hv).symm
    obtain ⟨k, hk⟩ := Int.eq_ofNat_of_zero_le (hp i j hi j.2)
    have hkM : k < M := by
      have h1 : (i : ℤ) * s0 ≤ n * s0.natAbs := by
        have ha : s0 ≤ (s0.natAbs : ℤ) := Int.le_natAbs
        have hb : (i : ℤ) ≤ n := by exact_mod_cast hi.le
        calc (i : ℤ) * s0 ≤ i * s0.natAbs := mul_le_mul_of_nonneg_left ha (by omega)
          _ ≤ n * s0.natAbs := mul_le_mul_of_nonneg_right hb (by omega)
      have h2 : ((j : ℕ) : ℤ) * s1 ≤ 3 * s1.natAbs := by
        have ha : s1 ≤ (s1.natAbs : ℤ) := Int.le_natAbs
        have hb : ((j : ℕ) : ℤ) ≤ 3 := by have := j.2; omega
        calc ((j : ℕ) : ℤ) * s1 ≤ (j : ℕ) * s1.natAbs := mul_le_mul_of_nonneg_left ha (by omega)
          _ ≤ 3 * s1.natAbs := mul_le_mul_of_nonneg_right hb (by omega)
      have h3 : (k : ℤ) ≤ off + n * s0.natAbs + 3 * s1.natAbs := by
        rw [← show (off : ℤ) + i * s0 + (j : ℕ) * s1 = k from hk]; linarith
      have h4 : k ≤ off + n * s0.natAbs + 3 * s1.natAbs := by exact_mod_cast h3
      omega
    unfold NpMat.at
    have hk' : (off : ℤ) + i * s0 + (j : ℕ) * s1 = (k : ℤ) := hk
    rw [hv']
    simp only [hk']
    rw [npGet_ok (hmem k hkM)]
    norm_num
  · have : n = ws.length := by simp [hws]
    conv_lhs => rw [this]
    refine npRows_ok fun i v hv j => ?_
    have hi : i < n := by
      have := (List.getElem?_eq_some_iff.1 hv).1
      simpa [hws] using this
    have hv' : v = fun j : Fin 3 => ((off + (i * 3 + j) : ℕ) : ℝ) := by
      rw [hws, List.getElem?_map, List.getElem?_range hi] at hv
      exact (Option.some.inj hv).symm
    unfold NpMat.raw
    rw [hv', show ((off : ℤ) + ((i * 3 + (j : ℕ) : ℕ) : ℤ)) = ((off + (i * 3 + j) : ℕ) : ℤ) by push_cast; rfl,
      npGet_ok (hmem _ (by have := j.2; omega))]
  · intro he
    have key : ∀ i < n, ∀ j : Fin 3, (off : ℤ) + i * s0 + (j : ℕ) * s1 = off + (i * 3 + (j : ℕ)) := by
      intro i hi j
      have h1 : vs[i]? = ws[i]? := by rw [he]
      rw [hvs, hws, List.getElem?_map, List.getElem?_map, List.getElem?_range hi] at h1
      have h2 := congrFun (Option.some.inj h1) j
      have h3 : (((off : ℤ) + i * s0 + (j : ℕ) * s1 : ℤ) : ℝ) = ((((off + (i * 3 + (j : ℕ)) : ℕ)) : ℤ) : ℝ) := by
        refine Eq.trans h2 ?_; push_cast; rfl
      have h4 := Int.cast_injective h3
      rw [h4]; push_cast; rfl
    have e1 := key 0 (by omega) 1
    have e2 := key 1 (by omega) 0
    simp only [Fin.val_one, Fin.val_zero] at e1 e2
    push_cast at e1 e2
    exact hs ⟨by linarith, by linarith⟩

/-- A layout for `C132_layout_violated`: a transposed matrix. -/
example : ∃ (mem : List ℝ) (vs ws : List (Vec ℝ)), vs.length = 3 ∧
    (⟨mem, 0, 1, 3⟩ : NpMat).Shows vs ∧ (⟨mem, 0, 1, 3⟩ : NpMat).rows 3 = .ok ws ∧ vs ≠ ws :=
  C132_layout_violated 3 0 1 3 (by norm_num) (by norm_num) (by intro i j _ _; push_cast; positivity)

/-- C132 is false for numpy's default integers: a contiguous 64 bit array which shows the atomic
numbers `zs` is read as these numbers with a zero after each, cut off after as many entries as there
are atoms. -/
theorem C132_int64_violated (zs : List ℤ) (hz : ∀ z ∈ zs, 0 ≤ z ∧ z < 2 ^ 31) :
    (⟨zs.flatMap fun z => [z, 0], 0, zs.length, 2, true⟩ : NpInts).Shows zs ∧
    (⟨zs.flatMap fun z => [z, 0], 0, zs.length, 2, true⟩ : NpInts).ints zs.length =
      .ok ((zs.flatMap fun z => [z, 0]).take zs.length) := by
  have hget : ∀ (zs : List ℤ) (i : ℕ) (z : ℤ), zs[i]? = some z →
      (zs.flatMap fun z => [z, 0])[2 * i]? = some z ∧ (zs.flatMap fun z => [z, 0])[2 * i + 1]? = some 0 := by
    intro zs
    induction zs with
    | nil => intro i z h; simp at h
    | cons a zs ih =>
      intro i z h
      cases i with
      | zero =>
        obtain rfl : a = z := by simpa using h
        simp
      | succ i =>
        have := ih i z (by simpa using h)
        rw [show 2 * (i + 1) = 2 * i + 2 by ring]
        simpa [List.flatMap_cons] using this
  refine ⟨⟨rfl, fun i z hi => ?_⟩, ?_⟩
  · obtain ⟨h1, h2⟩ := hget zs i z hi
    have hzz := hz z (List.mem_of_getElem? hi)
    unfold NpInts.at
    simp only [if_true]
    rw [show ((0 : ℕ) : ℤ) + (i : ℤ) * 2 = ((2 * i : ℕ) : ℤ) by push_cast; ring, npGet_ok h1,
      show (((2 * i : ℕ) : ℤ) + 1) = ((2 * i + 1 : ℕ) : ℤ) by push_cast; ring, npGet_ok h2]
    simp only [ok_bind, mul_zero, add_zero]
    rw [Int.emod_eq_of_lt hzz.1 (by have := hzz.2; norm_num at this ⊢; linarith)]
    rfl
  · have hlen : ((zs.flatMap fun z => [z, 0]).take zs.length).length = zs.length := by
      have : (zs.flatMap fun z => [z, (0 : ℤ)]).length = 2 * zs.length := by
        rw [List.length_flatMap]; simp; ring
      rw [List.length_take, this]; omega
    conv_lhs => rw [← hlen]
    rw [hlen]
    conv_lhs => rw [← hlen]
    refine range_mapM_ok fun i z hi => ?_
    have hi' : (zs.flatMap fun z => [z, (0 : ℤ)])[i]? = some z := by
      rw [List.getElem?_take] at hi
      split at hi
      · exact hi
      · simp at hi
    unfold NpInts.raw
    simpa using npGet_ok hi'

/-- Copper oxide: the oxygen is read as element 0. -/
example : (⟨([29, 8] : List ℤ).flatMap fun z => [z, 0], 0, 2, 2, true⟩ : NpInts).ints 2 = .ok [29, 0] :=
  (C132_int64_violated [29, 8] (by decide)).2

/-- Fewer coordinates than atoms: the code reads past the end of the array. -/
theorem C132_short_violated (A : ArgSort) (lattice : NpMat) (numbers : NpInts) (mem : List ℝ)
    (L : List (Vec ℝ)) (zs : List ℤ) (rcut : ℝ) (pbc : Fin 3 → Bool) (umax : ℕ) (sort isCart : Bool)
    (hL : lattice.rows 3 = .ok L) (hz : numbers.ints numbers.n = .ok zs)
    (h : mem.length < 3 * numbers.n) :
    bindFindInfo A lattice numbers ⟨mem, 0, 3, 1⟩ rcut pbc umax sort isCart = .error .outOfBounds := by
  have hx : (⟨mem, 0, 3, 1⟩ : NpMat).rows numbers.n = .error .outOfBounds := by
    have hor : ∀ k, (⟨mem, 0, 3, 1⟩ : NpMat).row k = .error .outOfBounds ∨
        ∃ v, (⟨mem, 0, 3, 1⟩ : NpMat).row k = .ok v := by
      intro k
      have hr : ∀ m, (⟨mem, 0, 3, 1⟩ : NpMat).raw m = .error .outOfBounds ∨
          ∃ x, (⟨mem, 0, 3, 1⟩ : NpMat).raw m = .ok x := by
        intro m
        unfold NpMat.raw cGet
        split
        · exact Or.inl rfl
        · split
          · exact Or.inr ⟨_, rfl⟩
          · exact Or.inl rfl
      unfold NpMat.row
      rcases hr (k * 3 + 0) with h0 | ⟨x, h0⟩
      · left; rw [h0]; rfl
      rcases hr (k * 3 + 1) with h1 | ⟨y, h1⟩
      · left; rw [h0, h1]; rfl
      rcases hr (k * 3 + 2) with h2 | ⟨z, h2⟩
      · left; rw [h0, h1, h2]; rfl
      · right; exact ⟨_, by rw [h0, h1, h2]; rfl⟩
    have hbad : ∃ k < numbers.n, (⟨mem, 0, 3, 1⟩ : NpMat).row k = .error .outOfBounds := by
      refine ⟨numbers.n - 1, by omega, ?_⟩
      rcases hor (numbers.n - 1) with h1 | ⟨v, h1⟩
      · exact h1
      · exfalso
        have hlast : (⟨mem, 0, 3, 1⟩ : NpMat).raw ((numbers.n - 1) * 3 + 2) = .error .outOfBounds := by
          unfold NpMat.raw cGet
          rw [if_neg (by simp; omega)]
          have : mem[(((0 : ℕ) : ℤ) + (((numbers.n - 1) * 3 + 2 : ℕ) : ℤ)).toNat]? = none := by
            rw [List.getElem?_eq_none_iff]; omega
          rw [this]
        unfold NpMat.row at h1
        rw [hlast] at h1
        rcases bind_eq_ok.1 h1 with ⟨x, _, h2⟩
        rcases bind_eq_ok.1 h2 with ⟨y, _, h3⟩
        cases h3
    unfold NpMat.rows
    generalize numbers.n = n at hbad
    obtain ⟨k, hk, hb⟩ := hbad
    have : ∀ (l : List ℕ), k ∈ l → l.mapM (⟨mem, 0, 3, 1⟩ : NpMat).row = .error .outOfBounds := by
      intro l
      induction l with
      | nil => intro h; simp at h
      | cons a l ih =>
        intro hm
        rw [List.mapM_cons]
        rcases hor a with h1 | ⟨v, h1⟩
        · rw [h1]; rfl
        · rw [h1, ok_bind]
          rcases List.mem_cons.1 hm with rfl | hm
          · rw [hb] at h1; cases h1
          · rw [ih hm]; rfl
    exact this _ (List.mem_range.2 hk)
  unfold bindFindInfo
  rw [hL, ok_bind, hz, ok_bind, hx]
  rfl

example (A : ArgSort) := C132_short_violated A ⟨[4, 0, 0, 1, 5, 0, 0, 0, 6], 0, 3, 1⟩
  ⟨[3, 8], 0, 2, 1, false⟩ [0, 0, 0] [![4, 0, 0], ![1, 5, 0], ![0, 0, 6]] [3, 8] 3 (fun _ => true) 10 true true
  rfl rfl (by decide)

/-! ## C133 -/

/-- C133 is false: every call leaves the array `firstneigh` behind when its result is dropped, four
bytes for each of its `inum × umax` entries.  Everything else of the call is released, and nothing is
freed twice. -/
theorem C133_leak (calls : List (ℕ × ℕ)) (h : ByteHeap) :
    ∃ h', bindCalls calls h = .ok h' ∧
      liveBytes h' = liveBytes h + (calls.map fun c => 4 * c.1 * c.2).sum := by
  induction calls generalizing h with
  | nil => exact ⟨h, rfl, by simp⟩
  | cons c cs ih =>
    unfold bindCalls
    rw [bindMemory_eq, ok_bind]
    simp only [dropResult_eq, ok_bind]
    obtain ⟨h', h1, h2⟩ := ih (h ++ [none, none, some (4 * c.1 * c.2), none, none, none, none, none, none, none])
    refine ⟨h', h1, ?_⟩
    rw [h2]
    simp [liveBytes]
    omega

/-- While the result lives, its five buffers are exactly what the call has allocated. -/
theorem C133_result (h : ByteHeap) (inum umax : ℕ) :
    ∃ h' arrs, bindMemory h inum umax = .ok (h', arrs) ∧
      liveBytes h' = liveBytes h + (4 * inum + 4 * inum + 4 * inum * umax + 8 * inum * umax * 3 + 4 * inum) ∧
      arrs.length = 5 ∧ (arrs.map NpArr.ptr).Nodup ∧
      ∀ a ∈ arrs, h.length ≤ a.ptr ∧ ∃ size, h'[a.ptr]? = some (some size) := by
  refine ⟨_, _, bindMemory_eq h inum umax, by simp [liveBytes]; omega, rfl, by simp, ?_⟩
  intro a ha
  simp only [List.mem_cons, List.not_mem_nil, or_false] at ha
  rcases ha with rfl | rfl | rfl | rfl | rfl <;> exact ⟨by simp, by simp⟩

/-- A thousand calls for 100 atoms with 200 columns leave 80 million bytes. -/
example : ∃ h', bindCalls (List.replicate 1000 (100, 200)) [] = .ok h' ∧ liveBytes h' = 80000000 := by
  obtain ⟨h', h1, h2⟩ := C133_leak (List.replicate 1000 (100, 200)) []
  exact ⟨h', h1, by rw [h2, List.map_replicate, List.sum_replicate]; rfl⟩

end MaterSDK
