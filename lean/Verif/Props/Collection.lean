import Verif.Lemmas.Collection
import Verif.Props.StructIO

/-!
# C157 - C162: collections of structures as Python objects
-/

namespace MaterSDK

/-! ## C157 -/

/-- C157: a slice of a collection holds the frames at the positions the slice selects, in the order of
the slice, each with its own energies and virial; a slice that selects nothing is an `IndexError`. The
collection has one entry per frame in every array. -/
theorem C157_slice (c : CollObj) (ha : c.Aligned) (s : PySliceObj) (hs : s.step ≠ some 0) :
    ∃ idx, Selects s c.frames.length idx ∧
      (idx = [] → c.getSlice s = .error .indexError) ∧
      (idx ≠ [] → ∃ c', c.getSlice s = .ok c' ∧ c'.Aligned ∧ c'.frames.length = idx.length ∧
        ∀ (k : ℕ) (i : ℤ), idx[k]? = some i →
          c'.frames[k]? = c.frames[i.toNat]? ∧ c'.etot[k]? = c.etot[i.toNat]? ∧
          c'.ep[k]? = c.ep[i.toNat]? ∧ c'.ek[k]? = c.ek[i.toNat]? ∧
          c'.virial[k]? = c.virial[i.toNat]?) := by
  obtain ⟨idx, hi, hsel⟩ := sliceIndices_selects s c.frames.length hs
  obtain ⟨fr, e1, e2, e3, v, -, -, -, -, -, hg, hk, l0, l1, l2, l3, l4⟩ :=
    getSlice_eq c ha s idx hi hsel.range
  refine ⟨idx, hsel, ?_, ?_⟩
  · rintro rfl
    rw [hg]
    obtain rfl : fr = [] := List.length_eq_zero_iff.1 (by simpa using l0)
    rfl
  · intro hne
    cases fr with
    | nil => exact absurd (List.length_eq_zero_iff.1 (by simpa using l0.symm)) hne
    | cons f fs =>
      rw [hg, mkColl_cons]
      refine ⟨_, rfl, ⟨?_, ?_, ?_, ?_⟩, l0, hk⟩
      · show e1.length = (f :: fs).length
        rw [l0, l1]
      · show e2.length = (f :: fs).length
        rw [l0, l2]
      · show e3.length = (f :: fs).length
        rw [l0, l3]
      · show v.length = (f :: fs).length
        rw [l0, l4]

/-- C157: slicing and `from_indices` with the sliced positions give the same collection. -/
theorem C157_same_as_from_indices (c : CollObj) (ha : c.Aligned) (s : PySliceObj) (idx : List ℤ)
    (h : sliceIndices s c.frames.length = .ok idx) (hne : idx ≠ []) :
    c.getSlice s = c.select idx := by
  have hs : s.step ≠ some 0 := by
    intro h0
    simp [sliceIndices, h0] at h
  obtain ⟨idx', hi, hsel⟩ := sliceIndices_selects s c.frames.length hs
  rw [h] at hi
  obtain rfl := Except.ok.inj hi
  obtain ⟨fr, e1, e2, e3, v, m0, m1, m2, m3, m4, hg, -⟩ := getSlice_eq c ha s idx h hsel.range
  rw [hg]
  unfold CollObj.select
  cases hm : idx.max? with
  | none => exact absurd (List.max?_eq_none_iff.1 hm) hne
  | some mx =>
    have := (hsel.range mx (List.max?_mem hm)).2
    simp only
    rw [if_neg (by omega), m0, ok_bind, m1, ok_bind, m2, ok_bind, m3, ok_bind, m4]

/-- C157: a step of 0 is an error. -/
theorem C157_zero_step (c : CollObj) (a b : Option ℤ) :
    c.getSlice ⟨a, b, some 0⟩ = .error .valueError := by
  unfold CollObj.getSlice sliceGet sliceIndices
  rfl

/-- A frame with one silicon atom. -/
def oneSi (x : ℚ) (f e : Option (List ℚ)) : StructV := ⟨[5, 0, 0, 0, 5, 0, 0, 0, 5], [⟨14, [x, 0, 0], f, e⟩]⟩

/-- Five frames. -/
def fiveFrames : CollObj :=
  ⟨[oneSi 0 none none, oneSi 1 none none, oneSi 2 none none, oneSi 3 none none, oneSi 4 none none],
   [10, 11, 12, 13, 14], [20, 21, 22, 23, 24], [30, 31, 32, 33, 34], [[0], [1], [2], [3], [4]],
   [14], [(14, 1)], 1⟩

example : fiveFrames.Aligned := ⟨rfl, rfl, rfl, rfl⟩

example : (fiveFrames.getSlice ⟨some (-1), some 0, some (-2)⟩).map (fun c => (c.etot, c.virial)) =
    .ok ([14, 12], [[4], [2]]) := by decide +kernel

example : (fiveFrames.getSlice ⟨some 1, some 100, none⟩).map (fun c => c.ek) =
    .ok [31, 32, 33, 34] := by decide +kernel

/-! ## C158 -/

/-- C158 fails for every collection and every index: `collection[i]` never returns. Within range it is
an `AttributeError` (`IndexError` for a frame without atoms), because the constructor takes the single
structure for a list of structures. -/
theorem C158_violated (c : CollObj) (i : ℤ) :
    (∃ e, c.getInt i = .error e) ∧
    (c.Aligned → ∀ s, pyGetI c.frames i = .ok s → s.sites ≠ [] →
      c.getInt i = .error .attributeError) := by
  have key : ∀ {α : Type} (x : Except PyErr α) (f : α → Except PyErr Unit),
      (∀ a, ∃ e, f a = .error e) → ∃ e, (x >>= f) = .error e := by
    intro α x f h
    cases x with
    | error e => exact ⟨e, rfl⟩
    | ok a => exact h a
  refine ⟨?_, ?_⟩
  · unfold CollObj.getInt
    refine key _ _ fun s => key _ _ fun _ => key _ _ fun _ => key _ _ fun _ => key _ _ fun _ => ?_
    exact ⟨_, mkCollOfStruct_err s⟩
  · rintro ⟨h1, h2, h3, h4⟩ s hs hne
    have hget : ∀ {α : Type} (l : List α), l.length = c.frames.length → ∃ x, pyGetI l i = .ok x := by
      intro α l hl
      unfold pyGetI pyGet at hs ⊢
      simp only at hs ⊢
      rw [hl]
      generalize (if i < 0 then i + (c.frames.length : ℤ) else i) = j at hs ⊢
      by_cases hj : j < 0
      · rw [if_pos hj] at hs; cases hs
      · rw [if_neg hj] at hs ⊢
        have hlt : j.toNat < c.frames.length := by
          by_contra hc
          rw [List.getElem?_eq_none (by omega)] at hs
          cases hs
        rw [List.getElem?_eq_getElem (by omega)]
        exact ⟨_, rfl⟩
    obtain ⟨x1, e1⟩ := hget c.etot h1
    obtain ⟨x2, e2⟩ := hget c.ep h2
    obtain ⟨x3, e3⟩ := hget c.ek h3
    obtain ⟨x4, e4⟩ := hget c.virial h4
    unfold CollObj.getInt
    rw [hs, ok_bind, e1, ok_bind, e2, ok_bind, e3, ok_bind, e4, ok_bind, mkCollOfStruct_err, if_neg hne]

/-- C158 fails for loops as well: going through a collection whose first frame has an atom is an
`AttributeError`. -/
theorem C158_violated_loop (c : CollObj) (ha : c.Aligned) (s : StructV) (h : c.frames[0]? = some s)
    (hne : s.sites ≠ []) : c.iter = .error .attributeError := by
  have h0 : pyGetI c.frames ((0 : ℕ) : ℤ) = .ok s := by
    rw [pyGetI_nat]
    simp [pyGet, h]
  have := (C158_violated c ((0 : ℕ) : ℤ)).2 ha s h0 hne
  unfold CollObj.iter CollObj.iterFrom
  rw [this]

/-- C158, what holds: an index outside the collection is an `IndexError`; a slice of length one gives
the frame as a collection of its own. -/
theorem C158_single_partial (c : CollObj) (ha : c.Aligned) (i : ℕ) :
    (c.frames.length ≤ i → c.getInt i = .error .indexError) ∧
    (i < c.frames.length → ∃ c', c.getSlice ⟨some i, some (i + 1), none⟩ = .ok c' ∧
      c'.frames.length = 1 ∧ c'.frames[0]? = c.frames[i]? ∧ c'.etot[0]? = c.etot[i]? ∧
      c'.virial[0]? = c.virial[i]?) := by
  refine ⟨?_, ?_⟩
  · intro h
    unfold CollObj.getInt
    rw [pyGetI_nat]
    simp [pyGet, List.getElem?_eq_none h, error_bind]
  · intro h
    obtain ⟨idx, hsel, -, hok⟩ := C157_slice c ha ⟨some i, some (i + 1), none⟩ (by simp)
    have hmem : ∀ j, j ∈ idx ↔ j = (i : ℤ) := by
      intro j
      unfold Selects at hsel
      simp only [Option.getD_none, zero_lt_one, if_true] at hsel
      rw [hsel.2 j]
      simp only [sliceLow, BeforeStop, one_dvd, and_true]
      rw [if_neg (by omega), if_neg (by omega)]
      omega
    have hnd : idx.Pairwise (· < ·) := by
      unfold Selects at hsel
      simp only [Option.getD_none, zero_lt_one, if_true] at hsel
      exact hsel.1
    have hidx : idx = [(i : ℤ)] := by
      cases hidx : idx with
      | nil => simpa [hidx] using (hmem i).2 rfl
      | cons a as =>
        rw [hidx] at hmem hnd
        have ha' := (hmem a).1 (by simp)
        cases as with
        | nil => rw [ha']
        | cons b bs =>
          have hb := (hmem b).1 (by simp)
          have := (List.pairwise_cons.1 hnd).1 b (by simp)
          omega
    obtain ⟨c', h1, -, h2, h3⟩ := hok (by rw [hidx]; simp)
    obtain ⟨f0, f1, -, -, f4⟩ := h3 0 i (by rw [hidx]; rfl)
    refine ⟨c', h1, by rw [h2, hidx]; rfl, ?_, ?_, ?_⟩
    · simpa using f0
    · simpa using f1
    · simpa using f4

example : fiveFrames.getInt 2 = .error .attributeError ∧ fiveFrames.iter = .error .attributeError := by
  decide +kernel

/-! ## C159 -/

/-- C159, what holds: `atomic_numbers_lst` lists the elements of the first frame once each, `an2na`
gives the number of its atoms of each, they sum to `num_atoms`, its number of atoms; and so for every
frame with the same atoms in another order.
Missing: frames with other atoms, which are not refused (`C159_violated`). -/
theorem C159_counts_partial (fs : List StructV) (etot ep ek : List ℚ) (v : List (List ℚ)) (c : CollObj)
    (h : mkColl fs etot ep ek v = .ok c) (f : StructV) (hf : f ∈ c.frames)
    (hp : ∀ f0, fs[0]? = some f0 →
      (f.sites.map SiteObj.number).Perm (f0.sites.map SiteObj.number)) :
    c.numbers.Nodup ∧ (∀ z, z ∈ c.numbers ↔ ∃ t ∈ f.sites, t.number = z) ∧
      c.an2na = c.numbers.map (fun z => (z, (f.sites.filter (fun t => t.number = z)).length)) ∧
      c.numAtoms = f.sites.length ∧ (c.an2na.map Prod.snd).sum = c.numAtoms := by
  obtain ⟨f0, h0, rfl⟩ := mkColl_ok h
  have hp := hp f0 h0
  have hc : ∀ (s : StructV) z,
      (s.sites.filter (fun t => t.number = z)).length = (s.sites.map SiteObj.number).count z := by
    intro s z
    rw [List.count_eq_length_filter, List.filter_map, List.length_map]
    rfl
  refine ⟨counterKeys_nodup _, ?_, ?_, ?_, ?_⟩
  · intro z
    show z ∈ counterKeys _ ↔ _
    rw [mem_counterKeys, ← hp.mem_iff]
    simp
  · show List.map _ _ = List.map _ _
    simp only [hc]
    apply List.map_congr_left
    intro z _
    rw [hp.count_eq]
  · show f0.sites.length = _
    have := hp.length_eq
    simp only [List.length_map] at this
    exact this.symm
  · show ((List.map _ _).map Prod.snd).sum = f0.sites.length
    rw [List.map_map]
    have he : (Prod.snd ∘ fun z => (z, (f0.sites.filter (fun t => t.number = z)).length)) =
        fun z => (f0.sites.map SiteObj.number).count z := by
      funext z
      exact hc f0 z
    rw [he]
    have hperm : (counterKeys (f0.sites.map SiteObj.number)).Perm (f0.sites.map SiteObj.number).dedup := by
      rw [List.perm_ext_iff_of_nodup (counterKeys_nodup _) (List.nodup_dedup _)]
      intro a
      rw [mem_counterKeys, List.mem_dedup]
    rw [(hperm.map _).sum_eq, List.sum_map_count_dedup_eq_length, List.length_map]

/-- Silicon and oxygen. -/
def siO : StructV := ⟨[5, 0, 0, 0, 5, 0, 0, 0, 5], [⟨14, [0, 0, 0], none, none⟩, ⟨8, [1, 0, 0], none, none⟩]⟩

/-- Oxygen twice. -/
def oO : StructV := ⟨[5, 0, 0, 0, 5, 0, 0, 0, 5], [⟨8, [0, 0, 0], none, none⟩, ⟨8, [1, 0, 0], none, none⟩]⟩

/-- C159 fails for a collection of frames with different atoms: it is accepted, and says that there is
one silicon atom in frames that have none. -/
theorem C159_violated : ∃ c, mkColl [siO, oO] [0, 0] [0, 0] [0, 0] [[0], [0]] = .ok c ∧
    c.frames[1]? = some oO ∧ c.an2na = [(14, 1), (8, 1)] ∧ ∀ t ∈ oO.sites, t.number = 8 :=
  ⟨_, rfl, rfl, rfl, by decide⟩

example : (mkColl [siO, siO] [0, 0] [0, 0] [0, 0] [[0], [0]]).map (fun c => (c.numbers, c.an2na, c.numAtoms)) =
    .ok ([14, 8], [(14, 1), (8, 1)], 2) := by decide +kernel

/-! ## C160 -/

/-- C160 fails for every atom.config file with atoms, and for whatever else is made of lattice, species
and coordinates: the structure has neither forces nor atomic energies. -/
theorem C160_violated (z : Str → ℕ) (cached rows : List Str) (s : QStruct)
    (_h : fromFile cached rows = .ok s) (hne : s.sites ≠ []) :
    (StructV.ofQ z s).atomicForce = .error .attributeError ∧
    (StructV.ofQ z s).atomicEnergy = .error .attributeError := by
  unfold StructV.atomicForce StructV.atomicEnergy StructV.ofQ
  cases hs : s.sites with
  | nil => exact absurd hs hne
  | cons t ts =>
    simp only [List.map_cons, List.mapM_cons]
    exact ⟨rfl, rfl⟩

/-- C160 fails for collections as well: one whose first frame was read from a file cannot be printed. -/
theorem C160_violated_repr (z : Str → ℕ) (s : QStruct) (fs : List StructV) (etot ep ek : List ℚ)
    (v : List (List ℚ)) (c : CollObj) (h : mkColl (StructV.ofQ z s :: fs) etot ep ek v = .ok c)
    (hne : s.sites ≠ []) : c.repr = .error .attributeError := by
  obtain ⟨f0, h0, rfl⟩ := mkColl_ok h
  unfold CollObj.repr
  cases hs : s.sites with
  | nil => exact absurd hs hne
  | cons t ts =>
    simp only [pyGet, List.getElem?_cons_zero, StructV.ofQ, hs, List.map_cons]
    rfl

/-- C160, what holds: for a structure whose sites were given a force and an atomic energy, they are
returned in the order of the sites. -/
theorem C160_given_partial (s : StructV) (F : List (List ℚ)) (E : List ℚ) (h : s.Complete F E) :
    s.atomicForce = .ok F ∧ s.atomicEnergy = .ok E := by
  obtain ⟨h1, h2⟩ := h
  unfold StructV.atomicForce StructV.atomicEnergy
  constructor
  · rw [mapM_eq_ok, List.forall₂_iff_get]
    refine ⟨by simpa using congrArg List.length h1, fun i hi hj => ?_⟩
    · have := congrArg (fun l => l[i]?) h1
      simp only [List.getElem?_map, List.getElem?_eq_getElem hi, List.getElem?_eq_getElem hj,
        Option.map_some, Option.some.injEq] at this
      simp only [List.get_eq_getElem]
      unfold SiteObj.getForce
      rw [this]
  · rw [mapM_eq_ok, List.forall₂_iff_get]
    refine ⟨by simpa using congrArg List.length h2, fun i hi hj => ?_⟩
    · have := congrArg (fun l => l[i]?) h2
      simp only [List.getElem?_map, List.getElem?_eq_getElem hi, List.getElem?_eq_getElem hj,
        Option.map_some, Option.some.injEq] at this
      simp only [List.get_eq_getElem]
      unfold SiteObj.getEnergy
      cases he : s.sites[i].energy with
      | none => rw [he] at this; simp at this
      | some e =>
        rw [he] at this
        cases e with
        | nil => simp at this
        | cons a as =>
          simp only [Option.bind_some, List.head?_cons, Option.some.injEq] at this
          rw [this]
          rfl

example : (oneSi 0 (some [1, 2, 3]) (some [-5])).Complete [[1, 2, 3]] [-5] := ⟨rfl, rfl⟩

example : (StructV.ofQ (fun _ => 14) sampleStruct).sites ≠ [] ∧
    fromFile (fileLines (toPwmat sampleStruct false).1) (fileLines (toPwmat sampleStruct false).1) =
      .ok (readBack sampleStruct) := by decide +kernel

/-! ## C161 -/

/-- C161 fails for every trajectory: `from_trajectory_s` is an `AttributeError`. -/
theorem C161_violated (z : Str → ℕ) (text : Str) (m : Movement) (h : Movement.load text = .ok m) :
    collFromTrajectory z m = .error .attributeError := by
  unfold Movement.load at h
  rw [bind_eq_ok] at h
  obtain ⟨sizes, hs, h⟩ := h
  obtain rfl := Except.ok.inj h
  unfold chunkSizes at hs
  simp only at hs
  rw [bind_eq_ok] at hs
  obtain ⟨first, -, hs⟩ := hs
  obtain rfl := Except.ok.inj hs
  have hstep : ∀ f, infoStep f = .error .attributeError := by
    intro f
    unfold infoStep
    rw [C48_from_str_never_succeeds]
    rfl
  unfold collFromTrajectory Movement.allInfo Movement.allFrameStrs
  simp only [seqFrames, List.mapM_cons, hstep]
  rfl

example : ∃ m, Movement.load ((chars% "1 atoms\n") ++ sepText ++ (chars% "\n")) = .ok m := by
  exact ⟨_, rfl⟩

/-! ## C162 -/

/-- C162, what holds: an export that succeeds leaves exactly the exported sets in the folder, whatever
was there before; forces and atomic energies are those of the sites, in order.
Missing: an export that fails (`C162_violated`). -/
theorem C162_success_partial (fs : List StructV) (etot ep ek : List ℚ) (v : List (List ℚ)) (c : CollObj)
    (h : mkColl fs etot ep ek v = .ok c) (size : ℤ) (old : Option OutDir) (d : OutDir)
    (hd : c.export size old = (d, .ok ())) :
    (∀ old', c.export size old' = (d, .ok ())) ∧
    ∃ data tm ty sets, List.Forall₂ (fun (s : StructV) (x : FrameData) => ∃ F E,
        s.atomicForce = .ok F ∧ s.atomicEnergy = .ok E ∧
        x = ⟨s.box, (s.sites.map SiteObj.cart).flatten, F.flatten, E, s.sites.map SiteObj.number⟩)
        fs data ∧
      (StructCollection.mk data etot ep ek v).to size = .ok (tm, ty, sets) ∧
      d = ⟨some tm, some ty, sets⟩ := by
  refine ⟨fun _ => hd, ?_⟩
  obtain ⟨f0, h0, rfl⟩ := mkColl_ok h
  unfold CollObj.export at hd
  simp only at hd
  split at hd
  · simp at hd
  · rename_i types ht
    split at hd
    · simp at hd
    · rename_i out ho
      rw [bind_eq_ok] at ho
      obtain ⟨data, hdata, ho⟩ := ho
      have hall : List.Forall₂ (fun (s : StructV) (x : FrameData) => ∃ F E,
          s.atomicForce = .ok F ∧ s.atomicEnergy = .ok E ∧
          x = ⟨s.box, (s.sites.map SiteObj.cart).flatten, F.flatten, E, s.sites.map SiteObj.number⟩)
          fs data := by
        refine List.Forall₂.imp ?_ (mapM_eq_ok.1 hdata)
        intro s x hx
        unfold StructV.frameData at hx
        rw [bind_eq_ok] at hx
        obtain ⟨F, hF, hx⟩ := hx
        rw [bind_eq_ok] at hx
        obtain ⟨E, hE, hx⟩ := hx
        exact ⟨F, E, hF, hE, (Except.ok.inj hx).symm⟩
      obtain ⟨f, rest, k, hcf, -, -, -, htm, hty, -⟩ := coll_to_ok ho
      refine ⟨data, out.1, out.2.1, out.2.2, hall, ho, ?_⟩
      have hnum : f.numbers = f0.sites.map SiteObj.number := by
        simp only at hcf
        subst hcf
        cases hall with
        | cons hx _ =>
          obtain ⟨F, E, -, -, rfl⟩ := hx
          simp only [List.getElem?_cons_zero, Option.some.injEq] at h0
          rw [h0]
      have hat : StructCollection.atomicNumbers ⟨data, etot, ep, ek, v⟩ =
          counterKeys (f0.sites.map SiteObj.number) := by
        unfold StructCollection.atomicNumbers
        simp only at hcf ⊢
        rw [hcf]
        simp only
        rw [hnum]
      rw [hat] at htm hty
      rw [hnum] at hty
      simp only [pyGet, h0, ok_bind] at ht
      rw [hty] at ht
      have ht := Except.ok.inj ht
      rw [htm, ht]
      exact (Prod.mk.inj hd).1.symm

/-- C162 fails: for a collection of structures as the readers make them, the export is an
`AttributeError`, and by then the folder found, with all its sets, has been replaced by a folder without
sets. -/
theorem C162_violated (fs : List StructV) (etot ep ek : List ℚ) (v : List (List ℚ)) (c : CollObj)
    (h : mkColl fs etot ep ek v = .ok c) (s : StructV) (hs : fs[0]? = some s) (t : SiteObj)
    (ht : s.sites[0]? = some t) (hf : t.force = none) (size : ℤ) (old : OutDir) :
    ∃ tm ty, c.export size (some old) = (⟨some tm, some ty, []⟩, .error .attributeError) := by
  obtain ⟨f0, h0, rfl⟩ := mkColl_ok h
  rw [hs] at h0
  obtain rfl := Option.some.inj h0
  have hty : ∃ ty, (s.sites.map SiteObj.number).mapM (fun z => do
      return showNat (← pyIndex (counterKeys (s.sites.map SiteObj.number)) z)) = .ok ty := by
    refine ⟨_, mapM_map_ok (g := fun z => showNat ((counterKeys (s.sites.map SiteObj.number)).idxOf z)) ?_⟩
    intro z hz
    unfold pyIndex
    rw [if_pos ((mem_counterKeys _ _).2 hz)]
    rfl
  obtain ⟨ty, hty⟩ := hty
  refine ⟨(List.range (counterKeys (s.sites.map SiteObj.number)).length).map showNat, ty, ?_⟩
  unfold CollObj.export
  simp only [pyGet, hs, ok_bind]
  rw [hty]
  simp only
  cases fs with
  | nil => simp at hs
  | cons f fs =>
    simp only [List.getElem?_cons_zero, Option.some.injEq] at hs
    subst hs
    have hff : f.atomicForce = .error .attributeError := by
      unfold StructV.atomicForce
      cases hsi : f.sites with
      | nil => rw [hsi] at ht; simp at ht
      | cons u us =>
        rw [hsi] at ht
        simp only [List.getElem?_cons_zero, Option.some.injEq] at ht
        subst ht
        rw [List.mapM_cons]
        unfold SiteObj.getForce
        rw [hf]
        rfl
    have hfd : f.frameData = .error .attributeError := by
      unfold StructV.frameData
      rw [hff]
      rfl
    rw [List.mapM_cons, hfd]
    rfl

/-- C162, an export that fails, whatever the reason: the folder then holds the two `raw` files of the new collection
and no sets, whatever was there before; any sets it had are lost. -/
theorem C162_failure (fs : List StructV) (etot ep ek : List ℚ) (v : List (List ℚ)) (c : CollObj)
    (h : mkColl fs etot ep ek v = .ok c) (size : ℤ) (old : Option OutDir) (d : OutDir) (e : PyErr)
    (hd : c.export size old = (d, .error e)) :
    ∃ f0 ty, fs[0]? = some f0 ∧ ty.length = f0.sites.length ∧
      d = ⟨some ((List.range (f0.sites.map SiteObj.number).dedup.length).map showNat), some ty, []⟩ ∧
      ∀ old', c.export size old' = (d, .error e) := by
  have hall : ∀ old', c.export size old' = (d, .error e) := fun _ => hd
  obtain ⟨f0, h0, rfl⟩ := mkColl_ok h
  have hty : (f0.sites.map SiteObj.number).mapM (fun z => do
      return showNat (← pyIndex (counterKeys (f0.sites.map SiteObj.number)) z)) =
      .ok ((f0.sites.map SiteObj.number).map
        (fun z => showNat ((counterKeys (f0.sites.map SiteObj.number)).idxOf z))) := by
    refine mapM_map_ok (g := fun z => showNat ((counterKeys (f0.sites.map SiteObj.number)).idxOf z)) ?_
    intro z hz
    unfold pyIndex
    rw [if_pos ((mem_counterKeys _ _).2 hz)]
    rfl
  have hlen : (counterKeys (f0.sites.map SiteObj.number)).length =
      (f0.sites.map SiteObj.number).dedup.length := by
    refine List.Perm.length_eq ((List.perm_ext_iff_of_nodup (counterKeys_nodup _) (List.nodup_dedup _)).2 ?_)
    intro a
    rw [mem_counterKeys, List.mem_dedup]
  have hd' : d = ⟨some ((List.range (f0.sites.map SiteObj.number).dedup.length).map showNat),
      some ((f0.sites.map SiteObj.number).map
        (fun z => showNat ((counterKeys (f0.sites.map SiteObj.number)).idxOf z))), []⟩ := by
    unfold CollObj.export at hd
    simp only [pyGet, h0, ok_bind] at hd
    rw [hty] at hd
    simp only at hd
    split at hd
    · rw [← (Prod.mk.inj hd).1, hlen]
    · simp at hd
  exact ⟨f0, _, h0, by simp, hd', hall⟩

/-- A set size of zero. -/
example : ∃ d, (mkColl [oneSi 0 (some [1, 2, 3]) (some [-5]), oneSi 1 (some [4, 5, 6]) (some [-6])]
      [1, 2] [1, 2] [0, 0] [[0], [0]]).map
    (fun c => c.export 0 (some ⟨none, none, [⟨[], [], [], [], [], none, none⟩]⟩)) =
      .ok (d, .error .zeroDivision) ∧ d.sets = [] := by
  refine ⟨_, rfl, ?_⟩
  rfl

example : ∃ d, (mkColl [oneSi 0 (some [1, 2, 3]) (some [-5]), oneSi 1 (some [4, 5, 6]) (some [-6])]
      [1, 2] [1, 2] [0, 0] [[0], [0]]).map
    (fun c => c.export 1 (some ⟨none, none, [⟨[], [], [], [], [], none, none⟩]⟩)) = .ok (d, .ok ()) ∧
    d.sets.map SetDir.force = [[[1, 2, 3]], [[4, 5, 6]]] := by
  refine ⟨_, rfl, ?_⟩
  decide +kernel

end MaterSDK
