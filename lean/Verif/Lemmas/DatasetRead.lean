import Verif.Lemmas.Dataset
import Verif.Props.Movement

/-! # Lemmas on reading data sets -/

namespace MaterSDK

/-- The atomic numbers read from a frame by the frame-string extractor. -/
def typesOf (f : Str) : Except PyErr (List Int) := do (← acStr f).getTypes

theorem typesOf_of_readKind {f : Str} {v : List ℚ} (h : readKind .types f = .ok v) :
    typesOf f = .ok (v.map Rat.num) := by
  unfold readKind at h
  rw [bind_eq_ok] at h
  obtain ⟨a, ha, h⟩ := h
  simp only at h
  rw [bind_eq_ok] at h
  obtain ⟨t, ht, h⟩ := h
  have h := Except.ok.inj h
  unfold typesOf
  rw [ha, ok_bind, ht, ← h, List.map_map]
  congr 1
  conv_lhs => rw [← List.map_id t]
  apply List.map_congr_left
  intro x _
  simp

theorem pyGet_mem {α : Type} {l : List α} {i : Nat} {x : α} (h : pyGet l i = .ok x) :
    l[i]? = some x := by
  rw [pyGet_eq_ok] at h; exact h

/-- An optional array of a data set: present iff the mark is set, and then one row per frame. -/
def OptRows (mark : Bool) (k : Kind) (frames : List Str) (a : Option (List (List ℚ))) : Prop :=
  match mark, a with
  | true, some rows => List.Forall₂ (fun f v => readKind k f = .ok v) frames rows
  | false, none => True
  | _, _ => False

/-- The result of reading a trajectory into a data set. -/
structure ReadsAsInfoSet (m : MVExtractor) (s : InfoSet) (T : List (List Int)) (ns : List Int) : Prop where
  box : List.Forall₂ (fun f v => readKind .box f = .ok v) m.allFrameStrs s.box
  coord : List.Forall₂ (fun f v => readKind .coords f = .ok v) m.allFrameStrs s.coord
  etot : List.Forall₂ (fun f v => readKind .etot f = .ok v) m.allFrameStrs s.etot
  fatom : List.Forall₂ (fun f v => readKind .fatoms f = .ok v) m.allFrameStrs s.fatom
  types : List.Forall₂ (fun f v => typesOf f = .ok v) m.allFrameStrs T
  index : T.mapM (fun row => row.mapM (pyIndex ns)) = .ok s.types
  virial : OptRows m.virialMark .virial m.allFrameStrs s.virial
  eatom : OptRows m.eatomsMark .eatoms m.allFrameStrs s.eatom
  magmom : s.magmom = none
  formula : s.formula = formulaText s.formulaDict
  count : s.numFrames = s.box.length

theorem infoSet_ok {text : Str} {numbers : Option (List Int)} {s : InfoSet}
    (h : infoSetFromFile text numbers = .ok s) :
    ∃ m T t0 ns, MVExtractor.load text = .ok m ∧ ReadsAsInfoSet m s T ns ∧ T[0]? = some t0 ∧
      pickComposition numbers t0 = .ok (s.formulaDict, ns) := by
  unfold infoSetFromFile at h
  rw [bind_eq_ok] at h
  obtain ⟨m, hm, h⟩ := h
  have hmarks := load_marks hm
  have hx : findExtra m.rows m.slices = .ok (m.virialMark, m.eatomsMark, m.magmomsMark) := by
    unfold MVExtractor.load at hm
    rw [bind_eq_ok] at hm
    obtain ⟨sizes, _, hm⟩ := hm
    rw [bind_eq_ok] at hm
    obtain ⟨⟨v, e, mm⟩, hx, hm⟩ := hm
    cases hm
    exact hx
  rw [hx, ok_bind] at h
  simp only at h
  rw [bind_eq_ok] at h
  obtain ⟨arrs, harrs, h⟩ := h
  obtain ⟨hkinds, hrows⟩ := framesInfo_ok hmarks.1 harrs
  rw [kinds_eq hmarks.1] at hkinds
  have hget : ∀ (i : Nat) (p : Kind × List (List ℚ)) (k : Kind), pyGet arrs i = .ok p →
      ([Kind.box, .types, .coords, .etot, .fatoms] ++ (if m.virialMark then [.virial] else []) ++
        (if m.eatomsMark then [.eatoms] else []))[i]? = some k →
      List.Forall₂ (fun f v => readKind k f = .ok v) m.allFrameStrs p.2 := by
    intro i p k hp hk
    have hp' := pyGet_mem hp
    have : p.1 = k := by
      rw [← hkinds, List.getElem?_map, hp'] at hk
      exact Option.some.inj hk
    rw [← this]
    exact (hrows p (List.mem_of_getElem? hp')).1
  rw [bind_eq_ok] at h
  obtain ⟨box, hbox, h⟩ := h
  rw [bind_eq_ok] at h
  obtain ⟨types, htypes, h⟩ := h
  rw [bind_eq_ok] at h
  obtain ⟨coord, hcoord, h⟩ := h
  rw [bind_eq_ok] at h
  obtain ⟨etot, hetot, h⟩ := h
  rw [bind_eq_ok] at h
  obtain ⟨fatoms, hfatoms, h⟩ := h
  rw [bind_eq_ok] at h
  obtain ⟨virial, hvirial, h⟩ := h
  rw [bind_eq_ok] at h
  obtain ⟨eatom, heatom, h⟩ := h
  rw [bind_eq_ok] at h
  obtain ⟨magmom, hmagmom, h⟩ := h
  rw [bind_eq_ok] at h
  obtain ⟨t0, ht0, h⟩ := h
  rw [bind_eq_ok] at h
  obtain ⟨⟨d, ns⟩, hd, h⟩ := h
  simp only at h
  rw [bind_eq_ok] at h
  obtain ⟨nt, hnt, h⟩ := h
  have h := Except.ok.inj h
  have hv : OptRows m.virialMark .virial m.allFrameStrs virial := by
    unfold optArray at hvirial
    cases hvm : m.virialMark with
    | false =>
      rw [hvm] at hvirial
      have := Except.ok.inj hvirial
      subst this; exact trivial
    | true =>
      rw [hvm, if_pos rfl] at hvirial
      cases hp : pyGet arrs 5 with
      | error e => rw [hp] at hvirial; cases hvirial
      | ok p =>
        rw [hp] at hvirial
        have := Except.ok.inj hvirial
        subst this
        exact hget 5 p .virial hp (by rw [hvm]; rfl)
  have he : OptRows m.eatomsMark .eatoms m.allFrameStrs eatom := by
    unfold optArray at heatom
    cases hem : m.eatomsMark with
    | false =>
      rw [hem] at heatom
      have := Except.ok.inj heatom
      subst this; exact trivial
    | true =>
      rw [hem, if_pos rfl] at heatom
      cases hp : pyGet arrs (if m.virialMark then 6 else 5) with
      | error e => rw [hp] at heatom; cases heatom
      | ok p =>
        rw [hp] at heatom
        have := Except.ok.inj heatom
        subst this
        refine hget _ p .eatoms hp ?_
        rw [hem]
        cases m.virialMark <;> rfl
  have hmm : magmom = none := by
    unfold optArray at hmagmom
    rw [hmarks.1] at hmagmom
    exact (Except.ok.inj hmagmom).symm
  refine ⟨m, types.2.map (fun row => row.map Rat.num), t0, ns, hm, ?_, pyGet_mem ht0, ?_⟩
  · subst h
    refine ⟨hget 0 box .box hbox rfl, hget 2 coord .coords hcoord rfl, hget 3 etot .etot hetot rfl,
      hget 4 fatoms .fatoms hfatoms rfl, ?_, hnt, hv, he, hmm, rfl, rfl⟩
    rw [List.forall₂_map_right_iff]
    exact (hget 1 types .types htypes rfl).imp (fun _ _ => typesOf_of_readKind)
  · subst h; exact hd

/-- The composition recorded in a data set. -/
theorem infoSet_composition {text : Str} {numbers : Option (List Int)} {s : InfoSet}
    (h : infoSetFromFile text numbers = .ok s) (hnd : ∀ l, numbers = some l → l.Nodup) :
    ∃ m T t0 ns ks, MVExtractor.load text = .ok m ∧ ReadsAsInfoSet m s T ns ∧ T[0]? = some t0 ∧
      (∀ l, numbers = some l → ns = l) ∧ ns.Nodup ∧ ns.mapM specieOf = .ok ks ∧ ks.Nodup ∧
      s.formulaDict = ks.zip (ns.map t0.count) := by
  obtain ⟨m, T, t0, ns, hm, hr, ht0, hn⟩ := infoSet_ok h
  cases numbers with
  | none =>
    unfold pickComposition at hn
    simp only at hn
    rw [bind_eq_ok] at hn
    obtain ⟨d, hd, hn⟩ := hn
    rw [bind_eq_ok] at hn
    obtain ⟨zs, hzs, hn⟩ := hn
    obtain ⟨rfl, hns⟩ := Prod.mk.inj (Except.ok.inj hn)
    have hns := hns.symm
    obtain ⟨ns', ks, hnd', _, _, hks, hknd, hd'⟩ := compositionOf_ok hd
    obtain ⟨zs', hzs', he⟩ := numbers_of_species hks
    have hl := mapM_length hks
    have hkeys : s.formulaDict.map Prod.fst = ks := by
      rw [hd', List.map_fst_zip (by simp [hl])]
    rw [hkeys, hzs'] at hzs
    have := Except.ok.inj hzs
    subst this
    rw [he] at hns
    subst hns
    exact ⟨m, T, t0, ns, ks, hm, hr, ht0, by simp, hnd', hks, hknd, hd'⟩
  | some l =>
    unfold pickComposition at hn
    simp only at hn
    rw [bind_eq_ok] at hn
    obtain ⟨d, hd, hn⟩ := hn
    obtain ⟨rfl, rfl⟩ := Prod.mk.inj (Except.ok.inj hn)
    obtain ⟨ks, hks, hknd, hd'⟩ := compositionFor_ok (hnd _ rfl) hd
    exact ⟨m, T, t0, _, ks, hm, hr, ht0, by rintro _ ⟨⟩; rfl, hnd _ rfl, hks, hknd, hd'⟩

/-! ## Formula texts -/

theorem symbols_start : ∀ s ∈ periodicTable, ∃ c r, s = c :: r ∧ c.isDigit = false := by
  have h : ∀ s ∈ periodicTable, (match s with | [] => false | c :: _ => !c.isDigit) = true := by
    decide +kernel
  intro s hs
  have := h s hs
  cases s with
  | nil => cases this
  | cons c r => exact ⟨c, r, rfl, by simpa using this⟩

theorem formulaText_head (ks : List Str) (cs : List Nat) (h : ∀ k ∈ ks, k ∈ periodicTable) :
    ∀ c ∈ (formulaText (ks.zip cs)).head?, c.isDigit = false := by
  intro c hc
  cases ks with
  | nil => simp [formulaText] at hc
  | cons k ks =>
    cases cs with
    | nil => simp [formulaText] at hc
    | cons n cs =>
      obtain ⟨x, r, hx, hd⟩ := symbols_start k (h k (by simp))
      simp [formulaText, hx] at hc
      rw [← hc]; exact hd

/-- For a fixed list of symbols the formula determines the counts. -/
theorem formulaText_inj (ks : List Str) (h : ∀ k ∈ ks, k ∈ periodicTable) (cs cs' : List Nat)
    (h1 : cs.length = ks.length) (h2 : cs'.length = ks.length)
    (he : formulaText (ks.zip cs) = formulaText (ks.zip cs')) : cs = cs' := by
  induction ks generalizing cs cs' with
  | nil =>
    rw [List.length_nil, List.length_eq_zero_iff] at h1 h2
    rw [h1, h2]
  | cons k ks ih =>
    cases cs with
    | nil => simp at h1
    | cons c cs =>
      cases cs' with
      | nil => simp at h2
      | cons c' cs' =>
        have hks : ∀ k ∈ ks, k ∈ periodicTable := fun k hk => h k (by simp [hk])
        have e : showNat c ++ formulaText (ks.zip cs) = showNat c' ++ formulaText (ks.zip cs') := by
          have := he
          simp only [formulaText, List.zip_cons_cons, List.flatMap_cons, List.append_assoc] at this
          exact List.append_cancel_left this
        have s1 := span_digits (showNat_spec c).2.1 (formulaText_head ks cs hks)
        have s2 := span_digits (showNat_spec c').2.1 (formulaText_head ks cs' hks)
        rw [e, s2] at s1
        obtain ⟨e1, e2⟩ := Prod.mk.inj s1
        have hc : c = c' := by
          rw [← (showNat_spec c).1, ← (showNat_spec c').1, e1]
        rw [hc, ih hks cs cs' (by simpa using h1) (by simpa using h2) e2.symm]

theorem species_in_table {ns : List Int} {ks : List Str} (h : ns.mapM specieOf = .ok ks) :
    ∀ k ∈ ks, k ∈ periodicTable := by
  rw [mapM_eq_ok] at h
  intro k hk
  obtain ⟨i, hi⟩ := List.mem_iff_getElem?.1 hk
  obtain ⟨n, _, hn⟩ := forall₂_get' h hi
  exact List.mem_of_getElem? ((C05_specieOf n).1 k |>.1 hn).2

/-! ## Numbers of all elements -/

theorem gather_inner (keys : List Str) (acc out : List Int) (hnd : acc.Nodup)
    (h : keys.foldlM (fun (acc : List Int) k => do
      let z ← numberOf k
      return if (z : Int) ∈ acc then acc else acc ++ [(z : Int)]) acc = .ok out) :
    out.Nodup ∧ (∀ n ∈ acc, n ∈ out) ∧
      ∀ k ∈ keys, ∃ z : Nat, numberOf k = .ok z ∧ (z : Int) ∈ out := by
  induction keys generalizing acc with
  | nil =>
    have := Except.ok.inj h
    subst this
    exact ⟨hnd, fun _ h => h, by simp⟩
  | cons k keys ih =>
    rw [List.foldlM_cons, bind_eq_ok] at h
    obtain ⟨acc1, h1, h⟩ := h
    rw [bind_eq_ok] at h1
    obtain ⟨z, hz, h1⟩ := h1
    have h1 := Except.ok.inj h1
    by_cases hm : (z : Int) ∈ acc
    · rw [if_pos hm] at h1
      subst h1
      obtain ⟨a, b, c⟩ := ih acc hnd h
      refine ⟨a, b, ?_⟩
      intro k' hk'
      rcases List.mem_cons.1 hk' with rfl | hk'
      · exact ⟨z, hz, b _ hm⟩
      · exact c k' hk'
    · rw [if_neg hm] at h1
      subst h1
      obtain ⟨a, b, c⟩ := ih _ (by
        rw [List.nodup_append]
        exact ⟨hnd, by simp, by rintro x hx y hy rfl; simp at hy; exact hm (hy ▸ hx)⟩) h
      refine ⟨a, fun n hn => b n (by simp [hn]), ?_⟩
      intro k' hk'
      rcases List.mem_cons.1 hk' with rfl | hk'
      · exact ⟨z, hz, b _ (by simp)⟩
      · exact c k' hk'

theorem gather_nodup (sets : List InfoSet) (out : List Int) (h : gatherNumbers sets = .ok out) :
    out.Nodup ∧ ∀ s ∈ sets, ∀ k ∈ s.formulaDict.map Prod.fst,
      ∃ z : Nat, numberOf k = .ok z ∧ (z : Int) ∈ out := by
  unfold gatherNumbers at h
  have key : ∀ (sets : List InfoSet) (acc : List Int), acc.Nodup →
      sets.foldlM (fun (acc : List Int) s => (s.formulaDict.map Prod.fst).foldlM (fun acc k => do
        let z ← numberOf k
        return if (z : Int) ∈ acc then acc else acc ++ [(z : Int)]) acc) acc = .ok out →
      out.Nodup ∧ (∀ n ∈ acc, n ∈ out) ∧ ∀ s ∈ sets, ∀ k ∈ s.formulaDict.map Prod.fst,
        ∃ z : Nat, numberOf k = .ok z ∧ (z : Int) ∈ out := by
    intro sets
    induction sets with
    | nil =>
      intro acc hnd h
      have := Except.ok.inj h
      subst this
      exact ⟨hnd, fun _ h => h, by simp⟩
    | cons s sets ih =>
      intro acc hnd h
      rw [List.foldlM_cons, bind_eq_ok] at h
      obtain ⟨acc1, h1, h⟩ := h
      obtain ⟨a, b, c⟩ := gather_inner _ _ _ hnd h1
      obtain ⟨a', b', c'⟩ := ih acc1 a h
      refine ⟨a', fun n hn => b' n (b n hn), ?_⟩
      intro s' hs' k hk
      rcases List.mem_cons.1 hs' with rfl | hs'
      · obtain ⟨z, hz, hz'⟩ := c k hk
        exact ⟨z, hz, b' _ hz'⟩
      · exact c' s' hs' k hk
  obtain ⟨a, _, c⟩ := key sets [] List.nodup_nil h
  exact ⟨a, c⟩

/-! ## Concatenation -/

theorem npConcat_ok {α : Type} {arrs : List (List (List α))} {out : List (List α)}
    (h : npConcat arrs = .ok out) : out = arrs.flatten := by
  unfold npConcat at h
  split at h
  · rename_i e; rw [e]; exact (Except.ok.inj h).symm
  · rename_i r rs e
    split at h
    · rw [e]; exact (Except.ok.inj h).symm
    · cases h

theorem concatOpt_ok {arrs : List (Option (List (List ℚ)))} {out : Option (List (List ℚ))}
    (h : concatOpt arrs = .ok out) :
    (none ∈ arrs ∧ out = none) ∨ (none ∉ arrs ∧ out = some (arrs.filterMap id).flatten) := by
  unfold concatOpt at h
  split at h
  · rename_i hn; exact .inl ⟨hn, (Except.ok.inj h).symm⟩
  · rename_i hn
    cases hc : npConcat (arrs.filterMap id) with
    | error e => rw [hc] at h; cases h
    | ok r =>
      rw [hc] at h
      have h := Except.ok.inj h
      refine .inr ⟨hn, ?_⟩
      rw [← npConcat_ok hc]; exact h.symm

end MaterSDK
