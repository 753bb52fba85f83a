import Verif.Lemmas.DatasetRead
import Verif.Props.Trajectory

/-! # Helper lemmas for `Props/Dataset.lean` -/



namespace MaterSDK
theorem toDir_parts {s : InfoSet} {existing : List Str} {ps : Option Int} {w : Written}
    (h : s.toDir existing ps = .ok w) : ∃ bounds, partBounds s.numFrames ps = .ok bounds ∧
      s.formula ∉ existing ∧ w = ⟨s.formula, s.formulaDict.map Prod.fst,
        bounds.zipIdx.map (fun p => (partName p.2,
          s.arrays.map (fun a => (a.1, a.2.slice p.1.1.toNat p.1.2.toNat))))⟩ := by
  unfold InfoSet.toDir at h
  rw [bind_eq_ok] at h
  obtain ⟨bounds, hb, h⟩ := h
  split at h
  · cases h
  · rename_i hf
    exact ⟨bounds, hb, hf, (Except.ok.inj h).symm⟩

theorem cut_parts {α : Type} (mk : List α → Rows)
    (hmk : ∀ r i j, (mk r).slice i j = mk (pySlice r i j)) (s : InfoSet) (nm : Str) (r : List α)
    (hmem : (nm, mk r) ∈ s.arrays) (p : Nat) (hp : 1 ≤ p) (hlen : r.length = s.numFrames) :
    ∃ cs, Chunks p r cs ∧ cs.length = (cutBounds s.numFrames p).length ∧
      ∀ (k : Nat) (c : List α), cs[k]? = some c → ∃ files,
        ((((cutBounds s.numFrames p).map (fun b => ((b.1 : Int), (b.2 : Int)))).zipIdx.map (fun p => (partName p.2,
          s.arrays.map (fun a => (a.1, a.2.slice p.1.1.toNat p.1.2.toNat))))))[k]? =
            some (partName k, files) ∧ (nm, mk c) ∈ files := by
  refine ⟨_, cutBounds_chunks r p hp, by simp [hlen], ?_⟩
  intro k c hc
  rw [List.getElem?_map, hlen] at hc
  cases hb : (cutBounds s.numFrames p)[k]? with
  | none => rw [hb] at hc; cases hc
  | some b =>
    rw [hb] at hc
    have hc := Option.some.inj hc
    refine ⟨s.arrays.map (fun a => (a.1, a.2.slice b.1 b.2)), ?_, ?_⟩
    · simp [hb]
    · refine List.mem_map.2 ⟨(nm, mk r), hmem, ?_⟩
      rw [hmk, ← hc]

/-- The names of different parts differ. -/
theorem partName_inj (i j : Nat) (h : partName i = partName j) : i = j := by
  have key : ∀ n, natOfDigits ((partName n).drop 5) = n := by
    intro n
    have e : (partName n).drop 5 = List.replicate (3 - (showNat n).length) '0' ++ showNat n := by
      unfold partName
      rw [List.append_assoc]
      rfl
    rw [e, natOfDigits_append]
    have hz : ∀ k, natOfDigits (List.replicate k '0') = 0 := by
      intro k
      induction k with
      | zero => rfl
      | succ k ih =>
        rw [List.replicate_succ', natOfDigits_append, ih]; rfl
    rw [hz, (showNat_spec n).1]; simp
  rw [← key i, ← key j, h]

theorem coll_to_ok {c : StructCollection} {size : Int} {out : List Str × List Str × List SetDir}
    (h : c.to size = .ok out) : ∃ f rest k, c.frames = f :: rest ∧
      c.etot.length = c.frames.length ∧ c.virial.length = c.frames.length ∧
      numSets c.frames.length size = .ok k ∧
      out.1 = (List.range c.atomicNumbers.length).map showNat ∧
      f.numbers.mapM (fun z => do return showNat (← pyIndex c.atomicNumbers z)) = .ok out.2.1 ∧
      out.2.2 = (List.range k.toNat).map (fun (i : Nat) =>
        let lo : Int := (i : Int) * size
        let hi : Int := ((i : Int) + 1) * size
        { name := setName i
          cell := sliceI (c.frames.map FrameData.box) lo hi
          coord := sliceI (c.frames.map FrameData.coord) lo hi
          energy := sliceI (c.etot.map (fun x => [x])) lo hi
          force := sliceI (c.frames.map FrameData.force) lo hi
          virial := if c.virial.any (fun r => r.any (fun x => x ≠ 0)) then some (sliceI c.virial lo hi)
            else none
          eatom := if (c.frames.map FrameData.eatom).any (fun r => r.any (fun x => x ≠ 0)) then
            some (sliceI (c.frames.map FrameData.eatom) lo hi) else none : SetDir }) := by
  unfold StructCollection.to at h
  rw [bind_eq_ok] at h
  obtain ⟨types, ht, h⟩ := h
  cases hf : c.frames with
  | nil => rw [hf] at ht; cases ht
  | cons f rest =>
    rw [hf] at ht h
    simp only at ht
    split at h
    · cases h
    · rename_i hl
      push Not at hl
      rw [bind_eq_ok] at h
      obtain ⟨k, hk, h⟩ := h
      have h := Except.ok.inj h
      subst h
      exact ⟨f, rest, k, rfl, hl.1, hl.2, hk, rfl, ht, rfl⟩

theorem sets_chunks {α β : Type} (l : List α) (p : Nat) (hp : 1 ≤ p) (n : Nat) (hn : l.length = n)
    (sets : List β) (g : β → List α)
    (hs : ∀ (i : Nat) b, sets[i]? = some b → g b = sliceI l ((i : Int) * p) (((i : Int) + 1) * p))
    (hlen : sets.length = (cutBounds n p).length) : Chunks p l (sets.map g) := by
  subst hn
  have e : sets.map g = (cutBounds l.length p).map (fun b => pySlice l b.1 b.2) := by
    apply List.ext_getElem (by simp [hlen])
    intro i h1 h2
    simp only [List.length_map] at h1 h2
    rw [List.getElem_map, List.getElem_map, hs i _ (List.getElem?_eq_getElem h1),
      cutBounds_slice l p hp i h2]
  rw [e]
  exact cutBounds_chunks l p hp

theorem pyIndex_ok {α : Type} [DecidableEq α] {l : List α} {x : α} {j : Nat}
    (h : pyIndex l x = .ok j) : l[j]? = some x := by
  unfold pyIndex at h
  split at h
  · rename_i hm
    have := Except.ok.inj h
    subst this
    exact List.getElem?_idxOf hm
  · cases h

theorem optGroup {members : List InfoSet} (p : InfoSet → Option (List (List ℚ)))
    {out : Option (List (List ℚ))} (h : concatOpt (members.map p) = .ok out) :
    (∀ vs : List (List (List ℚ)), members.map p = vs.map some → out = some vs.flatten) ∧
      ((∃ s ∈ members, p s = none) → out = none) := by
  rcases concatOpt_ok h with ⟨hn, ho⟩ | ⟨hn, ho⟩
  · refine ⟨?_, fun _ => ho⟩
    intro vs hvs
    rw [hvs] at hn
    simp at hn
  · constructor
    · intro vs hvs
      rw [ho, hvs, List.filterMap_map]
      simp
    · rintro ⟨s, hs, hp⟩
      exact absurd (List.mem_map.2 ⟨s, hs, hp⟩) hn

theorem mergeSets_group {f : Str} {members : List InfoSet} {last g : InfoSet}
    (h : mergeSets f members last = .ok g) : IsGroup f members g ∧ g.formulaDict = last.formulaDict := by
  unfold mergeSets at h
  rw [bind_eq_ok] at h
  obtain ⟨box, h1, h⟩ := h
  rw [bind_eq_ok] at h
  obtain ⟨types, h2, h⟩ := h
  rw [bind_eq_ok] at h
  obtain ⟨coord, h3, h⟩ := h
  rw [bind_eq_ok] at h
  obtain ⟨etot, h4, h⟩ := h
  rw [bind_eq_ok] at h
  obtain ⟨fatom, h5, h⟩ := h
  rw [bind_eq_ok] at h
  obtain ⟨virial, h6, h⟩ := h
  rw [bind_eq_ok] at h
  obtain ⟨eatom, h7, h⟩ := h
  rw [bind_eq_ok] at h
  obtain ⟨magmom, h8, h⟩ := h
  have h := Except.ok.inj h
  subst h
  exact ⟨⟨rfl, npConcat_ok h1, npConcat_ok h2, npConcat_ok h3, npConcat_ok h4, npConcat_ok h5, rfl,
    optGroup _ h6, optGroup _ h7⟩, rfl⟩

theorem single_group (s : InfoSet) : IsGroup s.formula [s] s := by
  refine ⟨rfl, by simp, by simp, by simp, by simp, by simp, by simp, ⟨?_, ?_⟩, ⟨?_, ?_⟩⟩
  · intro vs hvs
    rcases vs with _ | ⟨v, _ | ⟨v', vs⟩⟩
    · simp at hvs
    · simp at hvs; rw [hvs]; simp
    · simp at hvs
  · rintro ⟨x, hx, hn⟩
    rw [List.mem_singleton] at hx; rw [← hx]; exact hn
  · intro vs hvs
    rcases vs with _ | ⟨v, _ | ⟨v', vs⟩⟩
    · simp at hvs
    · simp at hvs; rw [hvs]; simp
    · simp at hvs
  · rintro ⟨x, hx, hn⟩
    rw [List.mem_singleton] at hx; rw [← hx]; exact hn

/-- One group per formula. -/
theorem reduceSets_groups {sets groups : List InfoSet} (h : reduceSets sets = .ok groups) :
    List.Forall₂ (fun f g => IsGroup f (sets.filter (fun s => s.formula = f)) g ∧
      ((∃ s, sets.filter (fun s => s.formula = f) = [s] ∧ g = s) ∨
        ((sets.filter (fun s => s.formula = f)).length ≠ 1 ∧
          ∃ last, sets.getLast? = some last ∧ g.formulaDict = last.formulaDict)))
      (counterKeys (sets.map InfoSet.formula)) groups := by
  unfold reduceSets at h
  rw [bind_eq_ok] at h
  obtain ⟨gs, hgs, h⟩ := h
  replace h := Except.ok.inj h
  subst h
  rw [mapM_eq_ok] at hgs
  have hmem : ∀ f ∈ counterKeys (sets.map InfoSet.formula), f ∈ sets.map InfoSet.formula :=
    fun f hf => (mem_counterKeys _ _).1 hf
  generalize counterKeys (sets.map InfoSet.formula) = keys at hgs hmem
  induction hgs with
  | nil => exact .nil
  | @cons f l keys ls hf hls ih =>
    have ih := ih (fun f' hf' => hmem f' (by simp [hf']))
    rw [List.flatten_cons]
    simp only at hf
    split at hf
    · rename_i h1
      obtain ⟨s, hs⟩ := List.length_eq_one_iff.1 h1
      have := Except.ok.inj hf
      subst this
      rw [hs]
      have hsf : s.formula = f := by
        have : s ∈ sets.filter (fun s => s.formula = f) := by rw [hs]; simp
        simpa using (List.mem_filter.1 this).2
      refine .cons ⟨?_, .inl ⟨s, hs, rfl⟩⟩ ih
      rw [hs, ← hsf]
      exact single_group s
    · rename_i hne
      split at hf
      · rename_i hlast
        rw [List.getLast?_eq_none_iff] at hlast
        subst hlast
        exact absurd (hmem f (by simp)) (by simp)
      · rename_i last hlast
        rw [bind_eq_ok] at hf
        obtain ⟨g, hg, hf⟩ := hf
        have := Except.ok.inj hf
        subst this
        obtain ⟨hgrp, hd⟩ := mergeSets_group hg
        exact .cons ⟨hgrp, .inr ⟨hne, last, hlast, hd⟩⟩ ih

theorem sum_ite_nodup {α : Type} [DecidableEq α] (keys : List α) (a : α) (n : Nat) (hnd : keys.Nodup)
    (ha : a ∈ keys) : (keys.map (fun k => if a = k then n else 0)).sum = n := by
  induction keys with
  | nil => simp at ha
  | cons k keys ih =>
    rw [List.nodup_cons] at hnd
    rw [List.map_cons, List.sum_cons]
    by_cases hk : a = k
    · subst hk
      have hz : keys.map (fun k => if a = k then n else 0) = keys.map (fun _ => 0) :=
        List.map_congr_left (fun k hk => if_neg (fun (e : a = k) => hnd.1 (e ▸ hk)))
      rw [hz]; simp
    · rw [if_neg hk, ih hnd.2 (by rcases List.mem_cons.1 ha with e | e; exacts [absurd e hk, e])]
      simp

theorem sum_by_key {α β : Type} [DecidableEq α] (keys : List α) (hnd : keys.Nodup) (key : β → α)
    (n : β → Nat) (l : List β) (h : ∀ b ∈ l, key b ∈ keys) :
    (keys.map (fun k => ((l.filter (fun b => key b = k)).map n).sum)).sum = (l.map n).sum := by
  induction l with
  | nil => simp
  | cons b l ih =>
    have e : ∀ k, (((b :: l).filter (fun b => key b = k)).map n).sum =
        (if key b = k then n b else 0) + ((l.filter (fun b => key b = k)).map n).sum := by
      intro k
      by_cases hk : key b = k <;> simp [hk]
    simp only [e]
    rw [List.sum_map_add, ih (fun b' hb' => h b' (by simp [hb'])),
      sum_ite_nodup keys (key b) (n b) hnd (h b (by simp)), List.map_cons, List.sum_cons]

theorem pyGetI_of_lt {α : Type} {l : List α} {i : Int} (h0 : 0 ≤ i) (h1 : i < (l.length : Int)) :
    ∃ x, pyGetI l i = .ok x ∧ l[i.toNat]? = some x := by
  obtain ⟨n, rfl⟩ := Int.eq_ofNat_of_zero_le h0
  have h1 : n < l.length := by omega
  refine ⟨l[n], ?_, by simp [h1]⟩
  rw [pyGetI_nat]
  exact pyGet_of_some (List.getElem?_eq_getElem h1)

theorem select_ok {α : Type} (l : List α) (idx : List Int)
    (h : ∀ i ∈ idx, 0 ≤ i ∧ i < (l.length : Int)) : ∃ out, idx.mapM (pyGetI l) = .ok out ∧
      out.length = idx.length ∧ ∀ (k : Nat) (i : Int), idx[k]? = some i → out[k]? = l[i.toNat]? := by
  induction idx with
  | nil => exact ⟨[], rfl, rfl, by simp⟩
  | cons i idx ih =>
    obtain ⟨out, ho, hl, hg⟩ := ih (fun j hj => h j (by simp [hj]))
    obtain ⟨x, hx, hx'⟩ := pyGetI_of_lt (h i (by simp)).1 (h i (by simp)).2
    refine ⟨x :: out, by rw [List.mapM_cons, hx, ok_bind, ho, ok_bind]; rfl, by simp [hl], ?_⟩
    intro k j hk
    cases k with
    | zero =>
      simp at hk
      rw [← hk, hx']; rfl
    | succ k =>
      simp at hk
      simpa using hg k j hk

theorem pyGetI_out {α : Type} {l : List α} {i : Int} (h : (l.length : Int) ≤ i ∨ i < -(l.length : Int)) :
    ∃ e, pyGetI l i = .error e := by
  cases hg : pyGetI l i with
  | error e => exact ⟨e, rfl⟩
  | ok x =>
    exfalso
    unfold pyGetI at hg
    simp only at hg
    generalize hj : (if i < 0 then i + (l.length : Int) else i) = j at hg
    by_cases h0 : j < 0
    · rw [if_pos h0] at hg; cases hg
    · rw [if_neg h0, pyGet_eq_ok] at hg
      have := (List.getElem?_eq_some_iff.1 hg).1
      split at hj <;> omega

end MaterSDK
