import Verif.Props.Dataset
import Verif.Props.KptFile

/-!
# C40, C170: exactly when they hold
-/

namespace MaterSDK

/-! ## Dictionaries filled in order -/

/-- Append a key that is not there yet. -/
def addKey {α : Type} [DecidableEq α] (acc : List α) (k : α) : List α := if k ∈ acc then acc else acc ++ [k]

theorem dictSet_keys {α β : Type} [DecidableEq α] (d : List (α × β)) (k : α) (v : β) :
    (dictSet d k v).map Prod.fst = addKey (d.map Prod.fst) k := by
  unfold dictSet addKey
  split
  · rw [List.map_map]
    refine List.map_congr_left fun p _ => ?_
    simp only [Function.comp]
    split
    · next h => exact h.symm
    · rfl
  · simp

theorem foldlM_dictSet_keys {α β γ : Type} [DecidableEq α] (key : γ → Except PyErr α) (val : γ → β)
    (l : List γ) (d0 d : List (α × β))
    (h : l.foldlM (fun d p => do return dictSet d (← key p) (val p)) d0 = .ok d) :
    ∃ ks, l.mapM key = .ok ks ∧ d.map Prod.fst = ks.foldl addKey (d0.map Prod.fst) := by
  induction l generalizing d0 with
  | nil =>
    rw [List.foldlM_nil] at h
    obtain rfl := Except.ok.inj h
    exact ⟨[], rfl, rfl⟩
  | cons a l ih =>
    rw [List.foldlM_cons, bind_eq_ok] at h
    obtain ⟨d1, h1, h⟩ := h
    rw [bind_eq_ok] at h1
    obtain ⟨k, hk, h1⟩ := h1
    obtain rfl := Except.ok.inj h1
    obtain ⟨ks, hks, hd⟩ := ih _ h
    refine ⟨k :: ks, ?_, ?_⟩
    · rw [List.mapM_cons, hk, ok_bind, hks, ok_bind]; rfl
    · rw [hd, dictSet_keys, List.foldl_cons]

theorem dictIncr_keys {α : Type} [DecidableEq α] (d d' : List (α × Nat)) (k : α)
    (h : dictIncr d k = .ok d') : d'.map Prod.fst = d.map Prod.fst := by
  unfold dictIncr at h
  obtain ⟨n, hn, h⟩ := bind_eq_ok.1 h
  obtain rfl := Except.ok.inj h
  rw [dictSet_keys, addKey, if_pos]
  unfold pyDictGet at hn
  split at hn
  · next p hp =>
    have h1 := List.mem_of_find?_eq_some hp
    have h2 := List.find?_some hp
    simp only [decide_eq_true_eq] at h2
    rw [← h2]
    exact List.mem_map.2 ⟨p, by simpa using h1, rfl⟩
  · cases hn

theorem foldlM_keys {α β γ : Type} (f : List (α × β) → γ → Except PyErr (List (α × β)))
    (hf : ∀ d x d', f d x = .ok d' → d'.map Prod.fst = d.map Prod.fst) (l : List γ) (d d' : List (α × β))
    (h : l.foldlM f d = .ok d') : d'.map Prod.fst = d.map Prod.fst := by
  induction l generalizing d with
  | nil =>
    rw [List.foldlM_nil] at h
    obtain rfl := Except.ok.inj h
    rfl
  | cons a l ih =>
    rw [List.foldlM_cons, bind_eq_ok] at h
    obtain ⟨d1, h1, h⟩ := h
    rw [ih _ h, hf _ _ _ h1]

theorem compositionFor_keys {ns ts : List Int} {d : List (Str × Nat)} (h : compositionFor ns ts = .ok d) :
    ∃ ks, ns.mapM specieOf = .ok ks ∧ d.map Prod.fst = ks.foldl addKey [] := by
  unfold compositionFor at h
  rw [bind_eq_ok] at h
  obtain ⟨d0, h0, h⟩ := h
  obtain ⟨ks, hks, hd0⟩ := foldlM_dictSet_keys specieOf (fun _ => 0) ns [] d0 h0
  refine ⟨ks, hks, ?_⟩
  rw [← List.map_nil (f := Prod.fst (α := Str) (β := Nat)), ← hd0]
  refine foldlM_keys _ ?_ ns d0 d h
  intro d x d' hd
  refine foldlM_keys _ ?_ ts d d' hd
  intro e t e' he
  split at he
  · obtain ⟨sym, _, he⟩ := bind_eq_ok.1 he
    exact dictIncr_keys _ _ _ he
  · obtain rfl := Except.ok.inj he
    rfl

theorem foldl_addKey {α : Type} [DecidableEq α] (l acc : List α) (h : acc.Nodup) :
    (l.foldl addKey acc).Nodup ∧ (∀ x, x ∈ l.foldl addKey acc ↔ x ∈ acc ∨ x ∈ l) ∧
      acc <+: l.foldl addKey acc := by
  induction l generalizing acc with
  | nil => exact ⟨h, by simp, List.prefix_refl _⟩
  | cons a l ih =>
    rw [List.foldl_cons]
    unfold addKey
    split
    · next ha =>
      obtain ⟨h1, h2, h3⟩ := ih acc h
      refine ⟨h1, ?_, h3⟩
      intro x
      have := h2 x
      unfold addKey at this
      rw [this, List.mem_cons]
      constructor
      · tauto
      · rintro (hx | rfl | hx)
        · exact .inl hx
        · exact .inl ha
        · exact .inr hx
    · next ha =>
      obtain ⟨h1, h2, h3⟩ := ih (acc ++ [a]) (by
        rw [List.nodup_append]
        refine ⟨h, by simp, ?_⟩
        intro x hx y hy
        rw [List.mem_singleton.1 hy]
        rintro rfl
        exact ha hx)
      refine ⟨h1, ?_, (List.prefix_append _ _).trans h3⟩
      intro x
      have := h2 x
      unfold addKey at this
      rw [this, List.mem_append, List.mem_singleton, List.mem_cons]
      tauto

/-- Where a key ends up: at the place of its first occurrence iff nothing before it is repeated. -/
theorem addKey_place {α : Type} [DecidableEq α] (as bs : List α) (k : α) (hk : k ∉ as) :
    ((as ++ k :: bs).foldl addKey [])[as.length]? = some k ↔ as.Nodup := by
  obtain ⟨h1, h2, _⟩ := foldl_addKey as [] (by simp)
  simp only [List.not_mem_nil, false_or] at h2
  set D := as.foldl addKey [] with hD
  have hlen : D.length = as.dedup.length := by
    refine List.Perm.length_eq ((List.perm_ext_iff_of_nodup h1 (List.nodup_dedup _)).2 ?_)
    intro x
    rw [h2, List.mem_dedup]
  have hkD : k ∉ D := by rw [h2]; exact hk
  rw [List.foldl_append, ← hD, List.foldl_cons]
  have hadd : addKey D k = D ++ [k] := if_neg hkD
  rw [hadd]
  have hnd : (D ++ [k]).Nodup := by
    rw [List.nodup_append]
    refine ⟨h1, by simp, ?_⟩
    intro x hx y hy
    rw [List.mem_singleton.1 hy]
    rintro rfl
    exact hkD hx
  obtain ⟨h3, _, rest, h4⟩ := foldl_addKey bs (D ++ [k]) hnd
  have hat : (bs.foldl addKey (D ++ [k]))[D.length]? = some k := by
    rw [← h4]; simp
  constructor
  · intro h
    have : as.length = D.length := by
      have hlt := (List.getElem?_eq_some_iff.1 h).1
      exact (List.getElem?_inj hlt h3).1 (h.trans hat.symm)
    rw [hlen] at this
    have h5 := (List.dedup_sublist as).eq_of_length this.symm
    exact List.dedup_eq_self.1 h5
  · intro h
    have : D.length = as.length := by rw [hlen, List.dedup_eq_self.2 h]
    rw [← this]
    exact hat

theorem nodup_of_forall₂ {α β : Type} {f : α → Except PyErr β} {as : List α} {bs : List β}
    (h : List.Forall₂ (fun x y => f x = .ok y) as bs) (hn : bs.Nodup) : as.Nodup := by
  induction h with
  | nil => simp
  | @cons a b as bs hab hrest ih =>
    rw [List.nodup_cons] at hn ⊢
    refine ⟨fun hmem => hn.1 ?_, ih hn.2⟩
    obtain ⟨i, hi⟩ := List.mem_iff_getElem?.1 hmem
    obtain ⟨b', hb', he⟩ := forall₂_get hrest hi
    rw [hab] at he
    rw [Except.ok.inj he]
    exact List.mem_of_getElem? hb'

/-! ## C40 -/

/-- C40 for every given list of atomic numbers, repeated ones included: the stored index of an atom is the
place of its number in the list, and it names the atom's element in the written element list exactly if no
number before that place is repeated. -/
theorem C40_decodes_iff (text : Str) (l : List Int) (s : InfoSet)
    (h : infoSetFromFile text (some l) = .ok s) :
    ∃ m T, MVExtractor.load text = .ok m ∧
      List.Forall₂ (fun f v => typesOf f = .ok v) m.allFrameStrs T ∧
      List.Forall₂ (fun (row : List Int) (stored : List Nat) =>
        List.Forall₂ (fun t j => l[j]? = some t ∧ t ∉ l.take j ∧
          ((∃ sym, (s.formulaDict.map Prod.fst)[j]? = some sym ∧ specieOf t = .ok sym) ↔
            (l.take j).Nodup)) row stored) T s.types := by
  obtain ⟨m, T, t0, ns, hm, hr, _, hp⟩ := infoSet_ok h
  refine ⟨m, T, hm, hr.types, ?_⟩
  unfold pickComposition at hp
  simp only at hp
  rw [bind_eq_ok] at hp
  obtain ⟨d, hd, hp⟩ := hp
  obtain ⟨rfl, rfl⟩ := Prod.mk.inj (Except.ok.inj hp)
  obtain ⟨ks, hks, hkeys⟩ := compositionFor_keys hd
  refine (mapM_eq_ok.1 hr.index).imp fun row stored hrow => (mapM_eq_ok.1 hrow).imp fun t j hj => ?_
  have hlj := pyIndex_ok hj
  have hnot : t ∉ l.take j := by
    unfold pyIndex at hj
    split at hj
    · next hm =>
      obtain rfl := Except.ok.inj hj
      rw [List.mem_take_iff_idxOf_lt hm]
      exact lt_irrefl _
    · cases hj
  refine ⟨hlj, hnot, ?_⟩
  have hks' := mapM_eq_ok.1 hks
  obtain ⟨sym, h1, h2⟩ := forall₂_get hks' hlj
  have htake : List.Forall₂ (fun x y => specieOf x = .ok y) (l.take j) (ks.take j) :=
    List.forall₂_take j hks'
  have hsym : sym ∉ ks.take j := by
    intro hmem
    obtain ⟨i, hi⟩ := List.mem_iff_getElem?.1 hmem
    obtain ⟨t', ht', he⟩ := forall₂_get' htake hi
    rw [C05_injective _ _ _ he h2] at ht'
    exact hnot (List.mem_of_getElem? ht')
  obtain ⟨hj', he'⟩ := List.getElem?_eq_some_iff.1 h1
  have hsplit : ks = ks.take j ++ sym :: ks.drop (j + 1) := by
    rw [← he', List.cons_getElem_drop_succ, List.take_append_drop]
  have hplace := addKey_place (ks.take j) (ks.drop (j + 1)) sym hsym
  rw [← hsplit, List.length_take, min_eq_left hj'.le] at hplace
  have hnd : (ks.take j).Nodup ↔ (l.take j).Nodup :=
    ⟨fun hn => nodup_of_forall₂ htake hn, fun hn => mapM_nodup C05_injective (mapM_eq_ok.2 htake) hn⟩
  rw [hkeys, ← hnd, ← hplace]
  constructor
  · rintro ⟨sym', h3, h4⟩
    rw [h2] at h4
    obtain rfl := Except.ok.inj h4
    exact h3
  · intro h3
    exact ⟨sym, h3, h2⟩

/-- The list with oxygen twice. -/
example : ∃ s, infoSetFromFile frameNoStress (some [8, 8, 14]) = .ok s ∧
    (s.formulaDict.map Prod.fst)[2]? = none := by
  cases h : infoSetFromFile frameNoStress (some [8, 8, 14]) with
  | error e =>
    have := C40_duplicates_violated
    rw [h] at this
    cases this
  | ok s =>
    have := C40_duplicates_violated
    rw [h] at this
    refine ⟨s, rfl, ?_⟩
    rw [(Prod.mk.inj (Except.ok.inj this)).2]
    rfl

/-! ## C170 -/

/-- C170 for every REPORT and every remembered copy of it: the name returned is the last word of the
remembered row with the number of the first row that has `IN.ATOM` now; the call fails when there is no such
row or when the remembered row has no words or is missing. -/
theorem C170_exact (f : RunFiles) (pre post : List Str) (row : Str) (hr : f.report = pre ++ row :: post)
    (hk : (chars% "IN.ATOM") <:+: row) (hpre : ∀ r ∈ pre, ¬ (chars% "IN.ATOM") <:+: r) :
    (∀ w, getInAtom f = .ok w ↔
      ∃ crow ws, f.cached[pre.length]? = some crow ∧ split crow = ws ++ [w]) ∧
    ((∃ w, getInAtom f = .ok w) ∨ getInAtom f = .error .indexError) := by
  have hsearch : pyGet (searchAim f.report (chars% "IN.ATOM")) 0 = .ok (pre.length + 1) := by
    rw [pyGet_eq_ok, searchAim_eq, hr, aimFrom_append, aimFrom_none _ 0 pre hpre, aimFrom_cons,
      if_pos ((strIn_iff _ _).2 hk)]
    simp
  have hall : getInAtom f = pyGetI (split (f.cached[pre.length]?.getD [])) (-1) := by
    unfold getInAtom
    rw [hsearch, ok_bind]
    unfold getline
    rw [if_neg (by omega)]
    simp
  rw [hall]
  cases hc : f.cached[pre.length]? with
  | none =>
    have : pyGetI (split ([] : Str)) (-1) = .error .indexError := by decide +kernel
    simp only [Option.getD_none, this]
    simp
  | some crow =>
    simp only [Option.getD_some, Option.some.injEq]
    rcases List.eq_nil_or_concat (split crow) with hs | ⟨ws, w, hs⟩
    · rw [hs]
      have : pyGetI ([] : List Str) (-1) = .error .indexError := by decide +kernel
      rw [this]
      simp [hs]
    · have h1 : pyGetI (split crow) (-1) = .ok w := by
        rw [hs]
        apply pyGetI_neg_one
        simp
      rw [h1]
      refine ⟨fun w' => ⟨?_, ?_⟩, .inl ⟨w, rfl⟩⟩
      · intro h
        obtain rfl := Except.ok.inj h
        exact ⟨crow, ws, rfl, by simpa using hs⟩
      · rintro ⟨crow', ws', rfl, h⟩
        rw [hs] at h
        simp at h
        rw [h.2]

/-- The overwritten REPORT of `C170_stale`. -/
example := C170_exact ⟨[chars% "JOB = SCF\n", chars% "IN.ATOM = new.config\n"],
      [chars% "IN.ATOM = old.config\n", chars% "PRECISION = DOUBLE\n"], none⟩ [chars% "JOB = SCF\n"] []
    (chars% "IN.ATOM = new.config\n") rfl ((strIn_iff _ _).1 (by decide +kernel))
    (by
      intro r hr
      rw [List.mem_singleton.1 hr, ← strIn_iff]
      decide +kernel)

end MaterSDK
