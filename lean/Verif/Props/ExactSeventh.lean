import Verif.Props.Extractor
import Verif.Props.Report
import Verif.Props.TildeR

/-! # C36, C121, C136: exactly when they hold -/

namespace MaterSDK

/-- C36 with two spins, exactly: the table of such a REPORT is returned if and only if numpy is older than 1.25
and there are at least three bands. -/
theorem C36_two_spins_iff (np125 : Bool) (f : RunFiles) (hc : f.cached = f.report) (nk nb : ℕ)
    (hnk : 0 < nk) (hnb : 0 < nb) (up down : List (List ℚ)) (hu : up.length = nk) (hd : down.length = nk)
    (h : ReportLayout f.report nk nb (up ++ down)) :
    eigenEnergies np125 f = .ok ⟨up, down⟩ ↔ np125 = false ∧ 3 ≤ nb := by
  constructor
  · intro hok
    by_contra hn
    have hbad : np125 = true ∨ nb ≤ 2 := by
      cases np125
      · right
        by_contra h3
        exact hn ⟨rfl, by omega⟩
      · exact Or.inl rfl
    rw [C36_two_spins_error np125 f hc nk nb hnk hnb hbad up down hu hd h] at hok
    cases hok
  · rintro ⟨rfl, h3⟩
    exact C36_two_spins_partial f hc nk nb hnk h3 up down hu hd h

theorem create_mem {f g : H5File} {name : Str} {v : H5Val} (h : f.create name v = .ok g)
    {x : Str × H5Val} (hx : x ∈ f) : x ∈ g := by
  unfold H5File.create at h
  split at h
  · cases h
  · cases h
    exact List.mem_append_left _ hx

/-- A file that is written holds the weights and biases of the embedding nets of all layers up to the number of
*fitting* layers. -/
theorem saveHdf5_holds (sd : List (Str × Tensor)) (e le f lf : ℕ) (file : H5File)
    (hF : NetsComplete sd (chars% "fitting_net") f lf) (h : saveHdf5 sd e le f lf = .ok file)
    (i j : ℕ) (hi : i < e) (hj : j < lf) : ∃ t,
      (paramName (chars% "embedding_net") i (chars% "weights") (chars% "weight") j, H5Val.tensor t) ∈ file := by
  have hex : ∀ i < e, ∀ j < lf, LayerGood sd (chars% "embedding_net") i j := by
    intro i hi j hj g hg
    cases hc : pyDictGet sd (paramName (chars% "embedding_net") i g.1 g.2 j) with
    | ok t => exact ⟨t, rfl⟩
    | error err =>
      rw [C121_key_error sd e le f lf i j g err hg hj (Or.inl ⟨hi, hc⟩)] at h
      cases h
  have hok : saveNets sd (chars% "embedding_net") e lf [] =
      .ok ([] ++ netList sd (chars% "embedding_net") e lf) := by
    unfold saveNets netList
    rw [Int.toNat_natCast, Int.toNat_natCast]
    refine foldlM_append _ _ (fun f : H5File => (f.map Prod.fst).Nodup) nodup_left _ ?_ []
      (by simpa [netList] using netList_nodup sd (chars% "embedding_net") e lf)
    intro i hi f hf
    refine foldlM_append _ _ (fun f : H5File => (f.map Prod.fst).Nodup) nodup_left _ ?_ f hf
    intro j hj f hf
    exact layerGood_ok (hex i (List.mem_range.1 hi) j (List.mem_range.1 hj)) hf
  obtain ⟨t, ht⟩ := hex i hi j hj (chars% "weights", chars% "weight") (by simp [paramGroups])
  have hm : (paramName (chars% "embedding_net") i (chars% "weights") (chars% "weight") j, H5Val.tensor t) ∈
      netList sd (chars% "embedding_net") e lf :=
    mem_netList.2 ⟨i, j, (chars% "weights", chars% "weight"), t, hi, hj, by simp [paramGroups], rfl, ht, rfl⟩
  refine ⟨t, ?_⟩
  unfold saveHdf5 at h
  rw [hok, ok_bind, List.nil_append,
    saveNets_ok sd (chars% "fitting_net") f lf _ hF (netLists_nodup sd e lf f lf), ok_bind] at h
  simp only [bind_eq_ok] at h
  obtain ⟨_, _, _, _, _, _, _, _, _, _, f1, h1, f2, h2, _, _, f3, h3, _, _, h4⟩ := h
  exact create_mem h4 (create_mem h3 (create_mem h2 (create_mem h1 (List.mem_append_left _ hm))))

/-- C121, exactly: for a complete checkpoint whose last embedding layer has an output, the file is written and
holds what it should if and only if both kinds of nets have the same number of layers. -/
theorem C121_holds_iff (sd : List (Str × Tensor)) (e le f lf : ℕ) (he : 0 < e) (hle : 0 < le) (hf : 0 < f)
    (hlf : 0 < lf)
    (hE : NetsComplete sd (chars% "embedding_net") e le) (hF : NetsComplete sd (chars% "fitting_net") f lf)
    (hw : ∀ b, pyDictGet sd (paramName (chars% "embedding_net") (e - 1) (chars% "bias") (chars% "bias") (le - 1)) =
      .ok b → b.shape.getLast? ≠ some 0) :
    (∃ file, saveHdf5 sd e le f lf = .ok file ∧ FFFile sd e le f lf file) ↔ le = lf := by
  constructor
  · rintro ⟨file, hok, hfile⟩
    rcases lt_trichotomy le lf with hlt | heq | hgt
    · obtain ⟨t, hm⟩ := saveHdf5_holds sd e le f lf file hF hok 0 le he hlt
      obtain ⟨_, _, _, _, _, _, _, _, _, _, _, _, _, _, _, _, hiff⟩ := hfile
      rcases (hiff _ _).1 hm with h | h | h | h | h | h
      · obtain ⟨i', j', g', t', _, hj', hg', hn, _⟩ := h
        have := (paramName_inj (g := (chars% "weights", chars% "weight")) _ (by simp [paramGroups]) hg' hn).2.2
        omega
      · obtain ⟨i', j', g', t', _, hj', hg', hn, _⟩ := h
        unfold paramName at hn
        simp at hn
      all_goals
        have := h.1
        unfold paramName at this
        simp at this
    · exact heq
    · obtain ⟨file', hok', hno, _⟩ := C121_missing_layers sd e le f lf he hf hlf hgt hE hF hw
      rw [hok] at hok'
      cases hok'
      exact absurd hfile hno
  · rintro rfl
    exact C121_content_partial sd e le f he hle hf hE hF hw

/-- C136, exactly: with the arrays of a neighbour list the static functions return a table if and only if there
are enough slots, and otherwise an assertion fails. -/
theorem C136_static_iff (p : LmpIn) (sites : List Centre) (cz : List ℤ) (nzw : List (ℤ × ℕ))
    (extra : List ℤ) (rcut rs : ℝ) (h : rs < rcut) (hp : p.Describes sites) :
    ((∃ t, tildeGenerateLmp p cz (nzw.map Prod.fst) (nzw.map (fun e => (e.2 : ℤ)) ++ extra) rcut rs = .ok t) ↔
      HasSlots cz nzw sites) ∧
    ((∃ t, tildeDerivLmp p cz (nzw.map Prod.fst) (nzw.map (fun e => (e.2 : ℤ)) ++ extra) rcut rs = .ok t) ↔
      HasSlots cz nzw sites) := by
  refine ⟨⟨?_, fun hr => ⟨_, (C134_tilde_values p sites cz nzw extra rcut rs hp hr).1⟩⟩, ⟨?_, fun hr => ?_⟩⟩
  · rintro ⟨t, ht⟩
    by_contra hn
    rw [(C136_static_too_few_partial p sites cz nzw extra rcut rs hp hn).1] at ht
    cases ht
  · rintro ⟨t, ht⟩
    by_contra hn
    rw [(C136_static_too_few_partial p sites cz nzw extra rcut rs hp hn).2.1] at ht
    cases ht
  · obtain ⟨J, _, h2, _⟩ := C134_tilde_derivatives p sites cz nzw extra rcut rs h hp hr
    exact ⟨_, h2⟩

/-- C136, the member functions: they stay inside their arrays if and only if there are enough slots. -/
theorem C136_member_iff (A : ArgSort) (L : Fin 3 → Vec ℝ) (atoms : List (ℤ × Vec ℝ)) (rcut rs : ℝ)
    (pbc : Fin 3 → Bool) (sort : Bool) (hok : CellOk L atoms pbc) (hr : 0 < rcut)
    (hap : ApartImages L (atoms.map Prod.snd)) (cz : List ℤ) (nzw : List (ℤ × ℕ)) (extra : List ℤ) :
    ∃ N I T, NbrLists.make A (CStruct.make L atoms true) rcut pbc sort = .ok N ∧
      ListsImages L pbc atoms rcut sort I ∧
      Tilde.makeWith N cz (nzw.map Prod.fst) (nzw.map (fun e => (e.2 : ℤ)) ++ extra) rs = .ok T ∧
      ((∃ t, T.generate = .ok t) ↔ HasSlots cz nzw (crystalCentres L atoms I)) ∧
      ((∃ t, T.deriv = .ok t) ↔ HasSlots cz nzw (crystalCentres L atoms I)) ∧
      (¬ HasSlots cz nzw (crystalCentres L atoms I) →
        T.generate = .error .outOfBounds ∧ T.deriv = .error .outOfBounds) := by
  obtain ⟨N, h1, _, I, h3, h4, h5, _, _⟩ := nbr_reads A L atoms rcut pbc sort hok hr hap
  refine ⟨N, I, _, h1, h3, makeWith_tilde L atoms I N cz nzw extra rs h3.1 h5, ⟨?_, fun hroom => ?_⟩,
    ⟨?_, fun hroom => ?_⟩, fun hroom => tilde_member_oob N _ h4 cz nzw rs hroom⟩
  · rintro ⟨t, ht⟩
    by_contra hn
    rw [(tilde_member_oob N _ h4 cz nzw rs hn).1] at ht
    cases ht
  · exact ⟨_, (tilde_member_ok N _ h4 cz nzw rs hroom).1⟩
  · rintro ⟨t, ht⟩
    by_contra hn
    rw [(tilde_member_oob N _ h4 cz nzw rs hn).2] at ht
    cases ht
  · exact ⟨_, (tilde_member_ok N _ h4 cz nzw rs hroom).2⟩

/-- One slot is too few for one element of this list. -/
example : ¬ ∃ t, tildeGenerateLmp exLmp [8, 3] [3, 8] [1, 0] 3 1 = .ok t := fun h =>
  exLmp_crowded ((C136_static_iff exLmp exCentres [8, 3] [(3, 1), (8, 0)] [] 3 1 (by norm_num)
    exLmp_describes).1.1 h)

end MaterSDK
