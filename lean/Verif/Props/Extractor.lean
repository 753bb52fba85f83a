import Verif.Lemmas.Extractor

/-! # C121, C122: force field files -/

namespace MaterSDK

/-- C121: when both kinds of nets have the same number of layers and the checkpoint is complete, the
file holds every weight, bias and resnet parameter of all nets, the extents of the descriptor and the
sizes of the layers, and nothing else. Missing: different numbers of layers, see the next theorem. -/
theorem C121_content_partial (sd : List (Str × Tensor)) (e l f : ℕ) (he : 0 < e) (hl : 0 < l) (hf : 0 < f)
    (hE : NetsComplete sd (chars% "embedding_net") e l) (hF : NetsComplete sd (chars% "fitting_net") f l)
    (hw : ∀ b, pyDictGet sd (paramName (chars% "embedding_net") (e - 1) (chars% "bias") (chars% "bias") (l - 1)) =
      .ok b → b.shape.getLast? ≠ some 0) :
    ∃ file, saveHdf5 sd e l f l = .ok file ∧ FFFile sd e l f l file := by
  obtain ⟨b, hb, hbs⟩ := hE (e - 1) (by omega) (l - 1) (by omega) (chars% "bias", chars% "bias")
    (by simp [paramGroups])
  obtain ⟨w, hw0, hws⟩ := hF 0 hf 0 hl (chars% "weights", chars% "weight") (by simp [paramGroups])
  obtain ⟨m1, hm1⟩ : ∃ m1, b.shape.getLast? = some m1 := ⟨_, List.getLast?_eq_some_getLast hbs⟩
  obtain ⟨d, hd⟩ : ∃ d, w.shape.head? = some d := ⟨_, List.head?_eq_some_head hws⟩
  obtain ⟨es, hes, hes'⟩ := layerSizes_ok sd (chars% "embedding_net") e l he hE
  obtain ⟨fs, hfs, hfs'⟩ := layerSizes_ok sd (chars% "fitting_net") f l hf hF
  have h0 : m1 ≠ 0 := fun h => hw b hb (by rw [hm1, h])
  obtain ⟨hnd, hok⟩ := saveHdf5_ok sd e l f l he hl hE hF b w m1 d hb hm1 hw0 hd h0 es fs hes hfs
  refine ⟨_, hok, hnd, m1, d / m1, d, es, fs, b, w, hb, hm1, hw0, hd, Nat.div_mul_le_self d m1, ?_, hes', hfs', ?_⟩
  · have := Nat.div_add_mod d m1
    have := Nat.mod_lt d (Nat.pos_of_ne_zero h0)
    rw [Nat.add_mul, Nat.one_mul, Nat.mul_comm]
    omega
  · intro name v
    simp only [List.mem_append, mem_netList, List.mem_cons, Prod.mk.injEq, List.not_mem_nil, or_false, or_assoc]

/-- C121: with fewer fitting layers than embedding layers the file is written without complaint but has
no parameter of the embedding layers beyond the number of fitting layers, although the checkpoint has
their weights and `embedding_sizes` lists these layers. -/
theorem C121_missing_layers (sd : List (Str × Tensor)) (e le f lf : ℕ) (he : 0 < e) (hf : 0 < f) (hlf : 0 < lf)
    (hlt : lf < le)
    (hE : NetsComplete sd (chars% "embedding_net") e le) (hF : NetsComplete sd (chars% "fitting_net") f lf)
    (hw : ∀ b, pyDictGet sd (paramName (chars% "embedding_net") (e - 1) (chars% "bias") (chars% "bias") (le - 1)) =
      .ok b → b.shape.getLast? ≠ some 0) :
    ∃ file, saveHdf5 sd e le f lf = .ok file ∧ ¬ FFFile sd e le f lf file ∧
      (∀ i j, lf ≤ j → ∀ g ∈ paramGroups,
        paramName (chars% "embedding_net") i g.1 g.2 j ∉ file.map Prod.fst) ∧
      ∃ es, (chars% "embedding_sizes", H5Val.ints es) ∈ file ∧ es.length = le := by
  obtain ⟨b, hb, hbs⟩ := hE (e - 1) (by omega) (le - 1) (by omega) (chars% "bias", chars% "bias")
    (by simp [paramGroups])
  obtain ⟨w, hw0, hws⟩ := hF 0 hf 0 hlf (chars% "weights", chars% "weight") (by simp [paramGroups])
  obtain ⟨m1, hm1⟩ : ∃ m1, b.shape.getLast? = some m1 := ⟨_, List.getLast?_eq_some_getLast hbs⟩
  obtain ⟨d, hd⟩ : ∃ d, w.shape.head? = some d := ⟨_, List.head?_eq_some_head hws⟩
  obtain ⟨es, hes, hes'⟩ := layerSizes_ok sd (chars% "embedding_net") e le he hE
  obtain ⟨fs, hfs, hfs'⟩ := layerSizes_ok sd (chars% "fitting_net") f lf hf hF
  have h0 : m1 ≠ 0 := fun h => hw b hb (by rw [hm1, h])
  have hE' : NetsComplete sd (chars% "embedding_net") e lf := fun i hi j hj => hE i hi j (by omega)
  obtain ⟨hnd, hok⟩ := saveHdf5_ok sd e le f lf he (by omega) hE' hF b w m1 d hb hm1 hw0 hd h0 es fs hes hfs
  have hno : ∀ i j, lf ≤ j → ∀ g ∈ paramGroups, paramName (chars% "embedding_net") i g.1 g.2 j ∉
      (netList sd (chars% "embedding_net") e lf ++ netList sd (chars% "fitting_net") f lf ++
        [(chars% "M1", H5Val.int m1), (chars% "M2", H5Val.int (d / m1)), (chars% "embedding_sizes", H5Val.ints es),
          (chars% "fitting_sizes", H5Val.ints fs)]).map Prod.fst := by
    intro i j hj g hg hm
    obtain ⟨⟨x, v⟩, hx, hxe⟩ := List.mem_map.1 hm
    simp only at hxe
    simp only [List.mem_append, mem_netList, List.mem_cons, Prod.mk.injEq, List.not_mem_nil, or_false] at hx
    rcases hx with (hx | hx) | hx
    · obtain ⟨i', j', g', t, hi', hj', hg', hn, _⟩ := hx
      have := (paramName_inj _ hg' hg (hn.symm.trans hxe)).2.2
      omega
    · obtain ⟨i', j', g', t, hi', hj', hg', hn, _⟩ := hx
      rw [hn] at hxe
      unfold paramName at hxe
      simp at hxe
    · rcases hx with hx | hx | hx | hx <;>
      · rw [hx.1] at hxe
        unfold paramName at hxe
        simp at hxe
  refine ⟨_, hok, ?_, hno, es, by simp, hes'.1⟩
  rintro ⟨_, _, _, _, _, _, _, _, _, _, _, _, _, _, _, _, hiff⟩
  obtain ⟨t, ht, _⟩ := hE 0 he lf hlt (chars% "weights", chars% "weight") (by simp [paramGroups])
  have := (hiff _ (.tensor t)).2 (Or.inl ⟨0, lf, (chars% "weights", chars% "weight"), t, he, hlt,
    by simp [paramGroups], rfl, ht, rfl⟩)
  exact hno 0 lf (le_refl _) (chars% "weights", chars% "weight") (by simp [paramGroups])
    (List.mem_map.2 ⟨_, this, rfl⟩)

/-- C121: a weight or a bias that the loops ask for and the checkpoint lacks is a `KeyError`. For the
embedding nets the loops run over the number of fitting layers, so that a checkpoint with fewer
embedding layers than fitting layers is always refused. -/
theorem C121_key_error (sd : List (Str × Tensor)) (e le f lf i j : ℕ) (g : Str × Str) (err : PyErr)
    (hg : g ∈ paramGroups.take 2) (hj : j < lf)
    (h : (i < e ∧ pyDictGet sd (paramName (chars% "embedding_net") i g.1 g.2 j) = .error err) ∨
      (i < f ∧ pyDictGet sd (paramName (chars% "fitting_net") i g.1 g.2 j) = .error err)) :
    saveHdf5 sd e le f lf = .error .keyError := by
  unfold saveHdf5
  by_cases hex : ∃ i < e, ∃ j < lf, ¬ LayerGood sd (chars% "embedding_net") i j
  · rw [saveNets_keyError sd (chars% "embedding_net") e lf [] (by simpa using netList_nodup sd _ e lf) hex, error_bind]
  · push Not at hex
    have hbad : ∃ i < f, ∃ j < lf, ¬ LayerGood sd (chars% "fitting_net") i j := by
      rcases h with ⟨hi, h⟩ | ⟨hi, h⟩
      · obtain ⟨t, ht⟩ := hex i hi j hj g hg
        rw [ht] at h
        cases h
      · refine ⟨i, hi, j, hj, fun hgood => ?_⟩
        obtain ⟨t, ht⟩ := hgood g hg
        rw [ht] at h
        cases h
    have hok : saveNets sd (chars% "embedding_net") e lf [] =
        .ok ([] ++ netList sd (chars% "embedding_net") e lf) := by
      unfold saveNets netList
      rw [Int.toNat_natCast, Int.toNat_natCast]
      refine foldlM_append _ _ (fun f : H5File => (f.map Prod.fst).Nodup) nodup_left _ ?_ []
        (by simpa [netList] using netList_nodup sd (chars% "embedding_net") e lf)
      intro i hi f hf
      refine foldlM_append _ _ (fun f : H5File => (f.map Prod.fst).Nodup) nodup_left _ ?_ f hf
      intro j hj f hf
      exact layerGood_ok (hex i (List.mem_range.1 hi) j (List.mem_range.1 hj)) hf
    rw [hok, ok_bind, List.nil_append,
      saveNets_keyError sd (chars% "fitting_net") f lf _ (netLists_nodup sd e lf f lf) hbad, error_bind]

/-- C121: an embedding net whose last layer has no output is refused by a division by zero. -/
theorem C121_zero_width (sd : List (Str × Tensor)) (e l f : ℕ) (he : 0 < e) (hl : 0 < l) (hf : 0 < f)
    (hE : NetsComplete sd (chars% "embedding_net") e l) (hF : NetsComplete sd (chars% "fitting_net") f l)
    (b : Tensor)
    (hb : pyDictGet sd (paramName (chars% "embedding_net") (e - 1) (chars% "bias") (chars% "bias") (l - 1)) = .ok b)
    (h0 : b.shape.getLast? = some 0) : saveHdf5 sd e l f l = .error .zeroDivision := by
  obtain ⟨w, hw0, hws⟩ := hF 0 hf 0 hl (chars% "weights", chars% "weight") (by simp [paramGroups])
  obtain ⟨d, hd⟩ : ∃ d, w.shape.head? = some d := ⟨_, List.head?_eq_some_head hws⟩
  have hbn : biasName (chars% "embedding_net") ((e : ℤ) - 1) ((l : ℤ) - 1) =
      paramName (chars% "embedding_net") (e - 1) (chars% "bias") (chars% "bias") (l - 1) := by
    rw [← biasName_eq, Nat.cast_sub (by omega), Nat.cast_sub (by omega), Nat.cast_one]
  have hwn : weightName (chars% "fitting_net") 0 0 =
      paramName (chars% "fitting_net") 0 (chars% "weights") (chars% "weight") 0 := by
    have := weightName_eq (chars% "fitting_net") 0 0
    rwa [Nat.cast_zero] at this
  have hl1 : lastDim b = .ok 0 := by unfold lastDim; rw [h0]
  have hl2 : firstDim w = .ok d := by unfold firstDim; rw [hd]
  unfold saveHdf5
  rw [saveNets_ok sd (chars% "embedding_net") e l [] hE (by simpa using netList_nodup sd (chars% "embedding_net") e l),
    ok_bind, List.nil_append, saveNets_ok sd (chars% "fitting_net") f l _ hF (netLists_nodup sd e l f l), ok_bind, hbn,
    hb, ok_bind, hl1, ok_bind, hwn, hw0, ok_bind, hl2, ok_bind]
  rfl

/-- C122: the dictionary read from a file has the data sets of the file: the same names, each with the
value that was stored. -/
theorem C122_dict (file : H5File) (hnd : (file.map Prod.fst).Nodup) :
    (∀ k v, pyDictGet (hdf5Dict file) k = .ok v ↔ (k, v) ∈ file) ∧
    (∀ k, pyDictGet (hdf5Dict file) k = .error .keyError ↔ k ∉ file.map Prod.fst) ∧
    ((hdf5Dict file).map Prod.fst).Nodup := by
  obtain ⟨h1, h2⟩ := hdf5Dict_spec file hnd
  refine ⟨fun k v => (pyDictGet_ok h1 k v).trans (h2 k v), fun k => ?_, h1⟩
  rw [pyDictGet_err]
  constructor
  · intro h hm
    obtain ⟨⟨k', v⟩, hv, rfl⟩ := List.mem_map.1 hm
    exact h v ((h2 _ _).2 hv)
  · intro h v hv
    exact h (List.mem_map.2 ⟨(k, v), (h2 _ _).1 hv, rfl⟩)

/-! ## Examples -/

/-- One embedding net of two layers, one fitting net of two layers; one resnet parameter. -/
def ffSd : List (Str × Tensor) :=
  [(chars% "embedding_net.0.weights.weight0", ⟨[1, 2], [1, 2]⟩),
   (chars% "embedding_net.0.bias.bias0", ⟨[1, 2], [3, 4]⟩),
   (chars% "embedding_net.0.weights.weight1", ⟨[2, 2], [5, 6, 7, 8]⟩),
   (chars% "embedding_net.0.bias.bias1", ⟨[1, 2], [9, 10]⟩),
   (chars% "embedding_net.0.resnet_dt.resnet_dt1", ⟨[1, 2], [11, 12]⟩),
   (chars% "fitting_net.0.weights.weight0", ⟨[6, 3], [1]⟩),
   (chars% "fitting_net.0.bias.bias0", ⟨[1, 3], [1, 2, 3]⟩),
   (chars% "fitting_net.0.weights.weight1", ⟨[3, 1], [1, 2, 3]⟩),
   (chars% "fitting_net.0.bias.bias1", ⟨[1, 1], [4]⟩)]

example : NetsComplete ffSd (chars% "embedding_net") 1 2 ∧ NetsComplete ffSd (chars% "fitting_net") 1 2 := by
  have h : ∀ net ∈ [(chars% "embedding_net"), (chars% "fitting_net")], ∀ i < 1, ∀ j < 2, ∀ g ∈ paramGroups.take 2,
      ((pyDictGet ffSd (paramName net i g.1 g.2 j)).toOption.any (fun t => t.shape ≠ [])) = true := by
    decide +kernel
  have h2 : ∀ net ∈ [(chars% "embedding_net"), (chars% "fitting_net")], NetsComplete ffSd net 1 2 := by
    intro net hn i hi j hj g hg
    have := h net hn i hi j hj g hg
    cases hc : pyDictGet ffSd (paramName net i g.1 g.2 j) with
    | error e => rw [hc] at this; cases this
    | ok t => rw [hc] at this; exact ⟨t, rfl, by simpa [Except.toOption] using this⟩
  exact ⟨h2 _ (by simp), h2 _ (by simp)⟩

/-- Same numbers of layers: everything is there. -/
example : (saveHdf5 ffSd 1 2 1 2).toOption.map (fun f => (f.length, f.drop 9)) =
    some (13, [(chars% "M1", .int 2), (chars% "M2", .int 3), (chars% "embedding_sizes", .ints [2, 2]),
      (chars% "fitting_sizes", .ints [3, 1])]) := by decide +kernel

/-- One fitting layer: layer 1 of the embedding net is missing. -/
example : (saveHdf5 ffSd 1 2 1 1).toOption.map (fun f => f.map Prod.fst) =
    some [chars% "embedding_net.0.weights.weight0", chars% "embedding_net.0.bias.bias0",
      chars% "fitting_net.0.weights.weight0", chars% "fitting_net.0.bias.bias0",
      chars% "M1", chars% "M2", chars% "embedding_sizes", chars% "fitting_sizes"] := by decide +kernel

/-- More fitting layers than embedding layers. -/
example : saveHdf5 ffSd 1 1 1 3 = .error .keyError := by decide +kernel

/-- The dictionary of a file. -/
example : (saveHdf5 ffSd 1 2 1 2).toOption.map (fun f => (pyDictGet (hdf5Dict f) (chars% "M2")).toOption) =
    some (some (.int 3)) := by decide +kernel

end MaterSDK
