import Verif.Lemmas.Batch
import Verif.Props.Neigh

/-! # C123-C127: whole collections and batches -/

namespace MaterSDK

/-! ## C123 -/

/-- C123, negation: `save_all_info` never saves a collection. It raises `TypeError` at the first frame,
because `DStructure.to` has no parameter `output_file_format`; by then the folder of frame 0 has been
emptied, whatever it held before. The other folders are left as they were. -/
theorem C123_never_saves (texts : List Str) (hne : texts ≠ []) (d : Folder) :
    ∃ d', saveAllInfo texts d = (d', .error .typeError) ∧
      ∀ p, p ∈ d' ↔ p = (imageName (showNat texts.length).length 0, []) ∨
        (p ∈ d ∧ p.1 ≠ imageName (showNat texts.length).length 0) := by
  obtain ⟨t, ts, rfl⟩ := List.exists_cons_of_ne_nil hne
  have h : saveAllInfo (t :: ts) d =
      (d.filter (fun p => p.1 ≠ imageName (showNat (t :: ts).length).length 0) ++
        [(imageName (showNat (t :: ts).length).length 0, [])], .error .typeError) := by
    unfold saveAllInfo
    rw [List.zipIdx_cons, List.map_cons]
    unfold saveImages saveImage
    rw [toSig_rejects]
  refine ⟨_, h, ?_⟩
  intro p
  simp only [List.mem_append, List.mem_filter, List.mem_singleton, decide_eq_true_eq]
  exact or_comm

/-- Two frames; the folder of the first held a file. -/
example : saveAllInfo [chars% "a", chars% "b"] [(chars% "0", [(chars% "virial.npy", chars% "v")]), (chars% "7", [])] =
    ([(chars% "7", []), (chars% "0", [])], .error .typeError) := by decide +kernel

/-- The signature check accepts the call as it should have been written. -/
example : toSig.bind 0 [chars% "file_format", chars% "file_path"] = .ok () := by decide

/-! ## C124 -/

/-- C124, negation: `batch_perturb` never writes a perturbed structure. If there is one to write it
raises `TypeError`; the files of the system are unchanged, only the folder `structures` is made. -/
theorem C124_never_writes (F : QR) (render : Struct ℝ → Str) (s : Struct ℝ) (n : ℤ) (frac dist : ℝ)
    (e0 : ℕ → Fin 6 → ℝ) (es : ℕ → ℕ → Vec ℝ) (d : SystemDir) :
    (perturbSystem F render s n frac dist e0 es d).1.files = d.files ∧
    (0 < n → ∀ structs, perturb F s n frac dist e0 es = .ok structs →
      (perturbSystem F render s n frac dist e0 es d).2 = .error .typeError) := by
  unfold perturbSystem
  cases hp : perturb F s n frac dist e0 es with
  | error e => exact ⟨rfl, fun _ structs h => by cases h⟩
  | ok structs =>
    have hlen : structs.length = n.toNat := by
      unfold perturb at hp
      rw [← (mapM_eq_ok.1 hp).length_eq, List.length_range]
    cases structs with
    | nil =>
      refine ⟨rfl, fun hn => ?_⟩
      simp only [List.length_nil] at hlen
      omega
    | cons a l =>
      have h : writePerturbed render (((a :: l).zipIdx).map (fun p => (p.2, p.1))) d.files =
          (d.files, .error .typeError) := by
        rw [List.zipIdx_cons, List.map_cons]
        unfold writePerturbed
        rw [toSig_rejects']
      simp only [h]
      exact ⟨trivial, fun _ _ _ => trivial⟩

/-- A structure that `perturb` accepts (no displacement, no strain), for any factorisation that returns
the factors of the identity with positive signs. -/
example (F : QR) (hF : F.q 1 = 1) (render : Struct ℝ → Str) (d : SystemDir) :
    (perturbSystem F render ⟨1, [⟨14, 0, none⟩]⟩ 1 0 0 (fun _ _ => 0) (fun _ _ => 0) d).2 = .error .typeError := by
  have h1 : (!![1, 0, 0; 0, 1, 0; 0, 0, 1] : Matrix (Fin 3) (Fin 3) ℝ) = 1 := Matrix.one_fin_three.symm
  have hp : perturb F ⟨1, [⟨14, 0, none⟩]⟩ 1 0 0 (fun _ _ => 0) (fun _ _ => 0) =
      .ok [⟨1, [⟨14, 0, none⟩]⟩] := by
    have hone : perturbOne F ⟨1, [⟨14, 0, none⟩]⟩ 0 0 (fun _ => 0) (fun _ => 0) = .ok ⟨1, [⟨14, 0, none⟩]⟩ := by
      unfold perturbOne cellPerturbMatrix
      rw [if_neg (lt_irrefl 0), ok_bind, if_neg (by simp)]
      have ha : ∀ v : Vec ℝ, atomPerturbVector 0 v = .ok 0 := by
        intro v
        unfold atomPerturbVector
        rw [if_neg (lt_irrefl 0)]
        congr 1
        funext i
        simp
      simp only [mul_zero, add_zero, h1, mul_one, List.map_cons, List.map_nil, List.zipIdx_cons, List.zipIdx_nil,
        List.mapM_cons, List.mapM_nil, ha]
      simp only [ok_bind]
      unfold rotLowerTriangular
      have hd : (Matrix.diagonal (fun _ => 1) : Matrix (Fin 3) (Fin 3) ℝ) = 1 := Matrix.diagonal_one
      simp only [Matrix.transpose_one, hF, Matrix.det_one, show ¬ ((1 : ℝ) < 0) by norm_num, if_false, mul_one,
        flipSign, Matrix.one_apply_eq, hd]
      simp [bind, Except.bind, pure, Except.pure]
    unfold perturb
    rw [show (1 : ℤ).toNat = 1 from rfl, List.range_one, List.mapM_cons, hone]
    rfl
  exact (C124_never_writes F render _ 1 0 0 _ _ d).2 (by norm_num) _ hp

/-! ## C125 -/

/-- C125, negation: no `KMesh` object can be made from a file. The constructor passes
`coords_are_cartesian` to `DStructure.from_file`, which has no such parameter. -/
theorem C125_never_constructed {α : Type} (read : Except PyErr α) : kmeshInit read = .error .typeError := by
  have h : fromFileSig.bind 0 [chars% "file_format", chars% "file_path", chars% "coords_are_cartesian"] =
      .error .typeError := by decide
  unfold kmeshInit
  rw [h, error_bind]

example : kmeshInit (.ok (2 : ℕ)) = .error .typeError := C125_never_constructed _

/-! ## C126 -/

/-- C126: with at least three processors the result is the largest number of other atoms strictly inside
the cutoff of any atom of any frame. -/
theorem C126_collection_max_partial (cpus : ℤ) (hcpu : 3 ≤ cpus) (frames : List (Struct ℝ)) (hf : frames ≠ [])
    (r : ℝ) (hr : 0 < r) (sc : Fin 3 → ℤ) (m : Fin 3 → ℕ) (h : ∀ i, sc i = 2 * (m i : ℤ) + 1)
    (hne : ∀ s ∈ frames, s.sites ≠ [])
    (hnd : ∀ s ∈ frames, ∀ S, s.makeSupercell sc true = .ok S → (S.sites.map Site.pos).Nodup) :
    ∃ M : ℕ, collectionMax cpus frames r sc = .ok (M : ℤ) ∧
      (∀ s ∈ frames, ∀ S, s.makeSupercell sc true = .ok S → ∀ c ∈ s.sites, othersCloser S c.pos r ≤ M) ∧
      ∃ s ∈ frames, ∃ S, s.makeSupercell sc true = .ok S ∧ ∃ c ∈ s.sites, othersCloser S c.pos r = M := by
  have hspec : ∀ s ∈ frames, ∃ S, s.makeSupercell sc true = .ok S ∧ ∃ M : ℕ, maxNumNbrsReal s r sc = .ok (M : ℤ) ∧
      (∀ c ∈ s.sites, othersCloser S c.pos r ≤ M) ∧ ∃ c ∈ s.sites, othersCloser S c.pos r = M := by
    intro s hs
    obtain ⟨S, _, _, hS, _⟩ := C17_table_exact insertionArgSort s r sc m h
    exact ⟨S, hS, C20_max_exact s S r hr sc m h hS (hne s hs) (hnd s hs S hS)⟩
  obtain ⟨ms, hms⟩ : ∃ ms, frames.mapM (fun (s : Struct ℝ) => maxNumNbrsReal s r sc) = .ok ms := by
    clear hnd hne hf
    induction frames with
    | nil => exact ⟨[], rfl⟩
    | cons s l ih =>
      obtain ⟨ms, hms⟩ := ih (fun s' hs' => hspec s' (by simp [hs']))
      obtain ⟨_, _, M, hM, _⟩ := hspec s (by simp)
      exact ⟨(M : ℤ) :: ms, by rw [List.mapM_cons, hM, ok_bind, hms]; rfl⟩
  have hall := mapM_eq_ok.1 hms
  have hne' : ms ≠ [] := by
    intro h0
    rw [h0] at hall
    cases hall
    exact hf rfl
  obtain ⟨mx, h1, h2, h3⟩ := npMaxInt_spec hne'
  have hmem : ∀ s ∈ frames, ∃ x ∈ ms, maxNumNbrsReal s r sc = .ok x := by
    intro s hs
    obtain ⟨i, hi, rfl⟩ := List.mem_iff_getElem.1 hs
    have hi' : i < ms.length := by rw [← hall.length_eq]; exact hi
    exact ⟨ms[i], List.getElem_mem hi', hall.get hi hi'⟩
  obtain ⟨i, hi, hix⟩ := List.mem_iff_getElem.1 h2
  have hi' : i < frames.length := by rw [hall.length_eq]; exact hi
  have hgi := hall.get hi' hi
  simp only [List.get_eq_getElem] at hgi
  obtain ⟨S, hS, M, hM, hle, c, hc, hcM⟩ := hspec _ (List.getElem_mem hi')
  have hMx : mx = (M : ℤ) := by rw [← hix]; exact Except.ok.inj (hgi.symm.trans hM)
  refine ⟨M, ?_, ?_, _, List.getElem_mem hi', S, hS, c, hc, hcM⟩
  · unfold collectionMax mpPool
    rw [if_neg (by omega), ok_bind, hms, ok_bind, h1, hMx]
  · intro s hs S' hS' c' hc'
    obtain ⟨x, hx, hsx⟩ := hmem s hs
    obtain ⟨S'', hS'', M', hM', hle', _⟩ := hspec s hs
    rw [hS'] at hS''
    cases hS''
    have : x = (M' : ℤ) := Except.ok.inj (hsx.symm.trans hM')
    have h4 := h3 x hx
    have h5 := hle' c' hc'
    omega

/-- C126, negation: on a machine with one or two processors the call raises `ValueError`. -/
theorem C126_few_processors (cpus : ℤ) (hcpu : cpus ≤ 2) (frames : List (Struct ℝ)) (r : ℝ)
    (sc : Fin 3 → ℤ) : collectionMax cpus frames r sc = .error .valueError := by
  unfold collectionMax mpPool
  rw [if_pos (by omega)]
  rfl

/-- The hypotheses of the two theorems about maxima, for one frame with one atom and three cells. -/
example : (∀ i, (![3, 1, 1] : Fin 3 → ℤ) i = 2 * ((![1, 0, 0] : Fin 3 → ℕ) i : ℤ) + 1) ∧
    (∀ s ∈ [cubicCell], s.sites ≠ []) ∧
    ∀ s ∈ [cubicCell], ∀ S, s.makeSupercell ![3, 1, 1] true = .ok S → (S.sites.map Site.pos).Nodup := by
  refine ⟨by decide, by simp [cubicCell], ?_⟩
  intro s hs S hS
  simp only [List.mem_singleton] at hs
  subst hs
  rw [cubic_supercell] at hS
  cases hS
  simp only [List.map_cons, List.map_nil, List.nodup_cons, List.mem_cons, List.not_mem_nil, or_false,
    not_or, not_false_eq_true, List.nodup_nil, and_true]
  refine ⟨⟨?_, ?_⟩, ?_⟩ <;> intro h <;> have := congrFun h 0 <;> norm_num at this

/-! ## C127 -/

/-- C127: with at least three processors the dictionary has the requested elements as keys; the value of
an element is the largest number of other atoms of that element strictly inside the cutoff of any atom of
any frame. -/
theorem C127_collection_max_element_partial (cpus : ℤ) (hcpu : 3 ≤ cpus) (frames : List (Struct ℝ))
    (hf : frames ≠ []) (r : ℝ) (els : List ℕ) (sc : Fin 3 → ℤ) (m : Fin 3 → ℕ)
    (h : ∀ i, sc i = 2 * (m i : ℤ) + 1) (hne : ∀ s ∈ frames, s.sites ≠ [])
    (hnd : ∀ s ∈ frames, ∀ S, s.makeSupercell sc true = .ok S → (S.sites.map Site.pos).Nodup) :
    ∃ d : List (ℕ × ℕ), collectionMaxElement cpus frames r els sc = .ok d ∧
      (d.map Prod.fst).Nodup ∧ (∀ e, e ∈ d.map Prod.fst ↔ e ∈ els) ∧
      ∀ e n, (e, n) ∈ d →
        (∀ s ∈ frames, ∀ S, s.makeSupercell sc true = .ok S → ∀ c ∈ s.sites, othersCloserOf S c.pos r e ≤ n) ∧
        ∃ s ∈ frames, ∃ S, s.makeSupercell sc true = .ok S ∧ ∃ c ∈ s.sites, othersCloserOf S c.pos r e = n := by
  have hspec : ∀ s ∈ frames, ∃ S, s.makeSupercell sc true = .ok S ∧ ∃ f : ℕ → ℕ,
      maxNumNbrsRealElement s r els sc = .ok ((counterKeys els).map (fun e => (e, f e))) ∧
      ∀ e, (∀ c ∈ s.sites, othersCloserOf S c.pos r e ≤ f e) ∧ ∃ c ∈ s.sites, othersCloserOf S c.pos r e = f e := by
    intro s hs
    obtain ⟨S, _, _, hS, _⟩ := C17_table_exact insertionArgSort s r sc m h
    exact ⟨S, hS, maxElement_spec s S r els sc m h hS (hne s hs) (hnd s hs S hS)⟩
  obtain ⟨ds, hds⟩ : ∃ ds, frames.mapM (fun (s : Struct ℝ) => maxNumNbrsRealElement s r els sc) = .ok ds := by
    clear hnd hne hf
    induction frames with
    | nil => exact ⟨[], rfl⟩
    | cons s l ih =>
      obtain ⟨ms, hms⟩ := ih (fun s' hs' => hspec s' (by simp [hs']))
      obtain ⟨_, _, f, hM, _⟩ := hspec s (by simp)
      exact ⟨_ :: ms, by rw [List.mapM_cons, hM, ok_bind, hms]; rfl⟩
  have hall := mapM_eq_ok.1 hds
  have hfrom : ∀ s ∈ frames, ∃ x ∈ ds, maxNumNbrsRealElement s r els sc = .ok x := by
    intro s hs
    obtain ⟨i, hi, rfl⟩ := List.mem_iff_getElem.1 hs
    have hi' : i < ds.length := by rw [← hall.length_eq]; exact hi
    exact ⟨ds[i], List.getElem_mem hi', hall.get hi hi'⟩
  have hto : ∀ x ∈ ds, ∃ s ∈ frames, maxNumNbrsRealElement s r els sc = .ok x := by
    intro x hx
    obtain ⟨i, hi, rfl⟩ := List.mem_iff_getElem.1 hx
    have hi' : i < frames.length := by rw [hall.length_eq]; exact hi
    exact ⟨frames[i], List.getElem_mem hi', hall.get hi' hi⟩
  obtain ⟨s0, fs, rfl⟩ := List.exists_cons_of_ne_nil hf
  obtain ⟨d0, ds', rfl⟩ : ∃ d0 ds', ds = d0 :: ds' := by
    cases hall with
    | cons _ _ => exact ⟨_, _, rfl⟩
  have hd0 : d0.map Prod.fst = counterKeys els := by
    obtain ⟨s, hs, hx⟩ := hto d0 (by simp)
    obtain ⟨_, _, f, hM, _⟩ := hspec s hs
    rw [hM] at hx
    rw [← Except.ok.inj hx, List.map_map]
    show List.map (fun e => e) _ = _
    simp
  have hkeys : (counterKeys els).Nodup := counterKeys_nodup els
  obtain ⟨g, h1, h2⟩ := maxFold (counterKeys els) hkeys (d0 :: ds').flatten (by
    intro p hp
    obtain ⟨x, hx, hpx⟩ := List.mem_flatten.1 hp
    obtain ⟨s, hs, hsx⟩ := hto x hx
    obtain ⟨_, _, f, hM, _⟩ := hspec s hs
    rw [hM] at hsx
    rw [← Except.ok.inj hsx] at hpx
    obtain ⟨e, he, rfl⟩ := List.mem_map.1 hpx
    exact he) (fun _ => 0)
  have hfst : ((counterKeys els).map (fun e => (e, g e))).map Prod.fst = counterKeys els := by
    rw [List.map_map]
    show List.map (fun e => e) _ = _
    simp
  refine ⟨(counterKeys els).map (fun e => (e, g e)), ?_, by rw [hfst]; exact hkeys,
    fun e => by rw [hfst]; exact mem_counterKeys els e, ?_⟩
  · unfold collectionMaxElement mpPool
    rw [if_neg (by omega), ok_bind, hds, ok_bind]
    unfold mergeMax
    have hz : d0.map (fun p => (p.1, 0)) = (counterKeys els).map (fun e => (e, 0)) := by
      rw [← hd0, List.map_map]
      rfl
    show (d0 :: ds').flatten.foldlM maxStep (d0.map (fun p => (p.1, 0))) = _
    rw [hz, h1]
  · intro e n hen
    obtain ⟨e', he', heq⟩ := List.mem_map.1 hen
    obtain ⟨rfl, rfl⟩ := Prod.mk.inj heq
    obtain ⟨_, hle, hatt⟩ := h2 e'
    have hmemv : ∀ s ∈ s0 :: fs, ∀ S, s.makeSupercell sc true = .ok S → ∀ c ∈ s.sites,
        othersCloserOf S c.pos r e' ≤ g e' := by
      intro s hs S hS c hc
      obtain ⟨S', hS', f, hM, hf'⟩ := hspec s hs
      rw [hS] at hS'
      cases hS'
      obtain ⟨x, hx, hsx⟩ := hfrom s hs
      rw [hM] at hsx
      refine le_trans ((hf' e').1 c hc) (hle _ (List.mem_flatten.2 ⟨x, hx, ?_⟩))
      rw [← Except.ok.inj hsx]
      exact List.mem_map.2 ⟨e', he', rfl⟩
    refine ⟨hmemv, ?_⟩
    rcases hatt with h0 | hin
    · obtain ⟨S', hS', f, hM, hf'⟩ := hspec s0 (by simp)
      obtain ⟨c, hc, _⟩ := (hf' e').2
      have := hmemv s0 (by simp) S' hS' c hc
      exact ⟨s0, by simp, S', hS', c, hc, by omega⟩
    · obtain ⟨x, hx, hpx⟩ := List.mem_flatten.1 hin
      obtain ⟨s, hs, hsx⟩ := hto x hx
      obtain ⟨S', hS', f, hM, hf'⟩ := hspec s hs
      rw [hM] at hsx
      rw [← Except.ok.inj hsx] at hpx
      obtain ⟨e2, _, heq2⟩ := List.mem_map.1 hpx
      obtain ⟨rfl, hge⟩ := Prod.mk.inj heq2
      obtain ⟨c, hc, hcf⟩ := (hf' e2).2
      exact ⟨s, hs, S', hS', c, hc, by rw [hcf, hge]⟩

/-- C127, negation: on a machine with one or two processors the call raises `ValueError`. -/
theorem C127_few_processors (cpus : ℤ) (hcpu : cpus ≤ 2) (frames : List (Struct ℝ)) (r : ℝ) (els : List ℕ)
    (sc : Fin 3 → ℤ) : collectionMaxElement cpus frames r els sc = .error .valueError := by
  unfold collectionMaxElement mpPool
  rw [if_pos (by omega)]
  rfl

end MaterSDK
