import Verif.Model.NormFile
import Verif.Lemmas.NormFile

/-! # C199: a normaliser survives being saved and loaded -/

namespace MaterSDK

/-- C199: which files can be loaded, and what comes out. A file is accepted if and only if it has the eight data
sets and both tables have one row per centre element; each part of the normaliser is the data set of its name. -/
theorem C199_loads_iff (f : NormFile) (hf : (f.map Prod.fst).Nodup) (disk : NormDisk) (path : Str)
    (hd : disk path = some f) (M : SavedNormalizer) :
    normalizerFromFile disk path = .ok M ↔
      (chars% "rcut", .real M.norm.rcut) ∈ f ∧ (chars% "rcut_smooth", .real M.norm.rs) ∈ f ∧
      (chars% "center_atomic_numbers", .numbers M.norm.centres) ∈ f ∧
      (chars% "nbr_atomic_numbers", .numbers M.norm.nbrs) ∈ f ∧
      (chars% "max_num_nbrs", .ints M.norm.widths) ∈ f ∧ (chars% "scaling_matrix", .ints M.scaling) ∈ f ∧
      (chars% "davgs", .table M.norm.davgs) ∈ f ∧ (chars% "dstds", .table M.norm.dstds) ∈ f ∧
      M.norm.davgs.length = M.norm.centres.length ∧ M.norm.dstds.length = M.norm.centres.length := by
  have hm : ∀ (a : ℝ) (b : ℝ) (c d : List ℕ) (w s : List ℤ) (x y : List (Fin 4 → ℝ)),
      (mkNormalizer a b c d w x y >>= fun n => (pure ⟨n, s⟩ : Except PyErr SavedNormalizer)) = .ok M ↔
        (x.length = c.length ∧ y.length = c.length) ∧ M = ⟨⟨a, b, c, d, w, x, y⟩, s⟩ := by
    intro a b c d w s x y
    unfold mkNormalizer
    split
    · rename_i h
      constructor
      · intro h'; cases h'
      · rintro ⟨⟨h1, h2⟩, -⟩
        exact absurd h (by simp [h1, h2])
    · rename_i h
      rw [not_or, not_not, not_not] at h
      exact ⟨fun h' => ⟨h, (Except.ok.inj h').symm⟩, fun h' => by rw [h'.2]; rfl⟩
  unfold normalizerFromFile
  rw [hd]
  simp only [bind_eq_ok, hm, getReal_ok f hf, getNumbers_ok f hf, getInts_ok f hf, getTable_ok f hf]
  constructor
  · rintro ⟨a, ha, b, hb, c, hc, d, hd, w, hw, s, hs, x, hx, y, hy, ⟨h1, h2⟩, rfl⟩
    exact ⟨ha, hb, hc, hd, hw, hs, hx, hy, h1, h2⟩
  · rintro ⟨ha, hb, hc, hd, hw, hs, hx, hy, h1, h2⟩
    exact ⟨_, ha, _, hb, _, hc, _, hd, _, hw, _, hs, _, hx, _, hy, ⟨h1, h2⟩, rfl⟩

/-- C199: a normaliser that the constructor accepted, once saved, is loaded from the same path exactly as it
was, so that it normalises every structure as before. Saving replaces what was at the path and leaves the
other files alone. -/
theorem C199_round_trip (rcut rs : ℝ) (centres nbrs : List ℕ) (widths scaling : List ℤ)
    (davgs dstds : List (Fin 4 → ℝ)) (n : Normalizer)
    (hn : mkNormalizer rcut rs centres nbrs widths davgs dstds = .ok n) (disk : NormDisk) (path : Str) :
    ∃ disk', SavedNormalizer.to ⟨n, scaling⟩ disk path = .ok disk' ∧
      normalizerFromFile disk' path = .ok ⟨n, scaling⟩ ∧ (∀ p, p ≠ path → disk' p = disk p) ∧
      ∀ M, normalizerFromFile disk' path = .ok M → M.scaling = scaling ∧
        ∀ table, M.norm.normalize table = n.normalize table := by
  have hwr : ∃ f, SavedNormalizer.dataSets ⟨n, scaling⟩ = .ok f ∧
      f = [(chars% "rcut", .real n.rcut), (chars% "rcut_smooth", .real n.rs),
        (chars% "center_atomic_numbers", .numbers n.centres), (chars% "nbr_atomic_numbers", .numbers n.nbrs),
        (chars% "max_num_nbrs", .ints n.widths), (chars% "scaling_matrix", .ints scaling),
        (chars% "davgs", .table n.davgs), (chars% "dstds", .table n.dstds)] := ⟨_, rfl, rfl⟩
  obtain ⟨f, hf, hfe⟩ := hwr
  have hld : normalizerFromFile (fun p => if p = path then some f else disk p) path = .ok ⟨n, scaling⟩ := by
    have hlen : n.davgs.length = n.centres.length ∧ n.dstds.length = n.centres.length := by
      unfold mkNormalizer at hn
      split at hn
      · cases hn
      · rename_i h
        rw [not_or, not_not, not_not] at h
        rw [← Except.ok.inj hn]
        exact h
    refine (C199_loads_iff f (by rw [hfe]; simp only [List.map_cons, List.map_nil]; decide) _ path (if_pos rfl) _).2 ?_
    rw [hfe]
    simp [hlen]
  refine ⟨_, by unfold SavedNormalizer.to; rw [hf]; rfl, hld, fun p hp => if_neg hp, ?_⟩
  intro M hM
  rw [hld] at hM
  have := Except.ok.inj hM
  subst this
  exact ⟨rfl, fun _ => rfl⟩

/-- C199: a path without a file raises `OSError`; a file of the right kind whose tables do not have one row per
centre element is refused by the constructor; and a data set that is missing, all those asked for earlier being
there, raises `KeyError`: here the first and the last. -/
theorem C199_rejects (disk : NormDisk) (path : Str) :
    (disk path = none → normalizerFromFile disk path = .error .osError) ∧
    (∀ f, disk path = some f → (∀ v, (chars% "rcut", v) ∉ f) →
      normalizerFromFile disk path = .error .keyError) ∧
    ∀ (f : NormFile) (a b : ℝ) (c d : List ℕ) (w s : List ℤ) (x : List (Fin 4 → ℝ)),
      (f.map Prod.fst).Nodup → disk path = some f →
      (chars% "rcut", .real a) ∈ f → (chars% "rcut_smooth", .real b) ∈ f →
      (chars% "center_atomic_numbers", .numbers c) ∈ f → (chars% "nbr_atomic_numbers", .numbers d) ∈ f →
      (chars% "max_num_nbrs", .ints w) ∈ f → (chars% "scaling_matrix", .ints s) ∈ f →
      (chars% "davgs", .table x) ∈ f →
      ((∀ v, (chars% "dstds", v) ∉ f) → normalizerFromFile disk path = .error .keyError) ∧
      ∀ y, (chars% "dstds", .table y) ∈ f → x.length ≠ c.length ∨ y.length ≠ c.length →
        normalizerFromFile disk path = .error .assertionError := by
  refine ⟨fun h => by unfold normalizerFromFile; rw [h], ?_, ?_⟩
  · intro f hd hn
    unfold normalizerFromFile NormFile.getReal
    rw [hd]
    show ((pyDictGet f (chars% "rcut") >>= _) >>= _) = _
    rw [(pyDictGet_err f _).2 hn]
    rfl
  · intro f a b c d w s x hf hd ha hb hc hd' hw hs hx
    have hpre : ∀ r, (f.getTable (chars% "dstds") >>= fun y => mkNormalizer a b c d w x y >>= fun n =>
        (pure ⟨n, s⟩ : Except PyErr SavedNormalizer)) = r → normalizerFromFile disk path = r := by
      intro r hr
      unfold normalizerFromFile
      rw [hd]
      show (f.getReal (chars% "rcut") >>= _) = _
      rw [(getReal_ok f hf _ _).2 ha, ok_bind, (getReal_ok f hf _ _).2 hb, ok_bind,
        (getNumbers_ok f hf _ _).2 hc, ok_bind, (getNumbers_ok f hf _ _).2 hd', ok_bind,
        (getInts_ok f hf _ _).2 hw, ok_bind, (getInts_ok f hf _ _).2 hs, ok_bind,
        (getTable_ok f hf _ _).2 hx, ok_bind]
      exact hr
    constructor
    · intro hn
      apply hpre
      unfold NormFile.getTable
      rw [(pyDictGet_err f _).2 hn]
      rfl
    · intro y hy hlen
      apply hpre
      rw [(getTable_ok f hf _ _).2 hy, ok_bind]
      unfold mkNormalizer
      rw [if_pos hlen]
      rfl

/-- Two centre elements: what is written to an occupied path is what is read back. -/
example : ∃ disk', SavedNormalizer.to ⟨⟨5, 4, [3, 14], [3, 14], [20, 30], [![1, 0, 0, 0], ![2, 0, 0, 0]],
      [![1, 1, 1, 1], ![2, 2, 2, 2]]⟩, [3, 3, 3]⟩
      (fun p => if p = chars% "old.h5" then some [] else none) (chars% "old.h5") = .ok disk' ∧
    normalizerFromFile disk' (chars% "old.h5") = .ok ⟨⟨5, 4, [3, 14], [3, 14], [20, 30],
      [![1, 0, 0, 0], ![2, 0, 0, 0]], [![1, 1, 1, 1], ![2, 2, 2, 2]]⟩, [3, 3, 3]⟩ := by
  obtain ⟨d, h1, h2, -⟩ := C199_round_trip 5 4 [3, 14] [3, 14] [20, 30] [3, 3, 3]
    [![1, 0, 0, 0], ![2, 0, 0, 0]] [![1, 1, 1, 1], ![2, 2, 2, 2]] _ rfl
    (fun p => if p = chars% "old.h5" then some [] else none) (chars% "old.h5")
  exact ⟨d, h1, h2⟩

end MaterSDK
