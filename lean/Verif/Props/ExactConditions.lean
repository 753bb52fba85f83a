import Verif.Props.Report
import Verif.Props.Dos
import Verif.Props.Collection

/-!
# Exact conditions for C66, C81 and C159
-/

set_option linter.unusedSectionVars false

namespace MaterSDK

/-! ## C66 -/

/-- The row that is looked at: the one with the number of the first row with the key, in the rows remembered. -/
theorem reportCount_cached (f : RunFiles) (key row : Str) (pre post : List Str)
    (h : f.report = pre ++ row :: post) (hk : key <:+: row) (hpre : ∀ r ∈ pre, ¬ key <:+: r) :
    (∀ crow n, f.cached[pre.length]? = some crow → LastCount crow n → reportCount f key = .ok (n : Int)) ∧
    (f.cached.length ≤ pre.length → reportCount f key = .error .indexError) := by
  have hsearch : pyGet (searchAim f.report key) 0 = .ok (pre.length + 1) := by
    rw [pyGet_eq_ok, searchAim_eq, h, aimFrom_append, aimFrom_none key 0 pre hpre, aimFrom_cons,
      if_pos ((strIn_iff _ _).2 hk)]
    simp
  constructor
  · rintro crow n hc ⟨ws, w, hs, hw⟩
    have hline : getline f.cached (pre.length + 1) = crow := by
      unfold getline
      rw [if_neg (by omega), Nat.add_sub_cancel, hc]
      rfl
    have hword : pyGetI (split crow) (-1) = .ok w := by
      rw [hs]
      unfold pyGetI
      simp only [show (-1 : Int) < 0 from by decide, if_true, List.length_append, List.length_singleton]
      rw [if_neg (by push_cast; omega)]
      have : ((-1 : Int) + ((ws.length + 1 : ℕ) : Int)).toNat = ws.length := by push_cast; omega
      rw [this, pyGet_eq_ok]
      simp
    unfold reportCount
    rw [hsearch, ok_bind, hline, hword, ok_bind]
    exact parseInt_count hw
  · intro hlen
    have hline : getline f.cached (pre.length + 1) = [] := by
      unfold getline
      rw [if_neg (by omega), Nat.add_sub_cancel, List.getElem?_eq_none hlen]
      rfl
    unfold reportCount
    rw [hsearch, ok_bind, hline]
    rfl

/-- C66 for every file that was read before: the counts are those of the remembered row with the same number as
the row of the new file, so that they are right exactly when that row states the same count, and an `IndexError`
when the old file was too short. -/
theorem C66_exact (f : RunFiles) (key row : Str) (n : ℕ) (pre post : List Str)
    (hkey : key = chars% "NUM_KPT" ∨ key = chars% "NUM_BAND")
    (h : f.report = pre ++ row :: post) (hk : key <:+: row) (hpre : ∀ r ∈ pre, ¬ key <:+: r)
    (_hn : LastCount row n) :
    let count := if key = chars% "NUM_KPT" then numKpts f else numBands f
    (∀ crow m, f.cached[pre.length]? = some crow → LastCount crow m →
      count = .ok (m : Int) ∧ (count = .ok (n : Int) ↔ m = n)) ∧
    (f.cached.length ≤ pre.length → count = .error .indexError) := by
  intro count
  have hcount : count = reportCount f key := by
    rcases hkey with rfl | rfl <;> rfl
  rw [hcount]
  obtain ⟨h1, h2⟩ := reportCount_cached f key row pre post h hk hpre
  refine ⟨fun crow m hc hm => ⟨h1 crow m hc hm, ?_⟩, h2⟩
  rw [h1 crow m hc hm, Except.ok.injEq]
  exact Int.ofNat_inj

example := C66_exact overwrittenRun (chars% "NUM_BAND") (chars% "NUM_BAND = 7\n") 7 [chars% "NUM_KPT = 1\n"]
  [chars% "eigen energies, in eV\n", chars% "1 2 3 4 5\n", chars% "6 7\n"] (Or.inr rfl) rfl
  ((strIn_iff _ _).1 (by decide +kernel))
  (by
    intro r hr
    rw [List.mem_singleton.1 hr, ← strIn_iff]
    decide +kernel)
  ⟨[chars% "NUM_BAND", chars% "="], chars% "7", by decide +kernel, by decide, by decide +kernel, by decide +kernel⟩

/-! ## C81 -/

/-- C81 for every job and each option by itself: an option that is not set leaves the directive with the value
`None`, and the script is the one of the job that has `None` for its partition, its name or its command. -/
theorem C81_each_option (j : Job) :
    (j.partition = none → chars% "#SBATCH --partition=None\n" <:+: jobText j) ∧
    (j.name = none → chars% "#SBATCH --job-name=None\n" <:+: jobText j) ∧
    (j.numNodes = none → chars% "#SBATCH --nodes=None\n" <:+: jobText j) ∧
    (j.numTasks = none → chars% "#SBATCH --ntasks-per-node=None\n" <:+: jobText j) ∧
    (j.threads = none → chars% "#SBATCH --threads-per-core=None" <:+: jobText j) ∧
    (j.numGpus = none → chars% "#SBATCH --gres=gpu:None" <:+: jobText j) ∧
    (j.gpusPerTask = none → chars% "#SBATCH --gpus-per-task=None" <:+: jobText j) ∧
    (j.command = none → chars% "\n\n\nNone" <:+ jobText j) ∧
    jobText
      { j with
        partition := some (j.partition.getD (chars% "None"))
        name := some (j.name.getD (chars% "None"))
        command := some (j.command.getD (chars% "None")) } = jobText j := by
  set L : List Str := [chars% "#!/bin/bash\n", chars% "#SBATCH --partition=" ++ showOpt id j.partition ++ ['\n'],
    chars% "#SBATCH --job-name=" ++ showOpt id j.name ++ ['\n'],
    chars% "#SBATCH --nodes=" ++ showOpt showInt j.numNodes ++ ['\n'],
    chars% "#SBATCH --ntasks-per-node=" ++ showOpt showInt j.numTasks ++ ['\n'],
    chars% "#SBATCH --threads-per-core=" ++ showOpt showInt j.threads,
    chars% "#SBATCH --gres=gpu:" ++ showOpt showInt j.numGpus,
    chars% "#SBATCH --gpus-per-task=" ++ showOpt showInt j.gpusPerTask,
    chars% "\n\n\n" ++ showOpt id j.command] with hL
  have e : jobText j = L.flatten := by
    simp only [jobText, hL, List.append_assoc, List.flatten_cons, List.flatten_nil]
    simp only [List.append_nil]
  have hmem : ∀ x ∈ L, x <:+: L.flatten := by
    intro x hx
    obtain ⟨l1, l2, h⟩ := List.append_of_mem hx
    exact ⟨l1.flatten, l2.flatten, by rw [h]; simp⟩
  have hopt : ∀ o : Option Str, showOpt id (some (o.getD (chars% "None"))) = showOpt id o := by
    intro o
    cases o <;> rfl
  refine ⟨?_, ?_, ?_, ?_, ?_, ?_, ?_, ?_, ?_⟩
  · intro h; rw [e]; exact hmem _ (by simp only [hL, h]; simp [showOpt])
  · intro h; rw [e]; exact hmem _ (by simp only [hL, h]; simp [showOpt])
  · intro h; rw [e]; exact hmem _ (by simp only [hL, h]; simp [showOpt])
  · intro h; rw [e]; exact hmem _ (by simp only [hL, h]; simp [showOpt])
  · intro h; rw [e]; exact hmem _ (by simp only [hL, h]; simp [showOpt])
  · intro h; rw [e]; exact hmem _ (by simp only [hL, h]; simp [showOpt])
  · intro h; rw [e]; exact hmem _ (by simp only [hL, h]; simp [showOpt])
  · intro h
    rw [e]
    have hlast : L = L.dropLast ++ [chars% "\n\n\nNone"] := by simp only [hL, h]; rfl
    exact ⟨(L.dropLast).flatten, by
      rw [← List.flatten_singleton (l := chars% "\n\n\nNone"), ← List.flatten_append, ← hlast]⟩
  · simp only [jobText, hopt]

example := (C81_each_option ⟨some (chars% "gpu"), none, some 1, none, some 2, none, some 4, none⟩).2.1 rfl

/-! ## C159 -/

/-- C159: the counts of a collection are right for a frame exactly when the frame has the same atoms as the first
one, in whatever order. -/
theorem C159_exact (fs : List StructV) (etot ep ek : List ℚ) (v : List (List ℚ)) (c : CollObj)
    (h : mkColl fs etot ep ek v = .ok c) (f : StructV) (f0 : StructV) (h0 : fs[0]? = some f0) :
    ((∀ z n, (z, n) ∈ c.an2na → (f.sites.map SiteObj.number).count z = n) ∧ c.numAtoms = f.sites.length) ↔
      (f.sites.map SiteObj.number).Perm (f0.sites.map SiteObj.number) := by
  obtain ⟨f0', h0', rfl⟩ := mkColl_ok h
  rw [h0] at h0'
  cases h0'
  have hc : ∀ z, (f0.sites.filter (fun t => t.number = z)).length = (f0.sites.map SiteObj.number).count z := by
    intro z
    rw [List.count_eq_length_filter, List.filter_map, List.length_map]
    rfl
  set l0 := f0.sites.map SiteObj.number with hl0
  set l := f.sites.map SiteObj.number with hl
  have hmem : ∀ z n, (z, n) ∈ (counterKeys l0).map (fun z => (z, (f0.sites.filter (fun t => t.number = z)).length)) ↔
      z ∈ l0 ∧ n = l0.count z := by
    intro z n
    simp only [List.mem_map, hc, Prod.mk.injEq, mem_counterKeys]
    constructor
    · rintro ⟨w, hw, rfl, rfl⟩; exact ⟨hw, rfl⟩
    · rintro ⟨hw, rfl⟩; exact ⟨z, hw, rfl, rfl⟩
  show ((∀ z n, (z, n) ∈ (counterKeys l0).map (fun z => (z, (f0.sites.filter (fun t => t.number = z)).length)) →
    l.count z = n) ∧ f0.sites.length = f.sites.length) ↔ _
  constructor
  · rintro ⟨h1, h2⟩
    have hcount : ∀ z ∈ l0, l.count z = l0.count z := fun z hz => h1 z _ ((hmem z _).2 ⟨hz, rfl⟩)
    have hsub : l0.Subperm l := by
      rw [List.subperm_ext_iff]
      intro x hx
      rw [hcount x hx]
    refine (hsub.perm_of_length_le ?_).symm
    rw [hl0, hl, List.length_map, List.length_map, h2]
  · intro hp
    refine ⟨?_, ?_⟩
    · intro z n hz
      rw [((hmem z n).1 hz).2, hp.count_eq]
    · have := hp.length_eq
      rw [hl0, hl, List.length_map, List.length_map] at this
      exact this.symm

example : ∃ c, mkColl [siO, oO] [0, 0] [0, 0] [0, 0] [[0], [0]] = .ok c := ⟨_, rfl⟩

end MaterSDK
