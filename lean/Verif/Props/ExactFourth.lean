import Verif.Props.DeepMD
import Verif.Props.MtpRadial
import Verif.Props.RbcRadial
import Verif.Props.FrameText
import Verif.Props.Displacement
import Verif.Props.FatOrbital

/-! # C25, C77, C98, C111, C144, C183: exactly when they hold -/

namespace MaterSDK

open Topology

/-! ## C25 -/

/-- C25, all positive distances: the weight is continuous at `r` exactly when `r` is not the cutoff, and it is
positive everywhere, in particular from the cutoff on. -/
theorem C25_exact (rcut rs : ℝ) (h0 : 0 < rcut) (h : rs < rcut) (r : ℝ) (hr : 0 < r) :
    (ContinuousAt (getS rcut rs) r ↔ r ≠ rcut) ∧ 0 < getS rcut rs r := by
  obtain ⟨h1, h2⟩ := C25_at_cutoff rcut rs h0 h
  refine ⟨⟨fun hc he => h2 (he ▸ hc), fun hne => ?_⟩, ?_⟩
  · rcases lt_or_gt_of_ne hne with hlt | hgt
    · exact ((C25_below_partial rcut rs h0 h).1).continuousAt (Ioo_mem_nhds hr hlt)
    · have hc : ContinuousAt (fun d : ℝ => 1 / d) r := by
        have : r ≠ 0 := hr.ne'
        fun_prop (disch := assumption)
      refine hc.congr ?_
      filter_upwards [Ioi_mem_nhds hgt] with d hd
      exact (h1 d (le_of_lt hd)).symm
  · rcases lt_or_ge r rcut with hlt | hge
    · rw [getS_eq h hlt]
      exact mul_pos (inv_pos.2 hr) (clampSwitch_pos (frac_lt_one h hlt))
    · rw [h1 r hge]
      exact one_div_pos.2 hr

example := C25_exact 6 5 (by norm_num) (by norm_num) (11 / 2) (by norm_num)

/-! ## C98 -/

/-- The value of the `k`-th radial function of `MtpQ` at distance `d`. -/
noncomputable def mtpQValue (size : ℕ) (rcut rs : ℝ) (k : ℕ) (d : ℝ) : ℝ :=
  (((mtpQ size rcut rs d)[k]?).map Prod.fst).getD 0

/-- C98, every radial function and every distance: the function is differentiable exactly away from
`rcut_smooth`, where it is not even continuous. -/
theorem C98_exact (size : ℕ) (rcut rs : ℝ) (h : rs < rcut) (k : ℕ) (hk : k < size) (d : ℝ) :
    (DifferentiableAt ℝ (mtpQValue size rcut rs k) d ↔ d ≠ rs) ∧
    (ContinuousAt (mtpQValue size rcut rs k) d ↔ d ≠ rs) := by
  obtain ⟨h1, h2, -⟩ := C98_violated_jump size rcut rs h k hk
  obtain ⟨-, -, f, f', hf⟩ := C98_mtpq_partial size rcut rs h
  have hv : mtpQValue size rcut rs k = f k := by
    funext x
    rw [mtpQValue, (hf x).1, List.getElem?_map, List.getElem?_range hk]
    rfl
  have hd : d ≠ rs → DifferentiableAt ℝ (mtpQValue size rcut rs k) d := fun hne => by
    rw [hv]
    exact ((hf d).2 hne k).differentiableAt
  have hc : ContinuousAt (mtpQValue size rcut rs k) d → d ≠ rs := by
    rintro hc rfl
    have t1 : Filter.Tendsto (mtpQValue size rcut d k) (𝓝[<] d) (𝓝 (mtpQValue size rcut d k d)) :=
      hc.tendsto.mono_left nhdsWithin_le_nhds
    have t2 : Filter.Tendsto (mtpQValue size rcut d k) (𝓝[<] d) (𝓝 0) := by
      refine tendsto_const_nhds.congr' ?_
      filter_upwards [self_mem_nhdsWithin] with x hx
      rw [mtpQValue, h1 x hx]
      rfl
    have e := tendsto_nhds_unique t1 t2
    rw [mtpQValue, h2] at e
    exact pow_ne_zero k (by norm_num) e
  exact ⟨⟨fun hh => hc hh.continuousAt, hd⟩, ⟨hc, fun hh => (hd hh).continuousAt⟩⟩

example := C98_exact 8 5 (1 / 2) (by norm_num) 3 (by norm_num) 1

/-! ## C144 -/

/-- C144, every degree and every distance: all values are between -1 and 1 exactly when the degree is 0 or
the distance is at least the inner cutoff. -/
theorem C144_bounded_iff (rcut rs : ℝ) (n : ℕ) (r : ℝ) (h : rs < rcut) :
    ∃ o : RbcShown, rbcNew rcut rs (n : ℤ) r = .ok o ∧
      ((∀ v ∈ o.rbVals, |v| ≤ 1) ↔ n = 0 ∨ rs ≤ r) := by
  refine ⟨_, rbcNew_ok h n r, ?_⟩
  constructor
  · intro hv
    by_contra hc
    push Not at hc
    obtain ⟨hn, hr⟩ := hc
    have hm := hv (rqVal rcut rs 1 r) (List.mem_map.2 ⟨1, by simp; omega, rfl⟩)
    have e1 : cSwitch rcut rs r = 1 := by
      unfold cSwitch
      simp [hr]
    have e2 : rqVal rcut rs 1 r = scaled rcut rs r := by
      unfold rqVal
      rw [e1]
      simp [chebAt]
    have e3 : scaled rcut rs r < -1 := by
      unfold scaled
      rw [div_lt_iff₀ (by linarith)]
      linarith
    rw [e2, abs_of_neg (by linarith)] at hm
    linarith
  · rintro (rfl | hr)
    · intro v hv
      obtain ⟨k, hk, rfl⟩ := List.mem_map.1 hv
      have hk0 : k = 0 := by simp at hk; omega
      subst hk0
      rcases le_or_gt rs r with hr | hr
      · exact (C144_bounded_partial rcut rs 0 r h hr _ (rbcNew_ok h 0 r)).2 _ hv
      · have e1 : cSwitch rcut rs r = 1 := by
          unfold cSwitch
          simp [hr]
        simp [rqVal, e1, chebAt]
    · exact (C144_bounded_partial rcut rs n r h hr _ (rbcNew_ok h n r)).2

example := C144_bounded_iff 6 5 3 (11 / 2) (by norm_num)

/-! ## C111 -/

/-- C111, exactly: whenever the energies can be read there is one per atom exactly when the text has that
many rows after the heading (a text ending inside the block gives fewer, silently). -/
theorem C111_one_per_atom_iff (text : Str) (a : ACStr) (ha : acStr text = .ok a) (es : List ℚ)
    (h : a.getEatoms = .ok es) (l : Nat)
    (hl : FirstRow (splitCh '\n' text) (chars% "ATOMIC-ENERGY, ") l) :
    es.length = min a.numAtoms ((splitCh '\n' text).length - (l + 1)) ∧
    (es.length = a.numAtoms ↔ a.numAtoms = 0 ∨ l + a.numAtoms < (splitCh '\n' text).length) := by
  obtain ⟨l', hl', hf⟩ := ((C111_atomic_energies_partial text a ha).1 es).1 h
  obtain rfl := firstRow_unique hl hl'
  have e : es.length = min a.numAtoms ((splitCh '\n' text).length - (l + 1)) := by
    rw [← hf.length_eq]
    unfold nextRows
    simp
  refine ⟨e, ?_⟩
  rw [e]
  omega

example : ∃ (a : ACStr) (es : List ℚ), acStr textEnergies = .ok a ∧ a.getEatoms = .ok es ∧
    FirstRow (splitCh '\n' textEnergies) (chars% "ATOMIC-ENERGY, ") 4 ∧ a.numAtoms = 2 ∧ es.length = 2 :=
  ⟨_, _, rfl, by rfl, pyGet_listLocate_zero.1 (by decide +kernel), by decide +kernel, by decide +kernel⟩

/-! ## C77 -/

/-- C77, every pair of indices and every list of frames: the distances come out exactly when both indices
name an atom of every frame (counting from the end if negative); every other call raises `IndexError`. -/
theorem C77_accepts_iff (frames : List (Struct ℝ)) (i j : ℤ) :
    ((∃ vals, framesPairBond frames i j = .ok vals) ↔
      ∀ f ∈ frames, (-(f.sites.length : ℤ) ≤ i ∧ i < f.sites.length) ∧
        (-(f.sites.length : ℤ) ≤ j ∧ j < f.sites.length)) ∧
    ∀ e, framesPairBond frames i j = .error e → e = .indexError := by
  have key : ∀ (f : Struct ℝ) (k : ℤ), (∃ p, pyGetI (f.sites.map Site.pos) k = .ok p ∧
        (-(f.sites.length : ℤ) ≤ k ∧ k < f.sites.length)) ∨
      (pyGetI (f.sites.map Site.pos) k = .error .indexError ∧
        ¬ (-(f.sites.length : ℤ) ≤ k ∧ k < f.sites.length)) := by
    intro f k
    unfold pyGetI
    simp only [List.length_map]
    by_cases h0 : k < 0
    · simp only [if_pos h0]
      by_cases h1 : k + (f.sites.length : ℤ) < 0
      · right
        rw [if_pos h1]
        exact ⟨rfl, by omega⟩
      · left
        rw [if_neg h1]
        have hlt : (k + (f.sites.length : ℤ)).toNat < (f.sites.map Site.pos).length := by simp; omega
        refine ⟨(f.sites.map Site.pos)[(k + (f.sites.length : ℤ)).toNat], ?_, by omega⟩
        rw [pyGet, List.getElem?_eq_getElem hlt]
    · simp only [if_neg h0]
      by_cases h1 : k < f.sites.length
      · left
        have hlt : k.toNat < (f.sites.map Site.pos).length := by simp; omega
        refine ⟨(f.sites.map Site.pos)[k.toNat], ?_, by omega⟩
        rw [pyGet, List.getElem?_eq_getElem hlt]
      · right
        refine ⟨?_, by omega⟩
        rw [pyGet, List.getElem?_eq_none (by simp; omega)]
  have step : ∀ f : Struct ℝ, ((∃ d, (do
      let p ← pyGetI (f.sites.map Site.pos) i
      let q ← pyGetI (f.sites.map Site.pos) j
      return norm3 (q - p) : Except PyErr ℝ) = .ok d) ∧ (-(f.sites.length : ℤ) ≤ i ∧ i < f.sites.length) ∧
        (-(f.sites.length : ℤ) ≤ j ∧ j < f.sites.length)) ∨ ((do
      let p ← pyGetI (f.sites.map Site.pos) i
      let q ← pyGetI (f.sites.map Site.pos) j
      return norm3 (q - p) : Except PyErr ℝ) = .error .indexError ∧
        ¬ ((-(f.sites.length : ℤ) ≤ i ∧ i < f.sites.length) ∧
        (-(f.sites.length : ℤ) ≤ j ∧ j < f.sites.length))) := by
    intro f
    rcases key f i with ⟨p, hp, hi⟩ | ⟨hp, hi⟩
    · rcases key f j with ⟨q, hq, hj⟩ | ⟨hq, hj⟩
      · left
        refine ⟨⟨norm3 (q - p), ?_⟩, hi, hj⟩
        rw [hp, ok_bind, hq, ok_bind]
        rfl
      · right
        refine ⟨?_, fun hh => hj hh.2⟩
        rw [hp, ok_bind, hq, error_bind]
    · right
      refine ⟨?_, fun hh => hi hh.1⟩
      rw [hp, error_bind]
  unfold framesPairBond
  induction frames with
  | nil => exact ⟨⟨fun _ f hf => by simp at hf, fun _ => ⟨[], rfl⟩⟩, fun e he => by cases he⟩
  | cons f fs ih =>
    rw [List.mapM_cons]
    rcases step f with ⟨⟨d, hd⟩, hb⟩ | ⟨hd, hb⟩
    · rw [hd, ok_bind]
      obtain ⟨ih1, ih2⟩ := ih
      constructor
      · rw [List.forall_mem_cons, ← ih1]
        constructor
        · rintro ⟨vals, hv⟩
          obtain ⟨ws, hw, -⟩ := (bind_eq_ok).1 hv
          exact ⟨hb, ws, hw⟩
        · rintro ⟨-, ws, hw⟩
          exact ⟨d :: ws, by rw [hw]; rfl⟩
      · intro e he
        refine ih2 e ?_
        revert he
        cases (fs.mapM _ : Except PyErr (List ℝ)) with
        | ok ws => intro he; cases he
        | error e' => intro he; rw [error_bind] at he; exact he
    · rw [hd, error_bind]
      refine ⟨⟨fun hv => ?_, fun hh => absurd (hh f (by simp)) hb⟩, fun e he => ?_⟩
      · obtain ⟨v, hv⟩ := hv
        cases hv
      · cases he
        rfl

example : ∃ vals, framesPairBond [⟨1, [⟨1, ![9 / 10, 0, 0], none⟩, ⟨1, ![1 / 10, 0, 0], none⟩]⟩] (-1) 0
    = .ok vals :=
  (C77_accepts_iff _ _ _).1.2 (by simp)

/-! ## C183 -/

/-- The name of the column contains the given name, or `KPOINT`, `ENERGY` or `weight_tot`, whatever the case
of the letters. -/
def orbitalWanted (o c : Str) : Prop :=
  ∃ n ∈ [o, chars% "KPOINT", chars% "ENERGY", chars% "weight_tot"],
    n.map Char.toLower <:+: c.map Char.toLower

instance (o c : Str) : Decidable (orbitalWanted o c) :=
  inferInstanceAs (Decidable (∃ n ∈ _, _))

theorem orbitalMask_wanted (o c : Str) : orbitalMask o c = decide (orbitalWanted o c) := by
  rw [Bool.eq_iff_iff, orbitalMask_iff, decide_eq_true_iff]
  unfold orbitalWanted
  have e1 : (chars% "KPOINT").map Char.toLower = chars% "kpoint" := by decide
  have e2 : (chars% "ENERGY").map Char.toLower = chars% "energy" := by decide
  have e3 : (chars% "weight_tot").map Char.toLower = chars% "weight_tot" := by decide
  simp only [List.mem_cons, List.not_mem_nil, or_false, exists_eq_or_imp, exists_eq_left, e1, e2, e3]

/-- C183, every orbital name: each table holds, in the order of the file, exactly the columns whose name
contains the given name, `kpoint`, `energy` or `weight_tot`, whatever the case of the letters, and the numbers
of those columns. So only the four columns asked for come out exactly when no other column is so named. -/
theorem C183_exact (O : SetOrder) (hdr : Str) (rest : List Str) (bands : List BandText) (nk : ℕ)
    (o : Str) (hh : strIn (chars% "BAND") (upper hdr) = false)
    (hcols : split hdr = [chars% "KPOINT", chars% "ENERGY", chars% "weight_tot"] ++ rest)
    (hnd : (split hdr).Nodup) (hnb : 2 ≤ bands.length)
    (h : ∀ b ∈ bands, b.Wellformed (split hdr).length nk) :
    ∃ dfs : List Frame, fatOrbitalDfs O (fatText hdr bands) o = .ok dfs ∧
      dfs = bands.map (fun b => ⟨(split hdr).filter (fun c => orbitalWanted o c),
        (b.vals.map (scaleK (split hdr))).map (cellsOf (orbitalWanted o) (split hdr))⟩) ∧
      ((∀ f ∈ dfs, ∀ c ∈ f.cols, c ∈ [chars% "KPOINT", chars% "ENERGY", chars% "weight_tot"] ∨ sameName c o) ↔
        ∀ c ∈ rest, orbitalWanted o c → sameName c o) := by
  have hmask : orbitalMask o = fun c => decide (orbitalWanted o c) := funext (orbitalMask_wanted o)
  refine ⟨_, fatOrbital_text O hdr rest bands nk o hh hcols hnd hnb h, ?_, ?_⟩
  · rw [hmask]
    rfl
  · have hd : ∀ c ∈ rest, c ∉ [chars% "KPOINT", chars% "ENERGY", chars% "weight_tot"] := by
      rw [hcols, List.nodup_append] at hnd
      intro c hc h3
      exact hnd.2.2 c h3 c hc rfl
    constructor
    · intro hf c hc hw
      obtain ⟨b, hb⟩ := List.exists_mem_of_ne_nil bands (by rintro rfl; simp at hnb)
      rcases hf _ (List.mem_map.2 ⟨b, hb, rfl⟩) c
        (List.mem_filter.2 ⟨by rw [hcols]; simp [hc], by rw [orbitalMask_wanted]; simpa using hw⟩) with h3 | h3
      · exact absurd h3 (hd c hc)
      · exact h3
    · intro hf f hfm c hc
      obtain ⟨b, -, rfl⟩ := List.mem_map.1 hfm
      obtain ⟨h1, h2⟩ := List.mem_filter.1 hc
      rw [orbitalMask_wanted, decide_eq_true_iff] at h2
      rw [hcols] at h1
      rcases List.mem_append.1 h1 with h3 | h3
      · exact Or.inl h3
      · exact Or.inr (hf c h3 h2)

example (O : SetOrder) := by
  obtain ⟨h1, h2, h3, h4, h5⟩ := fatExample_ok
  exact C183_exact O _ _ _ 1 (chars% "S-4Py") h1 h2 h3 h4 h5
example : orbitalWanted (chars% "S-4Py") (chars% "As-4Py") ∧ ¬ sameName (chars% "As-4Py") (chars% "S-4Py") := by
  decide +kernel

end MaterSDK
