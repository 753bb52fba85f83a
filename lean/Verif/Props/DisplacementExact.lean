import Verif.Props.Displacement

/-! # C72, C73, C74, C76: exactly when the claims hold -/

namespace MaterSDK

open Classical

/-- The sum of the squared distances of corresponding atoms. -/
noncomputable def sqSum (f g : Struct ℝ) : ℝ :=
  (List.zipWith (fun t u : Site ℝ => dist3 u.pos t.pos ^ 2) f.sites g.sites).sum

/-- C73: when a value is the documented one. Value `k` is the displacement from the initial frame exactly when
the squared distances to the previous frame and to the initial frame have the same sum. -/
theorem C73_holds_iff (cpus : ℕ) (hc : 3 ≤ cpus) (frames : List (Struct ℝ)) (n : ℕ) (hn : 0 < n)
    (h : ∀ f ∈ frames, f.sites.length = n) :
    ∃ vals, calcMsd cpus frames = .ok vals ∧ vals.length = frames.length - 1 ∧
      ∀ (k : ℕ) (f₀ f g : Struct ℝ), frames[0]? = some f₀ → frames[k]? = some f → frames[k + 1]? = some g →
        (vals[k]? = some (some (sqSum f₀ g / n)) ↔ sqSum f g = sqSum f₀ g) := by
  obtain ⟨⟨vals, h1, h2, h3⟩, _⟩ := C56_values cpus hc frames n hn h
  refine ⟨vals, h1, h2, ?_⟩
  intro k f₀ f g _ hf hg
  have hn' : (n : ℝ) ≠ 0 := by positivity
  rw [h3 k f g hf hg, Option.some.injEq, Option.some.injEq, div_left_inj' hn']
  rfl

/-- C73: when all atoms drift by the same vector in every frame, every value is the squared length of that
vector; the documented value grows with the square of the frame, so only the first value is right. -/
theorem C73_drift (cpus : ℕ) (hc : 3 ≤ cpus) (L : Matrix (Fin 3) (Fin 3) ℝ) (sites : List (Site ℝ))
    (hne : sites ≠ []) (d : Vec ℝ) (N : ℕ) :
    ∃ vals, calcMsd cpus ((List.range N).map (fun k : ℕ => (⟨L, sites.map (fun t : Site ℝ =>
        ⟨t.z, t.pos + (k : ℝ) • d, t.mag⟩)⟩ : Struct ℝ))) = .ok vals ∧ vals.length = N - 1 ∧
      (∀ k, k + 1 < N → vals[k]? = some (some (norm3 d ^ 2))) ∧
      ∀ k, k + 1 < N → sqSum ⟨L, sites⟩ ⟨L, sites.map (fun t : Site ℝ => ⟨t.z, t.pos + ((k + 1 : ℕ) : ℝ) • d, t.mag⟩)⟩
        / sites.length = (k + 1) ^ 2 * norm3 d ^ 2 := by
  have hlen : 0 < sites.length := List.length_pos_of_ne_nil hne
  have hl' : (sites.length : ℝ) ≠ 0 := by positivity
  have key : ∀ (l : List (Site ℝ)) (a b : ℝ),
      (List.zipWith (fun t u : Site ℝ => dist3 u.pos t.pos ^ 2) (l.map (fun t : Site ℝ => ⟨t.z, t.pos + a • d, t.mag⟩))
        (l.map (fun t : Site ℝ => ⟨t.z, t.pos + b • d, t.mag⟩))).sum = l.length * ((b - a) ^ 2 * norm3 d ^ 2) := by
    intro l a b
    induction l with
    | nil => simp
    | cons t l ih =>
      rw [List.map_cons, List.map_cons, List.zipWith_cons_cons, List.sum_cons, ih, List.length_cons]
      have : dist3 (t.pos + b • d) (t.pos + a • d) ^ 2 = (b - a) ^ 2 * norm3 d ^ 2 := by
        rw [dist3_sq, norm3_sq]
        simp only [Pi.sub_apply, Pi.add_apply, Pi.smul_apply, smul_eq_mul]
        ring
      rw [this]
      push_cast
      ring
  obtain ⟨⟨vals, h1, h2, h3⟩, _⟩ := C56_values cpus hc ((List.range N).map (fun k : ℕ => (⟨L, sites.map
    (fun t : Site ℝ => ⟨t.z, t.pos + (k : ℝ) • d, t.mag⟩)⟩ : Struct ℝ))) sites.length hlen (by
      intro f hf
      obtain ⟨k, _, rfl⟩ := List.mem_map.1 hf
      simp)
  refine ⟨vals, h1, by simpa using h2, ?_, ?_⟩
  · intro k hk
    rw [h3 k _ _ (by rw [List.getElem?_map, List.getElem?_range (by omega)]; rfl)
      (by rw [List.getElem?_map, List.getElem?_range hk]; rfl)]
    simp only
    rw [key]
    congr 2
    push_cast
    field_simp
    ring
  · intro k _
    have := key sites 0 ((k + 1 : ℕ) : ℝ)
    simp only [zero_smul, add_zero] at this
    unfold sqSum
    simp only [List.map_id'] at this ⊢
    rw [this]
    push_cast
    field_simp
    ring

/-- C74: when storing one atom of the second frame at another image does not matter: exactly when that image is
as far from the position in the first frame as the old one. -/
theorem C74_one_atom_iff (cpus : ℕ) (hc : 3 ≤ cpus) (f g : Struct ℝ) (hlen : f.sites.length = g.sites.length)
    (i : ℕ) (t u : Site ℝ) (ht : f.sites[i]? = some t) (hu : g.sites[i]? = some u) (m : Fin 3 → ℤ) :
    calcMsd cpus [f, ⟨g.lattice, g.sites.set i ⟨u.z, u.pos + latticePoint g.lattice m, u.mag⟩⟩] = calcMsd cpus [f, g] ↔
      dist3 (u.pos + latticePoint g.lattice m) t.pos = dist3 u.pos t.pos := by
  have hne : g.sites ≠ [] := by
    intro h0
    rw [h0] at hu
    simp at hu
  have one : ∀ a b : Struct ℝ, consecutiveFrames [a, b] = [(a, b)] := fun _ _ => rfl
  have hval : ∀ g' : Struct ℝ, f.sites.length = g'.sites.length → g'.sites ≠ [] →
      calcMsd cpus [f, g'] = .ok [some (sqSum f g' / g'.sites.length)] := by
    intro g' h1 h2
    rw [calcMsd, poolMap_large hc, one]
    exact mapM_eq_ok.2 (List.Forall₂.cons (calcMsdS_same h1 h2) List.Forall₂.nil)
  have hset : ∀ (ts us : List (Site ℝ)) (i : ℕ) (t u u' : Site ℝ), ts[i]? = some t → us[i]? = some u →
      (List.zipWith (fun t u : Site ℝ => dist3 u.pos t.pos ^ 2) ts (us.set i u')).sum
        = (List.zipWith (fun t u : Site ℝ => dist3 u.pos t.pos ^ 2) ts us).sum
          + (dist3 u'.pos t.pos ^ 2 - dist3 u.pos t.pos ^ 2) := by
    intro ts
    induction ts with
    | nil => intro us i t u u' h; simp at h
    | cons a ts ih =>
      intro us i t u u' h h'
      cases us with
      | nil => simp at h'
      | cons b us =>
        cases i with
        | zero =>
          simp only [List.getElem?_cons_zero, Option.some.injEq] at h h'
          subst h h'
          rw [List.set_cons_zero, List.zipWith_cons_cons, List.zipWith_cons_cons, List.sum_cons, List.sum_cons]
          ring
        | succ i =>
          rw [List.getElem?_cons_succ] at h h'
          rw [List.set_cons_succ, List.zipWith_cons_cons, List.zipWith_cons_cons, List.sum_cons, List.sum_cons,
            ih us i t u u' h h']
          ring
  have hg : (g.sites.length : ℝ) ≠ 0 := by
    have := List.length_pos_of_ne_nil hne
    positivity
  rw [hval g hlen hne, hval ⟨g.lattice, g.sites.set i ⟨u.z, u.pos + latticePoint g.lattice m, u.mag⟩⟩
    (by simpa using hlen) (by simpa using hne)]
  rw [Except.ok.injEq, List.cons.injEq, Option.some.injEq]
  simp only [and_true, List.length_set]
  rw [div_left_inj' hg]
  unfold sqSum
  simp only
  rw [hset f.sites g.sites i t u _ ht hu]
  have h0 := dist3_nonneg (u.pos + latticePoint g.lattice m) t.pos
  have h1 := dist3_nonneg u.pos t.pos
  constructor
  · intro h
    have : dist3 (u.pos + latticePoint g.lattice m) t.pos ^ 2 = dist3 u.pos t.pos ^ 2 := by linarith
    exact (pow_left_inj₀ h0 h1 two_ne_zero).1 this
  · intro h
    rw [h]
    ring

/-- An atom in the middle between two images: half the edge of the cell away on both sides. -/
example : dist3 ((![1 / 2, 0, 0] : Vec ℝ) + latticePoint 1 ![-1, 0, 0]) 0 = dist3 (![1 / 2, 0, 0] : Vec ℝ) 0 := by
  have hl : latticePoint (1 : Matrix (Fin 3) (Fin 3) ℝ) ![-1, 0, 0] = ![-1, 0, 0] := by
    funext j
    fin_cases j <;> simp [latticePoint, Fin.sum_univ_three, Matrix.one_apply]
  rw [← pow_left_inj₀ (dist3_nonneg _ _) (dist3_nonneg _ _) two_ne_zero, dist3_sq, dist3_sq, hl]
  simp
  norm_num

theorem npSubRows_iff (a b : List (Vec ℝ)) :
    (∃ r, npSubRows a b = .ok r) ↔ a.length = b.length ∨ a.length = 1 ∨ b.length = 1 := by
  constructor
  · rintro ⟨r, hr⟩
    by_contra h
    rw [not_or, not_or] at h
    rw [npSubRows_error h.1 h.2.1 h.2.2] at hr
    cases hr
  · intro h
    by_cases hl : a.length = b.length
    · exact ⟨_, npSubRows_same hl⟩
    · rcases h with h | h | h
      · exact absurd h hl
      · obtain ⟨x, rfl⟩ := List.length_eq_one_iff.1 h
        exact ⟨_, by unfold npSubRows; rw [if_neg hl]⟩
      · obtain ⟨y, rfl⟩ := List.length_eq_one_iff.1 h
        unfold npSubRows
        rw [if_neg hl]
        match a with
        | [] => exact ⟨_, rfl⟩
        | [x] => exact absurd rfl hl
        | x :: x' :: a => exact ⟨_, rfl⟩

/-- C72: which trajectories are accepted: exactly those in which any two consecutive frames have equally many
atoms, or atoms both and one of them a single one. With centroids every frame of a pair needs atoms. -/
theorem C72_accepts_iff (cpus : ℕ) (hc : 3 ≤ cpus) (frames : List (Struct ℝ)) :
    ((∃ vals, calcMsd cpus frames = .ok vals) ↔ ∀ (k : ℕ) (f g : Struct ℝ), frames[k]? = some f →
      frames[k + 1]? = some g → f.sites.length = g.sites.length ∨
        (0 < f.sites.length ∧ 0 < g.sites.length ∧ (f.sites.length = 1 ∨ g.sites.length = 1))) ∧
    ((∃ vals, calcMsdSubCentroid cpus frames = .ok vals) ↔ ∀ (k : ℕ) (f g : Struct ℝ), frames[k]? = some f →
      frames[k + 1]? = some g → 0 < f.sites.length ∧ 0 < g.sites.length ∧
        (f.sites.length = g.sites.length ∨ f.sites.length = 1 ∨ g.sites.length = 1)) := by
  have hmap : ∀ F : Struct ℝ × Struct ℝ → Except PyErr (Option ℝ),
      (∃ vals, (consecutiveFrames frames).mapM F = .ok vals) ↔ ∀ (k : ℕ) (f g : Struct ℝ), frames[k]? = some f →
        frames[k + 1]? = some g → ∃ v, F (f, g) = .ok v := by
    intro F
    constructor
    · rintro ⟨vals, hv⟩ k f g hf hg
      obtain ⟨v, _, hv⟩ := forall₂_getElem?' (mapM_eq_ok.1 hv) k _ ((consecutiveFrames_get frames k (f, g)).2 ⟨hf, hg⟩)
      exact ⟨v, hv⟩
    · intro h
      have hall : ∀ p ∈ consecutiveFrames frames, ∃ v, F p = .ok v := by
        intro p hp
        obtain ⟨k, hk⟩ := List.mem_iff_getElem?.1 hp
        have := (consecutiveFrames_get frames k p).1 hk
        exact h k p.1 p.2 this.1 this.2
      choose! v hv using hall
      exact ⟨_, mapM_map_ok hv⟩
  have hlen0 : ∀ f : Struct ℝ, f.sites = [] ↔ f.sites.length = 0 := fun f => List.length_eq_zero_iff.symm
  constructor
  · rw [calcMsd, poolMap_large hc, hmap]
    have key : ∀ f g : Struct ℝ, (∃ v, calcMsdS f g = .ok v) ↔ f.sites.length = g.sites.length ∨
        (0 < f.sites.length ∧ 0 < g.sites.length ∧ (f.sites.length = 1 ∨ g.sites.length = 1)) := by
      intro f g
      unfold calcMsdS
      by_cases h : (f.sites = []) ≠ (g.sites = [])
      · rw [if_pos h]
        constructor
        · rintro ⟨v, hv⟩; cases hv
        · intro h'
          exfalso
          apply h
          rw [hlen0, hlen0]
          apply propext
          omega
      · rw [if_neg h]
        rw [not_ne_iff, hlen0, hlen0] at h
        have h' : f.sites.length = 0 ↔ g.sites.length = 0 := by rw [h]
        have hb : (∃ v, (npSubRows (g.sites.map Site.pos) (f.sites.map Site.pos) >>= fun rel =>
            (pure (meanSquare rel) : Except PyErr (Option ℝ))) = .ok v) ↔
            ∃ r, npSubRows (g.sites.map Site.pos) (f.sites.map Site.pos) = .ok r := by
          constructor
          · rintro ⟨v, hv⟩
            obtain ⟨r, hr, _⟩ := bind_eq_ok.1 hv
            exact ⟨r, hr⟩
          · rintro ⟨r, hr⟩
            exact ⟨_, by rw [hr]; rfl⟩
        rw [hb, npSubRows_iff, List.length_map, List.length_map]
        omega
    exact forall_congr' fun k => forall_congr' fun f => forall_congr' fun g => by rw [key f g]
  · rw [calcMsdSubCentroid, poolMap_large hc, hmap]
    have key : ∀ f g : Struct ℝ, (∃ v, calcMsdSubCentroidS f g = .ok v) ↔ 0 < f.sites.length ∧ 0 < g.sites.length ∧
        (f.sites.length = g.sites.length ∨ f.sites.length = 1 ∨ g.sites.length = 1) := by
      intro f g
      unfold calcMsdSubCentroidS subCentroid
      by_cases hg : g.sites = []
      · rw [if_pos hg]
        constructor
        · rintro ⟨v, hv⟩; cases hv
        · intro h
          rw [hg] at h
          simp at h
      · by_cases hf : f.sites = []
        · rw [if_pos hf, if_neg hg]
          constructor
          · rintro ⟨v, hv⟩; cases hv
          · intro h
            rw [hf] at h
            simp at h
        · rw [if_neg hg, if_neg hf, ok_bind, ok_bind]
          have hb : (∃ v, (npSubRows (g.sites.map (fun t => t.pos - g.getCentroid))
              (f.sites.map (fun t => t.pos - f.getCentroid)) >>= fun rel =>
              (pure (meanSquare rel) : Except PyErr (Option ℝ))) = .ok v) ↔
              ∃ r, npSubRows (g.sites.map (fun t => t.pos - g.getCentroid))
                (f.sites.map (fun t => t.pos - f.getCentroid)) = .ok r := by
            constructor
            · rintro ⟨v, hv⟩
              obtain ⟨r, hr, _⟩ := bind_eq_ok.1 hv
              exact ⟨r, hr⟩
            · rintro ⟨r, hr⟩
              exact ⟨_, by rw [hr]; rfl⟩
          rw [hb, npSubRows_iff, List.length_map, List.length_map]
          have := List.length_pos_of_ne_nil hf
          have := List.length_pos_of_ne_nil hg
          omega
    exact forall_congr' fun k => forall_congr' fun f => forall_congr' fun g => by rw [key f g]

/-- C76: which factors are accepted: exactly the positive ones that are all odd or all at most 2. -/
theorem C76_accepts_iff (s : Struct ℝ) (hne : s.sites ≠ []) (rcut : ℝ) (sc : Fin 3 → ℤ) :
    (∃ M, adjacentMatrix s rcut sc = .ok M) ↔ (∀ i, 0 < sc i) ∧ ((∀ i, Odd (sc i)) ∨ ∀ i, sc i ≤ 2) := by
  obtain ⟨r1, r2⟩ := C76_rejects_partial s hne rcut sc
  constructor
  · rintro ⟨M, hM⟩
    have hpos : ∀ i, 0 < sc i := by
      intro i
      by_contra h
      rw [r1 ⟨i, not_lt.1 h⟩] at hM
      cases hM
    refine ⟨hpos, ?_⟩
    by_contra h
    rw [not_or, not_forall, not_forall] at h
    obtain ⟨⟨i, hi⟩, ⟨j, hj⟩⟩ := h
    rw [r2 hpos ⟨i, Int.not_odd_iff_even.1 hi⟩ ⟨j, by omega⟩] at hM
    cases hM
  · rintro ⟨hpos, h⟩
    have hb : ∃ l, broadcastShifts sc = .ok l := by
      rcases h with h | h
      · choose m hm using h
        have hm0 : ∀ i, 0 ≤ m i := fun i => by have := hpos i; have := hm i; omega
        exact ⟨_, broadcastShifts_odd sc (fun i => (m i).toNat) (fun i => by
          rw [hm i, Int.toNat_of_nonneg (hm0 i)])⟩
      · have hl : (fracShifts sc).length = 1 := by
          have h0 : ∀ i, halfShift (sc i) = 0 := by
            intro i
            have := h i
            have := hpos i
            unfold halfShift
            omega
          rw [fracShifts_length, h0, h0, h0]
        obtain ⟨x, hx⟩ := List.length_eq_one_iff.1 hl
        unfold broadcastShifts
        simp only [hx]
        split
        · exact ⟨_, rfl⟩
        · exact ⟨_, rfl⟩
    obtain ⟨l, hl⟩ := hb
    rw [adjacentMatrix, if_neg, if_neg hne, hl]
    · exact ⟨_, rfl⟩
    · rw [not_not]
      intro i
      refine ⟨hpos i, ?_⟩
      have : (sc i : ℚ) ≠ 0 := by exact_mod_cast (hpos i).ne'
      exact div_ne_zero this (by norm_num)

/-- Factors 1 and 2 mixed are accepted, 2 and 3 mixed are not. -/
example : ((∀ i, 0 < (![1, 2, 1] : Fin 3 → ℤ) i) ∧ ∀ i, (![1, 2, 1] : Fin 3 → ℤ) i ≤ 2) ∧
    ¬ ((∀ i, Odd ((![2, 3, 3] : Fin 3 → ℤ) i)) ∨ ∀ i, (![2, 3, 3] : Fin 3 → ℤ) i ≤ 2) := by decide

end MaterSDK
