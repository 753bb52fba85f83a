import Verif.Lemmas.DeepMDMove
import Verif.Model.Averages
import Verif.Spec.Averages
import Mathlib.Tactic.Ring
import Mathlib.Tactic.Linarith
import Mathlib.Tactic.FieldSimp
import Mathlib.Tactic.Positivity

/-! # Lemmas on averages over neighbours -/

namespace MaterSDK

open Classical Matrix

/-! ## Sums over table rows -/

theorem effectiveRow_sum (f : ℝ → ℝ) (hf : f 0 = 0) (z1 z2 : ℕ) (row : List NbrEntry) :
    ((effectiveRow z1 z2 row).map f).sum
      = if centreIs z1 row then ((pairEntries row z2).map (fun e => f e.2.1)).sum else 0 := by
  match row with
  | [] => simp [effectiveRow, centreIs]
  | c :: rest =>
    simp only [effectiveRow, pairEntries, centreIs, List.map_cons, hf, List.sum_cons, zero_add,
      List.head?_cons, Option.map_some, Option.some.injEq, decide_eq_true_eq, List.map_map]
    by_cases hc : c.1 = z1
    · simp only [hc, true_and, if_true]
      induction rest with
      | nil => rfl
      | cons e rest ih =>
        by_cases he : e.1 = z2
        · simp [he, ih]
        · simp [he, ih, hf]
    · simp only [hc, false_and, if_false]
      induction rest with
      | nil => rfl
      | cons e rest ih => simpa [hf] using ih

theorem table_sum (f : ℝ → ℝ) (hf : f 0 = 0) (z1 z2 : ℕ) (table : List (List NbrEntry)) (w : ℕ) :
    ((table.flatMap (effectiveRow z1 z2)).map f).sum
      = (((table.filter (centreIs z1)).map (fun r => pairEntries r z2 ++
          List.replicate (w - (pairEntries r z2).length) zeroEntry)).map
          (fun r => (r.map (fun e => f e.2.1)).sum)).sum := by
  induction table with
  | nil => rfl
  | cons row table ih =>
    rw [List.flatMap_cons, List.map_append, List.sum_append, ih, effectiveRow_sum f hf]
    by_cases hc : centreIs z1 row = true
    · simp [hc, zeroEntry, hf]
    · simp [hc]

theorem countP_eq_sum {α : Type} (p : α → Bool) (l : List α) :
    ((l.countP p : ℕ) : ℝ) = (l.map (fun a => if p a then (1 : ℝ) else 0)).sum := by
  induction l with
  | nil => simp
  | cons a l ih =>
    rw [List.countP_cons, List.map_cons, List.sum_cons, ← ih]
    split <;> push_cast <;> ring

theorem sum_forall₂ {α β : Type} {R : α → β → Prop} (f : α → ℝ) (g : β → ℝ) {as : List α}
    {bs : List β} (h : List.Forall₂ R as bs) (hR : ∀ a b, R a b → g b = f a) :
    (bs.map g).sum = (as.map f).sum := by
  induction h with
  | nil => rfl
  | cons h _ ih => rw [List.map_cons, List.map_cons, List.sum_cons, List.sum_cons, ih, hR _ _ h]

theorem sum_flatMap {α β : Type} (f : β → ℝ) (g : α → List β) (l : List α) :
    ((l.flatMap g).map f).sum = (l.map (fun a => ((g a).map f).sum)).sum := by
  induction l with
  | nil => rfl
  | cons a l ih => rw [List.flatMap_cons, List.map_append, List.sum_append, ih, List.map_cons,
      List.sum_cons]

theorem reformat_filter_perm (s : Struct ℝ) (z : ℕ) :
    (s.reformat_.sites.filter (fun c => c.z = z)).Perm (s.sites.filter (fun c => c.z = z)) :=
  (sortByKey_perm _ _).filter _

/-- The sum of any function of the masked distances is the sum over the bonds. -/
theorem avgBond_sum (A : ArgSort) (s S : Struct ℝ) (hL : s.lattice.det ≠ 0) (hsep : Separated s)
    (hne : s.sites ≠ []) (r : ℝ) (hr : 0 ≤ r) (sc : Fin 3 → ℤ) (m : Fin 3 → ℕ)
    (h : ∀ i, sc i = 2 * (m i : ℤ) + 1) (hS : s.makeSupercell sc true = .ok S) (z1 z2 : ℕ)
    (hz : 0 < z2) :
    ∃ table, neighborTable A s r sc = .ok table ∧ ¬ (table.isEmpty ∨ table.any List.isEmpty) ∧
      ∀ f : ℝ → ℝ, f 0 = 0 → ((table.flatMap (effectiveRow z1 z2)).map f).sum
        = ((bondLengths s S r z1 z2).map f).sum := by
  obtain ⟨table, w, rows, h1, h2, _, _, h5⟩ := pair_sites A s S hL hsep hne r hr sc m h hS z1 z2 hz
  refine ⟨table, h1, ?_, ?_⟩
  · intro hbad
    rw [extractFeaturePair, if_pos hbad] at h2
    cases h2
  · intro f hf
    unfold extractFeaturePair at h2
    split at h2
    · cases h2
    · have h2' := Except.ok.inj h2
      simp only [Prod.mk.injEq] at h2'
      obtain ⟨hw, hrows⟩ := h2'
      rw [table_sum f hf z1 z2 table w, ← hw] at *
      rw [hrows]
      rw [sum_forall₂ (fun c : Site ℝ => ((nbrsOf S c.pos r z2).map (fun t => f (dist3 t.pos c.pos))).sum)
        (fun row : List NbrEntry => (row.map (fun e => f e.2.1)).sum) h5 ?_]
      · rw [((reformat_filter_perm s z1).map _).sum_eq, bondLengths, sum_flatMap]
        simp only [List.map_map, Function.comp_def]
      · rintro c row ⟨ts, e1, _, _, rfl⟩
        simp only [List.map_append, List.map_map, List.map_replicate, hf, List.sum_append,
          List.sum_replicate, smul_zero, add_zero]
        exact (e1.map _).sum_eq

/-! ## Angles -/

theorem norm3_sq (u : Vec ℝ) : norm3 u ^ 2 = u 0 ^ 2 + u 1 ^ 2 + u 2 ^ 2 :=
  Real.sq_sqrt (by positivity)

theorem norm3_nonneg (u : Vec ℝ) : 0 ≤ norm3 u := Real.sqrt_nonneg _

theorem norm3_pos {u : Vec ℝ} (h : u ≠ 0) : 0 < norm3 u := by
  have := norm3_eq_dist3 u 0
  rw [sub_zero] at this
  rw [this]
  exact dist3_pos.2 h

theorem dot_sq_le (u v : Vec ℝ) : (u ⬝ᵥ v) ^ 2 ≤ (norm3 u * norm3 v) ^ 2 := by
  rw [mul_pow, norm3_sq, norm3_sq]
  simp only [dotProduct, Fin.sum_univ_three]
  nlinarith [sq_nonneg (u 0 * v 1 - u 1 * v 0), sq_nonneg (u 0 * v 2 - u 2 * v 0),
    sq_nonneg (u 1 * v 2 - u 2 * v 1)]

theorem cos_range {u v : Vec ℝ} (hu : u ≠ 0) (hv : v ≠ 0) :
    -1 ≤ (u ⬝ᵥ v) / (norm3 u * norm3 v) ∧ (u ⬝ᵥ v) / (norm3 u * norm3 v) ≤ 1 := by
  have hp : 0 < norm3 u * norm3 v := mul_pos (norm3_pos hu) (norm3_pos hv)
  have h := abs_le_of_sq_le_sq (dot_sq_le u v) hp.le
  rw [← abs_le, abs_div, abs_of_pos hp, div_le_one hp]
  exact h

theorem degrees_nonneg {x : ℝ} (h : 0 ≤ x) : 0 ≤ degrees x :=
  mul_nonneg h (by positivity)

theorem deg2rad_degrees (x : ℝ) : deg2rad (degrees x) = x := by
  unfold deg2rad degrees
  have := Real.pi_ne_zero
  field_simp

theorem angleEntry_eq (u v : Vec ℝ) : angleEntry u v = angleEntry' u v := by
  unfold angleEntry angleEntry'
  split
  · rw [if_pos]
    exact degrees_nonneg (Real.arccos_nonneg _)
  · rfl

theorem cosAt_eq (c p q : Vec ℝ) :
    cosAt c p q = ((p - c) ⬝ᵥ (q - c)) / (norm3 (p - c) * norm3 (q - c)) := by
  rw [norm3_eq_dist3, norm3_eq_dist3]
  rfl

theorem angleAt_eq (c p q : Vec ℝ) : degrees (angleRad (p - c) (q - c)) = angleAt c p q := by
  rw [angleAt, cosAt_eq]
  rfl

theorem cosAt_comm (c p q : Vec ℝ) : cosAt c p q = cosAt c q p := by
  unfold cosAt
  rw [mul_comm (dist3 p c)]
  congr 1
  exact Finset.sum_congr rfl (fun i _ => mul_comm _ _)

theorem angleAt_comm (c p q : Vec ℝ) : angleAt c p q = angleAt c q p := by
  rw [angleAt, angleAt, cosAt_comm]

theorem cos_angleAt {c p q : Vec ℝ} (hp : p ≠ c) (hq : q ≠ c) :
    Real.cos (deg2rad (angleAt c p q)) = cosAt c p q := by
  rw [← angleAt_eq, deg2rad_degrees, cosAt_eq, angleRad]
  obtain ⟨h1, h2⟩ := cos_range (sub_ne_zero.2 hp) (sub_ne_zero.2 hq)
  exact Real.cos_arccos h1 h2

theorem cosAt_self {c p : Vec ℝ} (hp : p ≠ c) : cosAt c p p = 1 := by
  have h := norm3_pos (sub_ne_zero.2 hp)
  rw [cosAt_eq, div_eq_one_iff_eq (mul_pos h h).ne', ← sq, norm3_sq]
  simp only [dotProduct, Fin.sum_univ_three]
  ring

theorem angleAt_self {c p : Vec ℝ} (hp : p ≠ c) : angleAt c p p = 0 := by
  rw [angleAt, cosAt_self hp, Real.arccos_one, zero_mul]

theorem angleEntry_zero_right (u : Vec ℝ) : angleEntry u 0 = [] := by simp [angleEntry]

theorem angleEntry_zero_left (v : Vec ℝ) : angleEntry 0 v = [] := by simp [angleEntry]

theorem angleEntry_ne {c p q : Vec ℝ} (hp : p ≠ c) (hq : q ≠ c) :
    angleEntry (p - c) (q - c) = [angleAt c p q] := by
  rw [angleEntry_eq, angleEntry', if_pos ⟨sub_ne_zero.2 hp, sub_ne_zero.2 hq⟩, angleAt_eq]

theorem anglesSame_zeros (k : ℕ) : anglesSame (List.replicate k 0) = [] := by
  induction k with
  | zero => rfl
  | succ k ih =>
    rw [List.replicate_succ, anglesSame, ih, List.append_nil, List.flatMap_eq_nil_iff]
    intro v _
    exact angleEntry_zero_left v

theorem sum_flatMap_pad (F : ℝ → ℝ) (c : Vec ℝ) (p : Vec ℝ) (hp : p ≠ c) (ps : List (Vec ℝ))
    (hps : ∀ q ∈ ps, q ≠ c) (k : ℕ) :
    (((ps.map (· - c) ++ List.replicate k 0).flatMap (angleEntry (p - c))).map F).sum
      = (ps.map (fun q => F (angleAt c p q))).sum := by
  rw [List.flatMap_append, List.map_append, List.sum_append]
  have h0 : (List.replicate k (0 : Vec ℝ)).flatMap (angleEntry (p - c)) = [] := by
    rw [List.flatMap_eq_nil_iff]
    intro v hv
    rw [List.eq_of_mem_replicate hv, angleEntry_zero_right]
  rw [h0, List.map_nil, List.sum_nil, add_zero]
  induction ps with
  | nil => rfl
  | cons q ps ih =>
    rw [List.map_cons, List.flatMap_cons, List.map_append, List.sum_append, List.map_cons,
      List.sum_cons, ih (fun x hx => hps x (List.mem_cons_of_mem _ hx)),
      angleEntry_ne hp (hps q List.mem_cons_self)]
    simp

theorem anglesSame_sum (F : ℝ → ℝ) (c : Vec ℝ) (ps : List (Vec ℝ)) (hps : ∀ q ∈ ps, q ≠ c) (k : ℕ) :
    ((anglesSame (ps.map (· - c) ++ List.replicate k 0)).map F).sum
      = ((distinctPairs ps).map (fun x => F (angleAt c x.1 x.2))).sum + ps.length * F 0 := by
  induction ps with
  | nil => simp [anglesSame_zeros, distinctPairs]
  | cons p ps ih =>
    have hp := hps p List.mem_cons_self
    have hps' : ∀ q ∈ ps, q ≠ c := fun x hx => hps x (List.mem_cons_of_mem _ hx)
    rw [List.map_cons, List.cons_append, anglesSame, List.map_append, List.sum_append, ih hps',
      List.flatMap_cons, List.map_append, List.sum_append, sum_flatMap_pad F c p hp ps hps' k,
      angleEntry_ne hp hp, angleAt_self hp, distinctPairs, List.map_append, List.sum_append,
      List.map_map, List.length_cons]
    simp only [Function.comp_def, List.map_cons, List.map_nil, List.sum_cons, List.sum_nil]
    push_cast
    ring

theorem anglesOther_sum (F : ℝ → ℝ) (c : Vec ℝ) (ps qs : List (Vec ℝ)) (hps : ∀ q ∈ ps, q ≠ c)
    (hqs : ∀ q ∈ qs, q ≠ c) (k l : ℕ) :
    ((anglesOther (ps.map (· - c) ++ List.replicate k 0) (qs.map (· - c) ++ List.replicate l 0)).map
      F).sum = (ps.map (fun p => (qs.map (fun q => F (angleAt c p q))).sum)).sum := by
  unfold anglesOther
  have hent : ∀ u, angleEntry' u = angleEntry u := fun u => funext fun v => (angleEntry_eq u v).symm
  simp only [hent]
  rw [List.flatMap_append, List.map_append, List.sum_append]
  have h0 : (List.replicate k (0 : Vec ℝ)).flatMap (fun u =>
      (qs.map (· - c) ++ List.replicate l 0).flatMap (angleEntry u)) = [] := by
    rw [List.flatMap_eq_nil_iff]
    intro v hv
    rw [List.eq_of_mem_replicate hv, List.flatMap_eq_nil_iff]
    intro x _
    exact angleEntry_zero_left x
  rw [h0, List.map_nil, List.sum_nil, add_zero, sum_flatMap, List.map_map]
  congr 1
  refine List.map_congr_left (fun p hp => ?_)
  exact sum_flatMap_pad F c p (hps p hp) qs hqs l

theorem distinctPairs_mem {α : Type} {x : α × α} {l : List α} (h : x ∈ distinctPairs l) :
    x.1 ∈ l ∧ x.2 ∈ l := by
  induction l with
  | nil => simp [distinctPairs] at h
  | cons a l ih =>
    rw [distinctPairs, List.mem_append, List.mem_map] at h
    rcases h with ⟨b, hb, rfl⟩ | h
    · exact ⟨List.mem_cons_self, List.mem_cons_of_mem _ hb⟩
    · exact ⟨List.mem_cons_of_mem _ (ih h).1, List.mem_cons_of_mem _ (ih h).2⟩

theorem distinctPairs_map {α β : Type} (f : α → β) (l : List α) :
    distinctPairs (l.map f) = (distinctPairs l).map (fun x => (f x.1, f x.2)) := by
  induction l with
  | nil => rfl
  | cons a l ih =>
    rw [List.map_cons, distinctPairs, ih, distinctPairs, List.map_append, List.map_map, List.map_map]
    rfl

theorem distinctPairs_length {α : Type} (l : List α) :
    2 * (distinctPairs l).length = l.length * (l.length - 1) := by
  induction l with
  | nil => rfl
  | cons a l ih =>
    rw [distinctPairs, List.length_append, List.length_map, Nat.mul_add, ih, List.length_cons]
    cases l.length with
    | zero => rfl
    | succ n => simp only [Nat.add_sub_cancel]; ring

theorem distinctPairs_perm {α : Type} (g : α → α → ℝ) (hg : ∀ a b, g a b = g b a) {l l' : List α}
    (h : l.Perm l') :
    ((distinctPairs l).map (fun x => g x.1 x.2)).sum
      = ((distinctPairs l').map (fun x => g x.1 x.2)).sum := by
  induction h with
  | nil => rfl
  | cons a h ih =>
    simp only [distinctPairs, List.map_append, List.sum_append, List.map_map, Function.comp_def, ih]
    rw [(h.map _).sum_eq]
  | swap a b l =>
    simp only [distinctPairs, List.map_append, List.sum_append, List.map_map, Function.comp_def,
      List.map_cons, List.sum_cons, hg a b]
    ring
  | trans _ _ ih1 ih2 => rw [ih1, ih2]

theorem nbrsOf_ne {S : Struct ℝ} {c : Vec ℝ} {r : ℝ} {e : ℕ} {t : Site ℝ} (h : t ∈ nbrsOf S c r e) :
    t.pos ≠ c := by
  have := (List.mem_filter.1 h).2
  simp only [decide_eq_true_eq] at this
  exact dist3_pos.1 this.2.1

theorem flatten_zipWith_sum {R2 R3 : Site ℝ → List NbrEntry → Prop} (F : ℝ → ℝ)
    (f : Site ℝ → ℝ) {cs : List (Site ℝ)} {rows2 rows3 : List (List NbrEntry)}
    (h2 : List.Forall₂ R2 cs rows2) (h3 : List.Forall₂ R3 cs rows3)
    (hf : ∀ c r2 r3, R2 c r2 → R3 c r3 → ((anglesOther (r2.map (fun e => e.2.2))
      (r3.map (fun e => e.2.2))).map F).sum = f c) :
    (((List.zipWith anglesOther (rows2.map (List.map (fun (e : NbrEntry) => e.2.2)))
      (rows3.map (List.map (fun (e : NbrEntry) => e.2.2)))).flatten).map F).sum = (cs.map f).sum := by
  induction h2 generalizing rows3 with
  | nil => cases h3; rfl
  | cons h2 _ ih =>
    cases h3 with
    | cons h3 h3' =>
      rw [List.map_cons, List.map_cons, List.zipWith_cons_cons, List.flatten_cons, List.map_append,
        List.sum_append, List.map_cons, List.sum_cons, ih h3', hf _ _ _ h2 h3]

/-- Sums over the list of angles: equal neighbour elements. -/
theorem bondAngles_same (A : ArgSort) (s S : Struct ℝ) (hL : s.lattice.det ≠ 0) (hsep : Separated s)
    (hne : s.sites ≠ []) (r : ℝ) (hr : 0 ≤ r) (sc : Fin 3 → ℤ) (m : Fin 3 → ℕ)
    (h : ∀ i, sc i = 2 * (m i : ℤ) + 1) (hS : s.makeSupercell sc true = .ok S) (z1 z2 : ℕ)
    (hz : 0 < z2) :
    ∃ table angles, neighborTable A s r sc = .ok table ∧ bondAngles table z1 z2 z2 = .ok angles ∧
      ∀ F : ℝ → ℝ, (angles.map F).sum = ((s.sites.filter (fun c => c.z = z1)).map (fun c =>
        ((distinctPairs (nbrsOf S c.pos r z2)).map (fun x => F (angleAt c.pos x.1.pos x.2.pos))).sum
          + (nbrsOf S c.pos r z2).length * F 0)).sum := by
  obtain ⟨table, w, rows, h1, h2, _, _, h5⟩ := pair_sites A s S hL hsep hne r hr sc m h hS z1 z2 hz
  refine ⟨table, (rows.map (List.map (fun (e : NbrEntry) => e.2.2))).flatMap anglesSame, h1, ?_, ?_⟩
  · unfold bondAngles
    rw [h2, ok_bind]
    simp only [ok_bind, if_true]
    rfl
  · intro F
    rw [sum_flatMap, List.map_map, ← ((reformat_filter_perm s z1).map _).sum_eq]
    refine sum_forall₂ _ _ h5 ?_
    rintro c row ⟨ts, e1, _, _, rfl⟩
    have hps : ∀ q ∈ ts.map Site.pos, q ≠ c.pos := by
      intro q hq
      obtain ⟨t, ht, rfl⟩ := List.mem_map.1 hq
      exact nbrsOf_ne (e1.mem_iff.1 ht)
    have hrow : List.map (fun (e : NbrEntry) => e.2.2) (ts.map (fun t => (z2, dist3 t.pos c.pos, t.pos - c.pos))
            ++ List.replicate (w - ts.length) (0, 0, 0))
        = (ts.map Site.pos).map (· - c.pos) ++ List.replicate (w - ts.length) 0 := by
      simp [Function.comp_def]
    simp only [Function.comp_def]
    rw [hrow, anglesSame_sum F c.pos _ hps, distinctPairs_map, List.map_map, List.length_map,
      e1.length_eq]
    simp only [Function.comp_def]
    rw [distinctPairs_perm (fun a b : Site ℝ => F (angleAt c.pos a.pos b.pos))
      (fun a b => by rw [angleAt_comm]) e1]

/-- Sums over the list of angles: different neighbour elements. -/
theorem bondAngles_other (A : ArgSort) (s S : Struct ℝ) (hL : s.lattice.det ≠ 0) (hsep : Separated s)
    (hne : s.sites ≠ []) (r : ℝ) (hr : 0 ≤ r) (sc : Fin 3 → ℤ) (m : Fin 3 → ℕ)
    (h : ∀ i, sc i = 2 * (m i : ℤ) + 1) (hS : s.makeSupercell sc true = .ok S) (z1 z2 z3 : ℕ)
    (hz2 : 0 < z2) (hz3 : 0 < z3) (hne' : z2 ≠ z3) :
    ∃ table angles, neighborTable A s r sc = .ok table ∧ bondAngles table z1 z2 z3 = .ok angles ∧
      ∀ F : ℝ → ℝ, (angles.map F).sum = ((s.sites.filter (fun c => c.z = z1)).map (fun c =>
        ((nbrsOf S c.pos r z2).map (fun t => ((nbrsOf S c.pos r z3).map (fun u =>
          F (angleAt c.pos t.pos u.pos))).sum)).sum)).sum := by
  obtain ⟨table, w, rows, h1, h2, _, _, h5⟩ := pair_sites A s S hL hsep hne r hr sc m h hS z1 z2 hz2
  obtain ⟨table', w', rows', h1', h2', _, _, h5'⟩ :=
    pair_sites A s S hL hsep hne r hr sc m h hS z1 z3 hz3
  obtain rfl : table = table' := Except.ok.inj (h1.symm.trans h1')
  refine ⟨table, (List.zipWith anglesOther (rows.map (List.map (fun (e : NbrEntry) => e.2.2)))
      (rows'.map (List.map (fun (e : NbrEntry) => e.2.2)))).flatten, h1, ?_, ?_⟩
  · unfold bondAngles
    rw [h2, ok_bind]
    simp only [h2', ok_bind]
    rw [if_neg hne']
    rfl
  · intro F
    rw [← ((reformat_filter_perm s z1).map _).sum_eq]
    refine flatten_zipWith_sum F _ h5 h5' ?_
    rintro c r2 r3 ⟨ts, e1, _, _, rfl⟩ ⟨us, g1, _, _, rfl⟩
    have hps : ∀ q ∈ ts.map Site.pos, q ≠ c.pos := by
      intro q hq
      obtain ⟨t, ht, rfl⟩ := List.mem_map.1 hq
      exact nbrsOf_ne (e1.mem_iff.1 ht)
    have hqs : ∀ q ∈ us.map Site.pos, q ≠ c.pos := by
      intro q hq
      obtain ⟨t, ht, rfl⟩ := List.mem_map.1 hq
      exact nbrsOf_ne (g1.mem_iff.1 ht)
    have hrow : ∀ (z w : ℕ) (ts : List (Site ℝ)), List.map (fun (e : NbrEntry) => e.2.2)
        (ts.map (fun t => (z, dist3 t.pos c.pos, t.pos - c.pos))
            ++ List.replicate (w - ts.length) (0, 0, 0))
        = (ts.map Site.pos).map (· - c.pos) ++ List.replicate (w - ts.length) 0 := by
      intro z w ts
      simp [Function.comp_def]
    rw [hrow, hrow, anglesOther_sum F c.pos _ _ hps hqs, List.map_map]
    simp only [Function.comp_def, List.map_map]
    rw [(e1.map _).sum_eq]
    congr 1
    refine List.map_congr_left (fun t _ => ?_)
    exact (g1.map _).sum_eq

/-! ## Bond lengths selected by angle -/

theorem angleRad_comm (u v : Vec ℝ) : angleRad u v = angleRad v u := by
  rw [angleRad, angleRad, dotProduct_comm, mul_comm (norm3 u)]

theorem angleBondEntry_comm (std eps : ℝ) (u v : Vec ℝ) :
    angleBondEntry std eps u v = angleBondEntry std eps v u := by
  unfold angleBondEntry
  rw [angleRad_comm u v, min_comm, max_comm]
  by_cases hu : u = 0 <;> by_cases hv : v = 0 <;> simp [hu, hv]

theorem mem_angleBondsSame (std eps : ℝ) (rc : List (Vec ℝ)) (x : ℝ × ℝ × ℝ) :
    x ∈ angleBondsSame std eps rc ↔ ∃ u ∈ rc, ∃ v ∈ rc, x ∈ angleBondEntry std eps u v := by
  induction rc with
  | nil => simp [angleBondsSame]
  | cons a rc ih =>
    rw [angleBondsSame, List.mem_append, List.mem_flatMap, ih]
    constructor
    · rintro (⟨v, hv, hx⟩ | ⟨u, hu, v, hv, hx⟩)
      · exact ⟨a, List.mem_cons_self, v, hv, hx⟩
      · exact ⟨u, List.mem_cons_of_mem _ hu, v, List.mem_cons_of_mem _ hv, hx⟩
    · rintro ⟨u, hu, v, hv, hx⟩
      rcases List.mem_cons.1 hu with rfl | hu'
      · exact .inl ⟨v, hv, hx⟩
      · rcases List.mem_cons.1 hv with rfl | hv'
        · exact .inl ⟨u, hu, by rw [angleBondEntry_comm]; exact hx⟩
        · exact .inr ⟨u, hu', v, hv', hx⟩

theorem mem_angleBondEntry (std eps : ℝ) (c p q : Vec ℝ) (hp : p ≠ c) (hq : q ≠ c)
    (x : ℝ × ℝ × ℝ) : x ∈ angleBondEntry std eps (p - c) (q - c) ↔
      |angleAt c p q - std| < eps ∧
        x = (angleAt c p q, min (dist3 p c) (dist3 q c), max (dist3 p c) (dist3 q c)) := by
  unfold angleBondEntry
  rw [if_pos ⟨sub_ne_zero.2 hp, sub_ne_zero.2 hq⟩, angleAt_eq, norm3_eq_dist3, norm3_eq_dist3]
  split
  · rename_i h
    simp [h]
  · rename_i h
    simp [h]

theorem angleBondEntry_zero (std eps : ℝ) (u v : Vec ℝ) (h : u = 0 ∨ v = 0) :
    angleBondEntry std eps u v = [] := by
  unfold angleBondEntry
  rw [if_neg]
  rintro ⟨h1, h2⟩
  rcases h with h | h
  · exact h1 h
  · exact h2 h

/-- Membership for padded relative coordinates. -/
theorem mem_padded (std eps : ℝ) (c : Vec ℝ) (ts us : List (Site ℝ)) (k l : ℕ)
    (ht : ∀ t ∈ ts, t.pos ≠ c) (hu : ∀ u ∈ us, u.pos ≠ c) (x : ℝ × ℝ × ℝ) :
    (∃ u ∈ ts.map (fun t => t.pos - c) ++ List.replicate k 0,
      ∃ v ∈ us.map (fun t => t.pos - c) ++ List.replicate l 0, x ∈ angleBondEntry std eps u v) ↔
    ∃ t ∈ ts, ∃ u ∈ us, |angleAt c t.pos u.pos - std| < eps ∧
      x = (angleAt c t.pos u.pos, min (dist3 t.pos c) (dist3 u.pos c),
        max (dist3 t.pos c) (dist3 u.pos c)) := by
  constructor
  · rintro ⟨u, hu', v, hv', hx⟩
    rcases List.mem_append.1 hu' with hu' | hu'
    · rcases List.mem_append.1 hv' with hv' | hv'
      · obtain ⟨t, ht', rfl⟩ := List.mem_map.1 hu'
        obtain ⟨w, hw, rfl⟩ := List.mem_map.1 hv'
        exact ⟨t, ht', w, hw, (mem_angleBondEntry std eps c _ _ (ht t ht') (hu w hw) x).1 hx⟩
      · rw [angleBondEntry_zero _ _ _ _ (.inr (List.eq_of_mem_replicate hv'))] at hx
        cases hx
    · rw [angleBondEntry_zero _ _ _ _ (.inl (List.eq_of_mem_replicate hu'))] at hx
      cases hx
  · rintro ⟨t, ht', w, hw, hx⟩
    exact ⟨t.pos - c, List.mem_append_left _ (List.mem_map.2 ⟨t, ht', rfl⟩), w.pos - c,
      List.mem_append_left _ (List.mem_map.2 ⟨w, hw, rfl⟩),
      (mem_angleBondEntry std eps c _ _ (ht t ht') (hu w hw) x).2 hx⟩

theorem padded_row (c : Vec ℝ) (z w : ℕ) (ts : List (Site ℝ)) :
    List.map (fun (e : NbrEntry) => e.2.2) (ts.map (fun t => (z, dist3 t.pos c, t.pos - c))
      ++ List.replicate (w - ts.length) (0, 0, 0))
    = ts.map (fun t => t.pos - c) ++ List.replicate (w - ts.length) 0 := by
  simp [Function.comp_def]

theorem forall₂_exists_left {α β : Type} {R : α → β → Prop} {as : List α} {bs : List β}
    (h : List.Forall₂ R as bs) (P : α → Prop) (Q : β → Prop) (hPQ : ∀ a b, R a b → (P a ↔ Q b)) :
    (∃ b ∈ bs, Q b) ↔ ∃ a ∈ as, P a := by
  induction h with
  | nil => simp
  | cons h _ ih => simp only [List.exists_mem_cons_iff, ih, hPQ _ _ h]

theorem zip_exists {α β : Type} {R2 R3 : α → β → Prop} {as : List α} {bs cs : List β}
    (h2 : List.Forall₂ R2 as bs) (h3 : List.Forall₂ R3 as cs) (P : α → Prop) (Q : β → β → List (ℝ × ℝ × ℝ))
    (x : ℝ × ℝ × ℝ) (hPQ : ∀ a b c, R2 a b → R3 a c → (x ∈ Q b c ↔ P a)) :
    x ∈ (List.zipWith Q bs cs).flatten ↔ ∃ a ∈ as, P a := by
  induction h2 generalizing cs with
  | nil => cases h3; simp
  | cons h2 _ ih =>
    cases h3 with
    | cons h3 h3' =>
      rw [List.zipWith_cons_cons, List.flatten_cons, List.mem_append, hPQ _ _ _ h2 h3, ih h3',
        List.exists_mem_cons_iff]

/-- The rows of `angleBonds` of a structure. -/
theorem angleBonds_spec (A : ArgSort) (s S : Struct ℝ) (hL : s.lattice.det ≠ 0) (hsep : Separated s)
    (hne : s.sites ≠ []) (r : ℝ) (hr : 0 ≤ r) (sc : Fin 3 → ℤ) (m : Fin 3 → ℕ)
    (h : ∀ i, sc i = 2 * (m i : ℤ) + 1) (hS : s.makeSupercell sc true = .ok S) (z1 z2 z3 : ℕ)
    (hz2 : 0 < z2) (hz3 : 0 < z3) (std eps : ℝ) :
    ∃ table rows, neighborTable A s r sc = .ok table ∧ angleBonds table z1 z2 z3 std eps = .ok rows ∧
      ∀ x, x ∈ rows ↔ ∃ c ∈ s.sites, c.z = z1 ∧ ∃ t ∈ nbrsOf S c.pos r z2, ∃ u ∈ nbrsOf S c.pos r z3,
        |angleAt c.pos t.pos u.pos - std| < eps ∧
        x = (angleAt c.pos t.pos u.pos, min (dist3 t.pos c.pos) (dist3 u.pos c.pos),
          max (dist3 t.pos c.pos) (dist3 u.pos c.pos)) := by
  obtain ⟨table, w, rows, h1, h2, _, _, h5⟩ := pair_sites A s S hL hsep hne r hr sc m h hS z1 z2 hz2
  obtain ⟨table', w', rows', h1', h2', _, _, h5'⟩ :=
    pair_sites A s S hL hsep hne r hr sc m h hS z1 z3 hz3
  obtain rfl : table = table' := Except.ok.inj (h1.symm.trans h1')
  have hmem : ∀ P : Site ℝ → Prop, (∃ c ∈ s.reformat_.sites.filter (fun c => decide (c.z = z1)), P c) ↔
      ∃ c ∈ s.sites, c.z = z1 ∧ P c := by
    intro P
    constructor
    · rintro ⟨c, hc, hP⟩
      have := (reformat_filter_perm s z1).mem_iff.1 hc
      rw [List.mem_filter, decide_eq_true_eq] at this
      exact ⟨c, this.1, this.2, hP⟩
    · rintro ⟨c, hc, hz, hP⟩
      exact ⟨c, (reformat_filter_perm s z1).mem_iff.2 (List.mem_filter.2 ⟨hc, by simpa using hz⟩), hP⟩
  by_cases hz : z2 = z3
  · subst hz
    refine ⟨table, (rows.map (List.map (fun (e : NbrEntry) => e.2.2))).flatMap
      (angleBondsSame std eps), h1, ?_, ?_⟩
    · unfold angleBonds
      rw [h2, ok_bind]
      simp only [ok_bind, if_true]
      rfl
    · intro x
      rw [List.flatMap_map, List.mem_flatMap, ← hmem]
      refine forall₂_exists_left h5 _ _ ?_
      rintro c row ⟨ts, e1, _, _, rfl⟩
      rw [padded_row, mem_angleBondsSame, mem_padded std eps c.pos ts ts _ _
        (fun t ht => nbrsOf_ne (e1.mem_iff.1 ht)) (fun t ht => nbrsOf_ne (e1.mem_iff.1 ht))]
      simp only [e1.mem_iff]
  · refine ⟨table, (List.zipWith (fun (r2 r3 : List (Vec ℝ)) =>
      r2.flatMap (fun u => r3.flatMap (angleBondEntry std eps u)))
      (rows.map (List.map (fun (e : NbrEntry) => e.2.2)))
      (rows'.map (List.map (fun (e : NbrEntry) => e.2.2)))).flatten, h1, ?_, ?_⟩
    · unfold angleBonds
      rw [h2, ok_bind]
      simp only [h2', ok_bind]
      rw [if_neg hz]
      rfl
    · intro x
      rw [List.zipWith_map, ← hmem]
      refine zip_exists h5 h5' _ _ x ?_
      rintro c r2 r3 ⟨ts, e1, _, _, rfl⟩ ⟨us, g1, _, _, rfl⟩
      rw [padded_row, padded_row]
      simp only [List.mem_flatMap]
      rw [mem_padded std eps c.pos ts us _ _ (fun t ht => nbrsOf_ne (e1.mem_iff.1 ht))
        (fun t ht => nbrsOf_ne (g1.mem_iff.1 ht))]
      simp only [e1.mem_iff, g1.mem_iff]

/-! ### How often each row occurs -/

theorem angleBondEntry_row (std eps : ℝ) (c p q : Vec ℝ) (hp : p ≠ c) (hq : q ≠ c) :
    angleBondEntry std eps (p - c) (q - c) = angleRow std eps c p q := by
  unfold angleBondEntry angleRow
  rw [if_pos ⟨sub_ne_zero.2 hp, sub_ne_zero.2 hq⟩, angleAt_eq, norm3_eq_dist3, norm3_eq_dist3]

theorem angleRow_comm (std eps : ℝ) (c p q : Vec ℝ) : angleRow std eps c p q = angleRow std eps c q p := by
  have h : cosAt c p q = cosAt c q p := by
    unfold cosAt
    rw [mul_comm (dist3 p c)]
    congr 1
    exact Finset.sum_congr rfl (fun i _ => mul_comm _ _)
  unfold angleRow angleAt
  rw [h, min_comm, max_comm]

/-- One neighbour against a padded list. -/
theorem entries_padded (std eps : ℝ) (c p : Vec ℝ) (hp : p ≠ c) (us : List (Site ℝ)) (l : ℕ)
    (hu : ∀ u ∈ us, u.pos ≠ c) :
    (us.map (fun t : Site ℝ => t.pos - c) ++ List.replicate l 0).flatMap (angleBondEntry std eps (p - c))
      = us.flatMap (fun u : Site ℝ => angleRow std eps c p u.pos) := by
  rw [List.flatMap_append]
  have h0 : (List.replicate l (0 : Vec ℝ)).flatMap (angleBondEntry std eps (p - c)) = [] := by
    rw [List.flatMap_eq_nil_iff]
    intro v hv
    exact angleBondEntry_zero _ _ _ _ (.inr (List.eq_of_mem_replicate hv))
  rw [h0, List.append_nil, List.flatMap_map]
  exact List.flatMap_congr (fun u hu' => angleBondEntry_row std eps c p u.pos hp (hu u hu'))

theorem angleBondsSame_zeros (std eps : ℝ) (k : ℕ) :
    angleBondsSame std eps (List.replicate k 0) = [] := by
  induction k with
  | zero => rfl
  | succ k ih =>
    rw [List.replicate_succ, angleBondsSame, ih, List.append_nil, List.flatMap_eq_nil_iff]
    intro v _
    exact angleBondEntry_zero _ _ _ _ (.inl rfl)

theorem angleBondsSame_padded (std eps : ℝ) (c : Vec ℝ) (ts : List (Site ℝ)) (k : ℕ)
    (ht : ∀ t ∈ ts, t.pos ≠ c) :
    (angleBondsSame std eps (ts.map (fun t : Site ℝ => t.pos - c) ++ List.replicate k 0)).Perm
      ((distinctPairs ts).flatMap (fun x => angleRow std eps c x.1.pos x.2.pos)
        ++ ts.flatMap (fun t => angleRow std eps c t.pos t.pos)) := by
  induction ts with
  | nil => simp [angleBondsSame_zeros, distinctPairs]
  | cons t ts ih =>
    have h1 := ht t List.mem_cons_self
    have h2 : ∀ u ∈ ts, u.pos ≠ c := fun u hu => ht u (List.mem_cons_of_mem _ hu)
    have h3 := entries_padded std eps c t.pos h1 (t :: ts) k ht
    rw [List.map_cons, List.cons_append] at h3
    rw [List.map_cons, List.cons_append, angleBondsSame, h3, List.flatMap_cons, distinctPairs,
      List.flatMap_append, List.flatMap_map, List.flatMap_cons]
    refine ((List.Perm.append_left _ (ih h2)).trans ?_)
    rw [← Multiset.coe_eq_coe]
    simp only [← Multiset.coe_add]
    abel

theorem distinctPairs_flatMap_perm {α β : Type} (g : α → α → List β) (hg : ∀ a b, g a b = g b a)
    {l l' : List α} (h : l.Perm l') :
    ((distinctPairs l).flatMap (fun x => g x.1 x.2)).Perm
      ((distinctPairs l').flatMap (fun x => g x.1 x.2)) := by
  induction h with
  | nil => exact .refl _
  | cons a h ih =>
    rw [distinctPairs, distinctPairs, List.flatMap_append, List.flatMap_append, List.flatMap_map,
      List.flatMap_map]
    exact (h.flatMap_right _).append ih
  | swap a b l =>
    simp only [distinctPairs, List.flatMap_append, List.flatMap_map, List.map_cons, List.flatMap_cons]
    rw [hg a b, ← Multiset.coe_eq_coe]
    simp only [← Multiset.coe_add]
    abel
  | trans _ _ ih1 ih2 => exact ih1.trans ih2

theorem forall₂_flatMap_perm {α β γ : Type} {R : α → β → Prop} {as : List α} {bs : List β}
    (h : List.Forall₂ R as bs) (f : α → List γ) (g : β → List γ) (hfg : ∀ a b, R a b → (g b).Perm (f a)) :
    (bs.flatMap g).Perm (as.flatMap f) := by
  induction h with
  | nil => exact .refl _
  | cons h _ ih =>
    rw [List.flatMap_cons, List.flatMap_cons]
    exact (hfg _ _ h).append ih

theorem forall₂_zip_perm {α β γ : Type} {R2 R3 : α → β → Prop} {as : List α} {bs cs : List β}
    (h2 : List.Forall₂ R2 as bs) (h3 : List.Forall₂ R3 as cs) (f : α → List γ) (g : β → β → List γ)
    (hfg : ∀ a b c, R2 a b → R3 a c → (g b c).Perm (f a)) :
    ((List.zipWith g bs cs).flatten).Perm (as.flatMap f) := by
  induction h2 generalizing cs with
  | nil => cases h3; exact .refl _
  | cons h2 _ ih =>
    cases h3 with
    | cons h3 h3' =>
      rw [List.zipWith_cons_cons, List.flatten_cons, List.flatMap_cons]
      exact (hfg _ _ _ h2 h3).append (ih h3')

/-- The rows of `angleBonds` of a structure, with multiplicities. -/
theorem angleBonds_perm (A : ArgSort) (s S : Struct ℝ) (hL : s.lattice.det ≠ 0) (hsep : Separated s)
    (hne : s.sites ≠ []) (r : ℝ) (hr : 0 ≤ r) (sc : Fin 3 → ℤ) (m : Fin 3 → ℕ)
    (h : ∀ i, sc i = 2 * (m i : ℤ) + 1) (hS : s.makeSupercell sc true = .ok S) (z1 z2 z3 : ℕ)
    (hz2 : 0 < z2) (hz3 : 0 < z3) (std eps : ℝ) :
    ∃ table rows, neighborTable A s r sc = .ok table ∧ angleBonds table z1 z2 z3 std eps = .ok rows ∧
      (z2 ≠ z3 → rows.Perm ((s.sites.filter (fun c => c.z = z1)).flatMap (fun c =>
        (nbrsOf S c.pos r z2).flatMap (fun t => (nbrsOf S c.pos r z3).flatMap (fun u =>
          angleRow std eps c.pos t.pos u.pos))))) ∧
      (z2 = z3 → rows.Perm ((s.sites.filter (fun c => c.z = z1)).flatMap (fun c =>
        (distinctPairs (nbrsOf S c.pos r z2)).flatMap (fun x => angleRow std eps c.pos x.1.pos x.2.pos)
          ++ (nbrsOf S c.pos r z2).flatMap (fun t => angleRow std eps c.pos t.pos t.pos)))) := by
  obtain ⟨table, w, rows, h1, h2, _, _, h5⟩ := pair_sites A s S hL hsep hne r hr sc m h hS z1 z2 hz2
  obtain ⟨table', w', rows', h1', h2', _, _, h5'⟩ :=
    pair_sites A s S hL hsep hne r hr sc m h hS z1 z3 hz3
  obtain rfl : table = table' := Except.ok.inj (h1.symm.trans h1')
  by_cases hz : z2 = z3
  · subst hz
    refine ⟨table, (rows.map (List.map (fun (e : NbrEntry) => e.2.2))).flatMap
      (angleBondsSame std eps), h1, ?_, fun h => absurd rfl h, fun _ => ?_⟩
    · unfold angleBonds
      rw [h2, ok_bind]
      simp only [ok_bind, if_true]
      rfl
    · rw [List.flatMap_map]
      refine List.Perm.trans ?_ ((reformat_filter_perm s z1).flatMap_right _)
      refine forall₂_flatMap_perm h5 _ _ ?_
      rintro c row ⟨ts, e1, _, _, rfl⟩
      rw [padded_row]
      refine (angleBondsSame_padded std eps c.pos ts _ (fun t ht => nbrsOf_ne (e1.mem_iff.1 ht))).trans ?_
      exact (distinctPairs_flatMap_perm (fun a b : Site ℝ => angleRow std eps c.pos a.pos b.pos)
        (fun a b => angleRow_comm std eps c.pos a.pos b.pos) e1).append (e1.flatMap_right _)
  · refine ⟨table, (List.zipWith (fun (r2 r3 : List (Vec ℝ)) =>
      r2.flatMap (fun u => r3.flatMap (angleBondEntry std eps u)))
      (rows.map (List.map (fun (e : NbrEntry) => e.2.2)))
      (rows'.map (List.map (fun (e : NbrEntry) => e.2.2)))).flatten, h1, ?_, fun _ => ?_, fun h => absurd h hz⟩
    · unfold angleBonds
      rw [h2, ok_bind]
      simp only [h2', ok_bind]
      rw [if_neg hz]
      rfl
    · rw [List.zipWith_map]
      refine List.Perm.trans ?_ ((reformat_filter_perm s z1).flatMap_right _)
      refine forall₂_zip_perm h5 h5' _ _ ?_
      rintro c r2 r3 ⟨ts, e1, _, _, rfl⟩ ⟨us, g1, _, _, rfl⟩
      rw [padded_row, padded_row, List.flatMap_append]
      have h0 : (List.replicate (w - ts.length) (0 : Vec ℝ)).flatMap (fun u =>
          (us.map (fun t : Site ℝ => t.pos - c.pos) ++ List.replicate (w' - us.length) 0).flatMap
            (angleBondEntry std eps u)) = [] := by
        rw [List.flatMap_eq_nil_iff]
        intro v hv
        rw [List.flatMap_eq_nil_iff]
        intro x _
        exact angleBondEntry_zero _ _ _ _ (.inl (List.eq_of_mem_replicate hv))
      rw [h0, List.append_nil, List.flatMap_map]
      have h3 : ts.flatMap (fun t => (us.map (fun t : Site ℝ => t.pos - c.pos)
            ++ List.replicate (w' - us.length) 0).flatMap (angleBondEntry std eps (t.pos - c.pos)))
          = ts.flatMap (fun t => us.flatMap (fun u : Site ℝ => angleRow std eps c.pos t.pos u.pos)) :=
        List.flatMap_congr (fun t ht => entries_padded std eps c.pos t.pos
          (nbrsOf_ne (e1.mem_iff.1 ht)) us _ (fun u hu => nbrsOf_ne (g1.mem_iff.1 hu)))
      rw [h3]
      refine (e1.flatMap_right _).trans ?_
      exact List.Perm.flatMap_left _ (fun t _ => g1.flatMap_right _)

end MaterSDK
