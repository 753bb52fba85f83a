import Verif.Props.Structure
import Verif.Props.Perturb
import Verif.Props.Displacement
import Verif.Props.AlignedArray

/-!
# C11, C53, C57, C173: exactly when they hold
-/

namespace MaterSDK

open Matrix

/-! ## C11 -/

theorem map_seen {K : Type} (l : List (Site K)) :
    l.map Site.seen = List.zip (l.map Site.z) (l.map Site.pos) := by
  induction l with
  | nil => rfl
  | cons a l ih => simp [ih, Site.seen]

theorem zip_perm_eq {α β : Type} (bs : List β) (hb : bs.Nodup) (as as' : List α) (h1 : as.length = bs.length)
    (h2 : as'.length = bs.length) (h : (List.zip as bs).Perm (List.zip as' bs)) : as = as' := by
  apply List.ext_getElem (h1.trans h2.symm)
  intro i hi hi'
  have hz : (as[i], bs[i]'(by omega)) ∈ List.zip as bs := by
    rw [List.mem_iff_getElem]
    exact ⟨i, by simp; omega, by simp⟩
  have hz' := h.mem_iff.1 hz
  rw [List.mem_iff_getElem] at hz'
  obtain ⟨j, hj, he⟩ := hz'
  rw [List.getElem_zip, Prod.mk.injEq] at he
  have hij : j = i := by
    have := (List.Nodup.getElem_inj_iff hb).1 he.2
    exact this
  subst hij
  exact he.1.symm

/-- C11, exactly when the claim holds, for a structure without two atoms in one place: the returned structure
has the same sites iff the elements were in the requested order already. -/
theorem C11_holds_iff {K : Type} [Field K] (s s' : Struct K) (els : List Nat) (hnd : (s.sites.map Site.pos).Nodup)
    (h : s.reformatElements els = .ok s') :
    (s'.sites.map Site.seen).Perm (s.sites.map Site.seen) ↔
      els.flatMap (fun e => (s.sites.filter (fun t => t.z = e)).map Site.z) = s.sites.map Site.z := by
  obtain ⟨_, h2, h3⟩ := C11_species_reordered_positions_fixed s s' els h
  rw [map_seen, map_seen, h2, ← h3]
  constructor
  · intro hp
    refine zip_perm_eq _ hnd _ _ ?_ ?_ hp
    · rw [← h2]; simp
    · simp
  · intro he
    rw [he]

/-- A silicon and a lithium atom, reordered by lithium, silicon: the sites change. -/
example (s' : Struct ℚ)
    (h : (⟨1, [⟨14, ![0, 0, 0], some 0⟩, ⟨3, ![1, 0, 0], some 0⟩]⟩ : Struct ℚ).reformatElements [3, 14] = .ok s') :
    ¬ (s'.sites.map Site.seen).Perm [(14, ![0, 0, 0]), (3, ![1, 0, 0])] := by
  have := (C11_holds_iff _ s' [3, 14] (by decide +kernel) h).not.2 (by decide +kernel)
  simpa [Site.seen] using this

/-! ## C53 -/

/-- C53, exactly when a cell that is not flat is accepted: it must be right-handed. -/
theorem C53_accepts_iff (F : QR) (C : Matrix (Fin 3) (Fin 3) ℝ) (hC : C.det ≠ 0) (coords : List (Vec ℝ))
    (species : List ℕ) :
    (∃ s, rotLowerTriangular F C coords species = .ok s) ↔ 0 < C.det := by
  constructor
  · rintro ⟨s, hs⟩
    rcases lt_or_gt_of_ne hC with h | h
    · rw [rotLower_left F C h] at hs
      cases hs
    · exact h
  · intro h
    obtain ⟨W, _, _, h1, _⟩ := rotLower_right F C h coords species
    exact ⟨_, h1⟩

example (F : QR) : ∃ s, rotLowerTriangular F 1 [![1, 2, 3]] [8] = .ok s :=
  (C53_accepts_iff F 1 (by simp) _ _).2 (by simp)

/-! ## C57 -/

/-- C57, exactly when the matrix has entries 0 or 1 and a zero diagonal: no atom has several images of another
one within the cutoff, and no atom but itself among its own images (which excludes negative cutoffs). -/
theorem C57_holds_iff (s : Struct ℝ) (hL : s.lattice.det ≠ 0) (hne : s.sites ≠ []) (rcut : ℝ)
    (sc : Fin 3 → ℤ) (m : Fin 3 → ℕ) (h : ∀ i, sc i = 2 * (m i : ℤ) + 1) :
    ∃ M, adjacentMatrix s rcut sc = .ok M ∧
      ((∀ i j, i < s.sites.length → j < s.sites.length →
          matEntry M i j = some 0 ∨ (i ≠ j ∧ matEntry M i j = some 1)) ↔
        0 ≤ rcut ∧
        (∀ t ∈ s.sites, ∀ n : Fin 3 → ℤ, (∀ a, |n a| ≤ (m a : ℤ)) → n ≠ 0 →
          rcut < dist3 (t.pos + latticePoint s.lattice n) t.pos) ∧
        ∀ (i j : ℕ) (t u : Site ℝ), i ≠ j → s.sites[i]? = some t → s.sites[j]? = some u →
          ∀ n n' : Fin 3 → ℤ, (∀ a, |n a| ≤ (m a : ℤ)) → (∀ a, |n' a| ≤ (m a : ℤ)) →
            dist3 (u.pos + latticePoint s.lattice n) t.pos ≤ rcut →
            dist3 (u.pos + latticePoint s.lattice n') t.pos ≤ rcut → n = n') := by
  obtain ⟨M, h1, h2, h3, h4, h5⟩ := C57_counts s hL hne rcut sc m h
  have hself : ∀ p : Vec ℝ, imageCount s.lattice m rcut p p = 1 ↔ 0 ≤ rcut ∧
      ∀ n : Fin 3 → ℤ, (∀ a, |n a| ≤ (m a : ℤ)) → n ≠ 0 →
        rcut < dist3 (p + latticePoint s.lattice n) p := by
    intro p
    rw [imageCount, Finset.card_eq_one]
    constructor
    · rintro ⟨n, hn⟩
      have hmem : ∀ k : Fin 3 → ℤ, k = n ↔ (∀ a, |k a| ≤ (m a : ℤ)) ∧
          dist3 (p + latticePoint s.lattice k) p ≤ rcut := by
        intro k
        rw [← Finset.mem_singleton, ← hn, Finset.mem_filter, mem_boxShifts]
      have hr : 0 ≤ rcut := (dist3_nonneg _ _).trans ((hmem n).1 rfl).2
      have h0 : 0 = n := (hmem 0).2 ⟨fun a => by simp, by
        rw [latticePoint_zero, add_zero, dist3_self]; exact hr⟩
      refine ⟨hr, fun k hk hk0 => ?_⟩
      by_contra hc
      exact hk0 (((hmem k).2 ⟨hk, not_lt.1 hc⟩).trans h0.symm)
    · rintro ⟨hr, hn⟩
      refine ⟨0, ?_⟩
      ext k
      rw [Finset.mem_filter, mem_boxShifts, Finset.mem_singleton]
      constructor
      · rintro ⟨hk, hd⟩
        by_contra hk0
        exact absurd (hn k hk hk0) (not_lt.2 hd)
      · rintro rfl
        refine ⟨fun a => by simp, ?_⟩
        rw [latticePoint_zero, add_zero, dist3_self]
        exact hr
  have hpair : ∀ p q : Vec ℝ, imageCount s.lattice m rcut p q ≤ 1 ↔
      ∀ n n' : Fin 3 → ℤ, (∀ a, |n a| ≤ (m a : ℤ)) → (∀ a, |n' a| ≤ (m a : ℤ)) →
        dist3 (q + latticePoint s.lattice n) p ≤ rcut →
        dist3 (q + latticePoint s.lattice n') p ≤ rcut → n = n' := by
    intro p q
    rw [imageCount, Finset.card_le_one]
    simp only [Finset.mem_filter, mem_boxShifts]
    constructor
    · intro hh n n' hn hn' hd hd'
      exact hh n ⟨hn, hd⟩ n' ⟨hn', hd'⟩
    · rintro hh n ⟨hn, hd⟩ n' ⟨hn', hd'⟩
      exact hh n n' hn hn' hd hd'
  refine ⟨M, h1, ?_⟩
  constructor
  · intro hM
    have hdiag : ∀ t ∈ s.sites, imageCount s.lattice m rcut t.pos t.pos = 1 := by
      intro t ht
      obtain ⟨i, hi⟩ := List.mem_iff_getElem?.1 ht
      have hil := (List.getElem?_eq_some_iff.1 hi).1
      rcases hM i i hil hil with h6 | ⟨h6, _⟩
      · rw [h5 i i t t hi hi, if_pos rfl, Option.some.injEq] at h6
        omega
      · exact absurd rfl h6
    obtain ⟨t0, ht0⟩ := List.exists_mem_of_ne_nil _ hne
    refine ⟨((hself t0.pos).1 (hdiag t0 ht0)).1, fun t ht => ((hself t.pos).1 (hdiag t ht)).2, ?_⟩
    intro i j t u hij hi hj
    have hil := (List.getElem?_eq_some_iff.1 hi).1
    have hjl := (List.getElem?_eq_some_iff.1 hj).1
    refine (hpair t.pos u.pos).1 ?_
    have h6 := h5 i j t u hi hj
    rw [if_neg hij, sub_zero] at h6
    rcases hM i j hil hjl with h7 | ⟨_, h7⟩ <;> rw [h6, Option.some.injEq] at h7 <;> omega
  · rintro ⟨hr, hs, hp⟩ i j hi hj
    have gi : s.sites[i]? = some s.sites[i] := List.getElem?_eq_getElem hi
    have gj : s.sites[j]? = some s.sites[j] := List.getElem?_eq_getElem hj
    rw [h5 i j _ _ gi gj]
    by_cases hij : i = j
    · subst hij
      rw [if_pos rfl, (hself _).2 ⟨hr, hs _ (List.getElem_mem hi)⟩]
      simp
    · rw [if_neg hij, sub_zero]
      have := (hpair _ _).2 (hp i j _ _ hij gi gj)
      rcases Nat.le_one_iff_eq_zero_or_eq_one.1 this with h0 | h0 <;> rw [h0] <;> simp [hij]

example := C57_holds_iff liCube (by simp [liCube]) (by simp [liCube]) 1 ![3, 3, 3] ![1, 1, 1] (by decide)

/-! ## C173 -/

/-- C173 for negative sizes: refused by every allocator iff `sizeof(T) * |n|` is at least 16; otherwise the
array is made if the allocator has `15 - sizeof(T) * |n|` bytes, and reports the negative size. -/
theorem C173_negative_exact {β : Type} (A : CharAlloc β) (sz : ℕ) (hs32 : sz < 2 ^ 32) (m : AMem β) (n : ℤ)
    (h0 : n < 0) (hn : -(2 ^ 31) ≤ n) :
    (16 ≤ sz * (-n).toNat → aAlloc A sz m n = .error .exception) ∧
    (sz * (-n).toNat ≤ 15 →
      (A.pick m (15 - sz * (-n).toNat) = none → aAlloc A sz m n = .error .exception) ∧
      (A.pick m (15 - sz * (-n).toNat) ≠ none → ∃ m' o, aAlloc A sz m n = .ok (m', o) ∧ o.size = n)) := by
  obtain ⟨k, rfl⟩ : ∃ k : ℕ, n = -(k : ℤ) := ⟨(-n).toNat, by omega⟩
  have hk : (-(-(k : ℤ))).toNat = k := by simp
  rw [hk]
  have hk31 : k ≤ 2 ^ 31 := by
    have : (k : ℤ) ≤ 2 ^ 31 := by linarith
    exact_mod_cast this
  have hprod : sz * k < 2 ^ 63 := by
    have : sz * k ≤ (2 ^ 32 - 1) * 2 ^ 31 := Nat.mul_le_mul (by omega) hk31
    omega
  have e : ((sz : ℤ) * (-(k : ℤ)) + 15) = 15 - ((sz * k : ℕ) : ℤ) := by push_cast; ring
  constructor
  · intro h16
    have hb : alignedBytes sz (-(k : ℤ)) = 2 ^ 64 + 15 - sz * k := by
      unfold alignedBytes
      rw [e]
      omega
    unfold aAlloc
    rw [hb]
    cases hp : A.pick m (2 ^ 64 + 15 - sz * k) with
    | none => rfl
    | some p =>
      have := (A.fresh m _ p hp).2.1
      omega
  · intro h15
    have hb : alignedBytes sz (-(k : ℤ)) = 15 - sz * k := by
      unfold alignedBytes
      rw [e]
      omega
    unfold aAlloc
    rw [hb]
    constructor
    · intro hp
      rw [hp]
    · intro hp
      obtain ⟨p, hp⟩ := Option.ne_none_iff_exists'.1 hp
      rw [hp]
      exact ⟨_, _, rfl, rfl⟩

example := C173_negative_exact (bumpAlloc (β := ℤ)) 8 (by norm_num) ⟨[], fun _ => none⟩ (-1) (by norm_num) (by norm_num)

end MaterSDK
