import Verif.Lemmas.CellListFind
import Verif.Lemmas.Neigh

/-! # Fractional input, overfull rows, counts per element -/

namespace MaterSDK

open Classical Matrix

theorem make_frac (L : Fin 3 → Vec ℝ) (atoms : List (ℤ × Vec ℝ)) :
    CStruct.make L atoms false = CStruct.make L (atoms.map (fun a => (a.1, cartOf L a.2))) true := by
  simp only [CStruct.make, if_true, Bool.false_eq_true, if_false, CStruct.mk.injEq, true_and]
  apply List.map_congr_left
  intro a _
  refine Prod.ext rfl ?_
  funext p
  simp [cartOf, Fin.sum_univ_three]

theorem inCell_cartOf (L : Fin 3 → Vec ℝ) (f : Vec ℝ) (h : ∀ i, 0 ≤ f i ∧ f i < 1) :
    InCell L (cartOf L f) := ⟨f, h, rfl⟩

/-! ## Errors -/

theorem mapM_error_all {α β : Type} (f : α → Except CErr β) (er : CErr)
    (h : ∀ a, (∃ b, f a = .ok b) ∨ f a = .error er) (l : List α) :
    (∃ bs, l.mapM f = .ok bs) ∨ l.mapM f = .error er := by
  induction l with
  | nil => left; exact ⟨[], rfl⟩
  | cons a l ih =>
    rw [List.mapM_cons]
    rcases h a with ⟨b, hb⟩ | hb
    · rw [hb, ok_bind]
      rcases ih with ⟨bs, hbs⟩ | hbs
      · left; rw [hbs]; exact ⟨b :: bs, rfl⟩
      · right; rw [hbs]; rfl
    · right; rw [hb]; rfl

theorem cGet_total {α : Type} (l : List α) (i : ℤ) :
    (∃ a, cGet l i = .ok a) ∨ cGet l i = .error .outOfBounds := by
  unfold cGet
  split_ifs
  · right; rfl
  · split
    · left; exact ⟨_, rfl⟩
    · right; rfl

theorem cSet_total {α : Type} (l : List α) (i : ℤ) (a : α) :
    (∃ l', cSet l i a = .ok l' ∧ l'.length = l.length) ∨ cSet l i a = .error .outOfBounds := by
  unfold cSet
  split_ifs
  · left; exact ⟨_, rfl, by simp⟩
  · right; rfl

theorem cWrite_total {α : Type} (row : List α) (l : List α) (off : ℤ) :
    (∃ l', cWrite l off row = .ok l' ∧ l'.length = l.length) ∨ cWrite l off row = .error .outOfBounds := by
  induction row generalizing l off with
  | nil => left; exact ⟨l, rfl, rfl⟩
  | cons v row ih =>
    rw [cWrite]
    rcases cSet_total l off v with ⟨l', h, hl⟩ | h
    · rw [h, ok_bind]
      rcases ih l' (off + 1) with ⟨l'', h'', hl''⟩ | h''
      · left; exact ⟨l'', h'', by rw [hl'', hl]⟩
      · right; exact h''
    · right; rw [h]; rfl

theorem cWrite_oob {α : Type} (row : List α) (l : List α) (off : ℤ) (hne : row ≠ [])
    (h : (l.length : ℤ) < off + row.length) : cWrite l off row = .error .outOfBounds := by
  induction row generalizing l off with
  | nil => exact absurd rfl hne
  | cons v row ih =>
    rw [cWrite]
    rcases cSet_total l off v with ⟨l', h', hl'⟩ | h'
    · rw [h', ok_bind]
      by_cases hr : row = []
      · subst hr
        simp only [List.length_cons, List.length_nil] at h
        rw [cSet_oob (by right; push_cast at h; omega)] at h'
        cases h'
      · apply ih l' (off + 1) hr
        rw [hl']
        rw [List.length_cons] at h
        push_cast at h
        omega
    · rw [h']; rfl

theorem cWriteRows_oob {α : Type} (w : ℕ) (rows : List (List α)) (ii : ℕ) (arr : List α)
    (h : ∃ (k : ℕ) (r : List α), rows[k]? = some r ∧ r ≠ [] ∧ arr.length < (ii + k) * w + r.length) :
    cWriteRows (w : ℤ) ii rows arr = .error .outOfBounds := by
  induction rows generalizing ii arr with
  | nil => obtain ⟨k, r, h, _⟩ := h; simp at h
  | cons row rows ih =>
    obtain ⟨k, r, hk, hr, hl⟩ := h
    rw [cWriteRows]
    cases k with
    | zero =>
      simp only [List.getElem?_cons_zero, Option.some.injEq] at hk
      subst hk
      rw [cWrite_oob row arr _ hr (by push_cast [Nat.add_zero] at *; exact_mod_cast hl)]
      rfl
    | succ k =>
      rcases cWrite_total row arr ((ii : ℤ) * (w : ℤ)) with ⟨l', h', hl'⟩ | h'
      · rw [h', ok_bind]
        apply ih
        refine ⟨k, r, by simpa using hk, hr, ?_⟩
        rw [hl']
        have : ii + 1 + k = ii + (k + 1) := by omega
        rw [this]; exact hl
      · rw [h']; rfl

theorem findInfo_oob (N : NbrLists) (umax : ℕ) (k : ℕ) (l : List ℤ)
    (hk : N.lists[k]? = some l)
    (hl : N.bins.supercell.primNum * umax < k * umax + l.length) (hne : l ≠ []) :
    N.findInfo umax = .error .outOfBounds := by
  unfold NbrLists.findInfo
  simp only
  rcases mapM_error_all (fun ii : ℕ => (do
      let a ← cGet N.bins.supercell.struct.atoms (ii : ℤ)
      return a.1 : Except CErr ℤ)) .outOfBounds (by
        intro ii
        rcases cGet_total N.bins.supercell.struct.atoms (ii : ℤ) with ⟨a, h⟩ | h
        · left; exact ⟨a.1, by rw [h]; rfl⟩
        · right; rw [h]; rfl) (List.range N.bins.supercell.primNum) with ⟨bs, h⟩ | h
  · rw [h, ok_bind, cWriteRows_oob]
    · rfl
    · refine ⟨k, l.map (fun k => k.tmod (N.bins.supercell.primNum : ℤ)), ?_, ?_, ?_⟩
      · rw [List.getElem?_map, hk]; rfl
      · simpa using hne
      · simpa using hl
  · rw [h]; rfl

/-! ## Counting by element -/

theorem countOf_spec (N : NbrLists) (s : CStruct) (sc : Fin 3 → ℤ)
    (hat : N.bins.supercell.struct.atoms = (s.makeSupercell sc).atoms) (nz : ℤ) (ks : List ℕ)
    (hin : ∀ k ∈ ks, k < (s.makeSupercell sc).atoms.length) :
    N.countOf nz (ks.map (fun k : ℕ => (k : ℤ)))
      = .ok ((ks.map (imageAt s sc)).countP (fun e => decide ((s.atoms[e.1]?).map Prod.fst = some nz))) := by
  unfold NbrLists.countOf
  rw [List.mapM_map, hat]
  rw [mapM_map_ok (g := fun k => ((s.atoms[(imageAt s sc k).1]?).map Prod.fst).getD 0)]
  · rw [ok_bind]
    refine congrArg Except.ok ?_
    rw [List.count, List.countP_map, List.countP_map]
    apply List.countP_congr
    intro k hk
    obtain ⟨a, h1, _⟩ := imageAt_get s sc (List.getElem?_eq_getElem (hin k hk))
    simp only [Function.comp, h1, Option.map_some, Option.getD_some, Option.some.injEq, beq_iff_eq,
      decide_eq_true_eq]
  · intro k hk
    obtain ⟨a, h1, h2, _⟩ := imageAt_get s sc (List.getElem?_eq_getElem (hin k hk))
    have := cGet_nat (List.getElem?_eq_getElem (hin k hk))
    simp only [Function.comp, this, ok_bind, h1, h2]
    rfl

theorem sortByDistance_sorted (A : ArgSort) (atoms : List (ℤ × Vec ℝ)) (c : Vec ℝ) (l l' : List ℤ)
    (h : sortByDistance A atoms c l = .ok l') :
    ∃ as : List (ℤ × Vec ℝ), List.Forall₂ (fun k a => cGet atoms k = .ok a) l' as ∧
      (as.map (fun a => dist3 a.2 c)).Pairwise (· ≤ ·) ∧ l'.Perm l := by
  obtain ⟨ds, h1, h2⟩ := bind_eq_ok.1 h
  rw [mapM_eq_ok] at h1 h2
  have hpt : ∀ j ∈ A.run ds, j < ds.length := by
    intro j hj
    simpa using (A.perm ds).mem_iff.1 hj
  have hlen := h1.length_eq
  have key : ∀ (js : List ℕ) (l' : List ℤ), (∀ j ∈ js, j < ds.length) →
      List.Forall₂ (fun (j : ℕ) k => cGet l (j : ℤ) = .ok k) js l' →
      ∃ as : List (ℤ × Vec ℝ), List.Forall₂ (fun k a => cGet atoms k = .ok a) l' as ∧
        as.map (fun a => dist3 a.2 c) = js.map (fun i => ds[i]?.getD 0) ∧
        l' = js.map (fun i => l[i]?.getD 0) := by
    intro js
    induction js with
    | nil =>
      intro l' _ h
      cases h
      exact ⟨[], .nil, rfl, rfl⟩
    | cons j js ih =>
      intro l' hj h
      cases h with
      | cons hk hrest =>
        rename_i k ks
        obtain ⟨as, a1, a2, a3⟩ := ih ks (fun j hj' => hj j (by simp [hj'])) hrest
        have hjl : j < l.length := by rw [hlen]; exact hj j (by simp)
        have hgj : l[j]? = some l[j] := List.getElem?_eq_getElem hjl
        rw [cGet_nat hgj] at hk
        obtain ⟨d, hd, hkd⟩ := forall₂_get h1 hgj
        obtain ⟨a, ha, hd'⟩ := bind_eq_ok.1 hkd
        have hd' := Except.ok.inj hd'
        refine ⟨a :: as, .cons ?_ a1, ?_, ?_⟩
        · rw [← Except.ok.inj hk]; exact ha
        · simp only [List.map_cons, a2, hd, Option.getD_some, ← hd', cDist2_eq]
        · simp only [List.map_cons, ← a3, hgj, Option.getD_some, Except.ok.inj hk]
  obtain ⟨as, a1, a2, a3⟩ := key _ _ hpt h2
  refine ⟨as, a1, by rw [a2]; exact A.sorted ds, ?_⟩
  rw [a3]
  have := (A.perm ds).map (fun i => l[i]?.getD 0)
  refine this.trans ?_
  rw [← hlen]
  refine List.Perm.of_eq ?_
  apply List.ext_getElem?
  intro i
  rw [List.getElem?_map]
  by_cases hi : i < l.length
  · simp [hi]
  · simp [not_lt.1 hi]

end MaterSDK
