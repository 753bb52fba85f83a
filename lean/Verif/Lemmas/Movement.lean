import Verif.Model.Movement
import Verif.Spec.Movement
import Verif.Lemmas.Str

/-! # Lemmas on locators and frame cutting -/

namespace MaterSDK

theorem lineLocateFrom_append (c : Str) (k : Nat) (xs ys : List Str) :
    lineLocateFrom c k (xs ++ ys) = lineLocateFrom c k xs ++ lineLocateFrom c (k + xs.length) ys := by
  induction xs generalizing k with
  | nil => simp [lineLocateFrom]
  | cons x xs ih =>
    simp only [List.cons_append, lineLocateFrom, List.length_cons]
    rw [ih]
    have : k + 1 + xs.length = k + (xs.length + 1) := by omega
    rw [this]
    split <;> simp

theorem lineLocateFrom_nil {c : Str} {xs : List Str} (h : ∀ r ∈ xs, strIn c (upper r) = false)
    (k : Nat) : lineLocateFrom c k xs = [] := by
  induction xs generalizing k with
  | nil => rfl
  | cons x xs ih =>
    simp only [List.mem_cons, forall_eq_or_imp] at h
    simp [lineLocateFrom, h.1, ih h.2]

theorem mem_lineLocateFrom {c : Str} {rows : List Str} {k n : Nat} :
    n ∈ lineLocateFrom c k rows ↔
      ∃ i row, rows[i]? = some row ∧ n = k + i + 1 ∧ c <:+: upper row := by
  induction rows generalizing k with
  | nil => simp [lineLocateFrom]
  | cons r rs ih =>
    have key : n ∈ lineLocateFrom c k (r :: rs) ↔
        (n = k + 1 ∧ c <:+: upper r) ∨ n ∈ lineLocateFrom c (k + 1) rs := by
      simp only [lineLocateFrom]
      split
      · rename_i h; rw [strIn_iff] at h; simp [h]
      · rename_i h; rw [strIn_iff] at h; simp [h]
    rw [key, ih]
    constructor
    · rintro (⟨h1, h2⟩ | ⟨i, row, h1, h2, h3⟩)
      · exact ⟨0, r, by simp, by omega, h2⟩
      · exact ⟨i + 1, row, by simpa using h1, by omega, h3⟩
    · rintro ⟨i, row, h1, h2, h3⟩
      cases i with
      | zero => left; simp at h1; subst h1; exact ⟨by omega, h3⟩
      | succ i => right; exact ⟨i, row, by simpa using h1, by omega, h3⟩

theorem lineLocateFrom_pairwise (c : Str) (k : Nat) (rows : List Str) :
    (lineLocateFrom c k rows).Pairwise (· < ·) := by
  induction rows generalizing k with
  | nil => simp [lineLocateFrom]
  | cons r rs ih =>
    simp only [lineLocateFrom]
    split
    · rw [List.pairwise_cons]
      refine ⟨fun n hn => ?_, ih _⟩
      rw [mem_lineLocateFrom] at hn
      obtain ⟨i, _, _, h, _⟩ := hn
      omega
    · exact ih _

theorem lineLocateFrom_eq_map (c : Str) (k : Nat) (rows : List Str) :
    lineLocateFrom c k rows = (listLocateFrom c k rows).map (· + 1) := by
  induction rows generalizing k with
  | nil => rfl
  | cons r rs ih =>
    simp only [lineLocateFrom, listLocateFrom]
    rw [ih]
    split <;> simp

theorem lineLocate_eq_map (rows : List Str) (c : Str) :
    lineLocate rows c = (listLocate rows c).map (· + 1) := lineLocateFrom_eq_map c 0 rows

theorem mem_listLocate {c : Str} {rows : List Str} {n : Nat} :
    n ∈ listLocate rows c ↔ ∃ row, rows[n]? = some row ∧ c <:+: upper row := by
  have h : n ∈ listLocate rows c ↔ n + 1 ∈ lineLocate rows c := by
    rw [lineLocate_eq_map]; simp
  rw [h, lineLocate, mem_lineLocateFrom]
  constructor
  · rintro ⟨i, row, h1, h2, h3⟩
    have : i = n := by omega
    subst this; exact ⟨row, h1, h3⟩
  · rintro ⟨row, h1, h3⟩; exact ⟨n, row, h1, by omega, h3⟩

theorem listLocate_pairwise (rows : List Str) (c : Str) :
    (listLocate rows c).Pairwise (· < ·) := by
  have h := lineLocateFrom_pairwise c 0 rows
  rw [lineLocateFrom_eq_map, List.pairwise_map] at h
  exact h.imp (by intro a b h; omega)

/-! ## Separators -/

theorem sepText_eq : sepText = List.replicate 38 '-' := by decide

theorem strIn_sep (row : Str) : strIn sepText (upper row) = true ↔ IsSep row := by
  rw [strIn_iff, sepText_eq, infix_upper_replicate (by decide) (by decide)]; rfl

theorem strIn_sep_false (row : Str) : strIn sepText (upper row) = false ↔ ¬ IsSep row := by
  rw [← strIn_sep]; simp

instance (row : Str) : Decidable (IsSep row) := by unfold IsSep; infer_instance

theorem cut_exists (rows : List Str) : ∃ groups rest, CutAtSeparators rows groups rest := by
  induction rows with
  | nil => exact ⟨[], [], ⟨rfl, by simp, by simp⟩⟩
  | cons r rs ih =>
    obtain ⟨groups, rest, h⟩ := ih
    by_cases hr : IsSep r
    · refine ⟨[r] :: groups, rest, ⟨by simp [h.whole], ?_, h.tail⟩⟩
      intro g hg
      rcases List.mem_cons.1 hg with rfl | hg
      · exact ⟨[], r, rfl, hr, by simp⟩
      · exact h.group g hg
    · cases groups with
      | nil =>
        refine ⟨[], r :: rest, ⟨by simp [h.whole], by simp, ?_⟩⟩
        intro x hx
        rcases List.mem_cons.1 hx with rfl | hx
        · exact hr
        · exact h.tail x hx
      | cons g gs =>
        refine ⟨(r :: g) :: gs, rest, ⟨by simp [h.whole], ?_, h.tail⟩⟩
        intro x hx
        rcases List.mem_cons.1 hx with rfl | hx
        · obtain ⟨body, last, h1, h2, h3⟩ := h.group g (by simp)
          refine ⟨r :: body, last, by simp [h1], h2, ?_⟩
          intro y hy
          rcases List.mem_cons.1 hy with rfl | hy
          · exact hr
          · exact h3 y hy
        · exact h.group x (by simp [hx])

/-- Two lists that start with non-separators and then a separator agree on that first block. -/
theorem first_block_unique {b1 b2 t1 t2 : List Str} {l1 l2 : Str}
    (h : b1 ++ l1 :: t1 = b2 ++ l2 :: t2) (s1 : IsSep l1) (s2 : IsSep l2)
    (n1 : ∀ r ∈ b1, ¬ IsSep r) (n2 : ∀ r ∈ b2, ¬ IsSep r) : b1 = b2 ∧ l1 = l2 ∧ t1 = t2 := by
  induction b1 generalizing b2 with
  | nil =>
    cases b2 with
    | nil => simp at h; simp [h]
    | cons y ys =>
      simp at h; exact absurd (h.1 ▸ s1) (n2 y (by simp))
  | cons x xs ih =>
    cases b2 with
    | nil => simp at h; exact absurd (h.1 ▸ s2) (n1 x (by simp))
    | cons y ys =>
      simp only [List.cons_append, List.cons.injEq] at h
      obtain ⟨h1, h2, h3⟩ := ih h.2 (fun r hr => n1 r (by simp [hr])) (fun r hr => n2 r (by simp [hr]))
      exact ⟨by rw [h.1, h1], h2, h3⟩

/-- The cut is unique, so the specification leaves no freedom. -/
theorem cut_unique {rows : List Str} {g1 g2 : List (List Str)} {r1 r2 : List Str}
    (h1 : CutAtSeparators rows g1 r1) (h2 : CutAtSeparators rows g2 r2) : g1 = g2 ∧ r1 = r2 := by
  induction g1 generalizing rows g2 with
  | nil =>
    have w1 := h1.whole
    simp at w1; subst w1
    cases g2 with
    | nil => simpa using h2.whole
    | cons g gs =>
      obtain ⟨b, l, e, s, _⟩ := h2.group g (by simp)
      exact absurd s (h1.tail l (by rw [h2.whole, e]; simp))
  | cons g gs ih =>
    obtain ⟨b, l, e, s, n⟩ := h1.group g (by simp)
    cases g2 with
    | nil =>
      have w := h2.whole
      simp at w; subst w
      exact absurd s (h2.tail l (by rw [h1.whole, e]; simp))
    | cons g' gs' =>
      obtain ⟨b', l', e', s', n'⟩ := h2.group g' (by simp)
      have w : b ++ l :: (gs.flatten ++ r1) = b' ++ l' :: (gs'.flatten ++ r2) := by
        have := h1.whole.symm.trans h2.whole
        rw [e, e'] at this; simpa using this
      obtain ⟨rfl, rfl, t⟩ := first_block_unique w s s' n n'
      obtain ⟨x, y⟩ := ih (rows := gs.flatten ++ r1) (g2 := gs')
        ⟨rfl, fun x hx => h1.group x (by simp [hx]), h1.tail⟩
        ⟨t, fun x hx => h2.group x (by simp [hx]), h2.tail⟩
      exact ⟨by rw [e, e', x], y⟩

/-! ## Chunk sizes and slices of a cut file -/

/-- Ends of the groups when the first starts after row `k`. -/
def ends : Nat → List (List Str) → List Nat
  | _, [] => []
  | k, g :: gs => (k + g.length) :: ends (k + g.length) gs

theorem locate_cut {groups : List (List Str)} {rest : List Str}
    (hg : ∀ g ∈ groups, ∃ body last, g = body ++ [last] ∧ IsSep last ∧ ∀ r ∈ body, ¬ IsSep r)
    (ht : ∀ r ∈ rest, ¬ IsSep r) (k : Nat) :
    lineLocateFrom sepText k (groups.flatten ++ rest) = ends k groups := by
  induction groups generalizing k with
  | nil =>
    simp only [List.flatten_nil, List.nil_append, ends]
    exact lineLocateFrom_nil (fun r hr => (strIn_sep_false r).2 (ht r hr)) k
  | cons g gs ih =>
    obtain ⟨body, last, e, s, n⟩ := hg g (by simp)
    simp only [List.flatten_cons, List.append_assoc, ends]
    rw [lineLocateFrom_append, ih (fun x hx => hg x (by simp [hx])), e, lineLocateFrom_append,
      lineLocateFrom_nil (fun r hr => (strIn_sep_false r).2 (n r hr))]
    simp [lineLocateFrom, (strIn_sep last).2 s, Nat.add_assoc]

theorem consecDiffs_ends (k : Nat) (groups : List (List Str)) :
    consecDiffs (k :: ends k groups) = groups.map (fun g => (g.length : Int)) := by
  induction groups generalizing k with
  | nil => rfl
  | cons g gs ih =>
    simp only [ends, consecDiffs, List.map_cons, ih]
    congr 1
    push_cast; omega

theorem chunkSizes_cut {rows : List Str} {groups : List (List Str)} {rest : List Str}
    (h : CutAtSeparators rows groups rest) (hne : groups ≠ []) :
    chunkSizes rows = .ok (groups.map (fun g => (g.length : Int))) := by
  have hl : lineLocate rows sepText = ends 0 groups := by
    rw [h.whole]; exact locate_cut h.group h.tail 0
  unfold chunkSizes
  rw [hl]
  cases groups with
  | nil => exact absurd rfl hne
  | cons g gs =>
    have := consecDiffs_ends (0 + g.length) gs
    simp only [ends, pyGet, List.getElem?_cons_zero, List.map_cons]
    show Except.ok _ = _
    rw [this]; simp

theorem chunkSizes_none {rows : List Str} (h : ∀ r ∈ rows, ¬ IsSep r) :
    chunkSizes rows = .error .indexError := by
  unfold chunkSizes lineLocate
  rw [lineLocateFrom_nil (fun r hr => (strIn_sep_false r).2 (h r hr))]
  rfl

theorem cumsumFrom_get (sizes : List Nat) (a : Int) (i : Nat) (hi : i ≤ sizes.length) :
    (a :: cumsumFrom a (sizes.map Int.ofNat))[i]? = some (a + ((sizes.take i).sum : Nat)) := by
  induction sizes generalizing a i with
  | nil => simp at hi; subst hi; simp [cumsumFrom]
  | cons s ss ih =>
    cases i with
    | zero => simp
    | succ i =>
      simp only [List.length_cons, Nat.add_le_add_iff_right] at hi
      have := ih (a + s) i hi
      simp only [List.map_cons, cumsumFrom, List.getElem?_cons_succ, List.take_succ_cons, List.sum_cons]
      rw [show Int.ofNat s = (s : Int) from rfl, this]
      congr 1; push_cast; ring

theorem cumsumFrom_length (a : Int) (l : List Int) : (cumsumFrom a l).length = l.length := by
  induction l generalizing a with
  | nil => rfl
  | cons x xs ih => simp [cumsumFrom, ih]

theorem chunkSlices_get (groups : List (List Str)) (i : Nat) (hi : i ≤ groups.length) :
    (chunkSlices (groups.map (fun g => (g.length : Int))))[i]? =
      some (((groups.take i).flatten.length : Nat) : Int) := by
  have e : groups.map (fun g => (g.length : Int)) = (groups.map List.length).map Int.ofNat := by
    simp
  unfold chunkSlices
  simp only [cumsumFrom, Int.add_zero]
  rw [e, cumsumFrom_get _ 0 i (by simpa using hi)]
  congr 1
  rw [List.length_flatten, List.map_take]; simp

theorem chunkSlices_length (sizes : List Int) : (chunkSlices sizes).length = sizes.length + 1 := by
  simp [chunkSlices, cumsumFrom_length]

/-- The scan over lines collects the lines from `lo` (inclusive) to `hi` (exclusive). -/
theorem frameLoop_eq (lo hi idx : Nat) (rows : List Str) :
    frameLoop (lo : Int) (hi : Int) idx rows =
      ((rows.drop (lo - idx)).take (hi - max lo idx)).flatten := by
  induction rows generalizing idx with
  | nil => simp [frameLoop]
  | cons r rs ih =>
    unfold frameLoop
    simp only [Nat.cast_le, Nat.cast_lt]
    split
    · rename_i h
      rw [ih]
      have e1 : lo - idx = 0 := by omega
      have e2 : lo - (idx + 1) = 0 := by omega
      have e3 : hi - max lo idx = (hi - max lo (idx + 1)) + 1 := by omega
      rw [e1, e2, e3]; simp
    · split
      · rename_i h1 h2
        have : hi - max lo idx = 0 := by omega
        rw [this]; simp
      · rename_i h1 h2
        rw [ih]
        have e1 : lo - idx = (lo - (idx + 1)) + 1 := by omega
        have e3 : hi - max lo idx = hi - max lo (idx + 1) := by omega
        rw [e1, e3]; simp

theorem drop_take_group (groups : List (List Str)) (rest : List Str) (i : Nat) (g : List Str)
    (hg : groups[i]? = some g) :
    ((groups.flatten ++ rest).drop (groups.take i).flatten.length).take g.length = g := by
  induction groups generalizing i with
  | nil => simp at hg
  | cons x xs ih =>
    cases i with
    | zero => simp at hg; subst hg; simp
    | succ i =>
      simp only [List.getElem?_cons_succ] at hg
      have := ih i hg
      simp only [List.flatten_cons, List.take_succ_cons, List.length_append, List.append_assoc]
      rw [← List.drop_drop]
      simpa using this

theorem pyGet_of_some {α : Type} {l : List α} {i : Nat} {a : α} (h : l[i]? = some a) :
    pyGet l i = .ok a := by simp [pyGet, h]

theorem pyGetI_nat {α : Type} (l : List α) (i : Nat) : pyGetI l (i : Int) = pyGet l i := by
  have : ¬ ((i : Int) < 0) := by omega
  simp [pyGetI, this]

theorem frameStr_cut {rows : List Str} {groups : List (List Str)} {rest : List Str}
    (h : CutAtSeparators rows groups rest) {i : Nat} {g : List Str} (hg : groups[i]? = some g) :
    frameStr rows (chunkSlices (groups.map (fun g => (g.length : Int)))) (i : Int)
      = .ok g.flatten := by
  have hi : i < groups.length := (List.getElem?_eq_some_iff.1 hg).1
  have hne : rows ≠ [] := by
    obtain ⟨b, l, e, _, _⟩ := h.group g (List.mem_of_getElem? hg)
    intro hr
    have hm : l ∈ rows := by
      rw [h.whole]
      apply List.mem_append_left
      exact List.mem_flatten.2 ⟨g, List.mem_of_getElem? hg, by simp [e]⟩
    rw [hr] at hm; simp at hm
  unfold frameStr
  rw [if_neg hne]
  have e1 : ((i : Int) + 1) = ((i + 1 : Nat) : Int) := by push_cast; rfl
  rw [e1, pyGetI_nat, pyGetI_nat, pyGet_of_some (chunkSlices_get groups i (by omega)),
    pyGet_of_some (chunkSlices_get groups (i + 1) (by omega))]
  show Except.ok (frameLoop _ _ 0 rows) = _
  rw [frameLoop_eq]
  congr 2
  have ht : groups.take (i + 1) = groups.take i ++ [g] := by
    rw [List.take_add_one, hg]; rfl
  rw [ht]
  simp only [Nat.sub_zero, Nat.max_zero, List.flatten_append, List.flatten_singleton, List.length_append,
    Nat.add_sub_cancel_left]
  rw [h.whole]
  exact drop_take_group groups rest i g hg

theorem frameStr_outOfRange {rows : List Str} {groups : List (List Str)} (hne : rows ≠ []) {i : Nat}
    (hi : groups.length ≤ i) :
    frameStr rows (chunkSlices (groups.map (fun g => (g.length : Int)))) (i : Int)
      = .error .indexError := by
  unfold frameStr
  rw [if_neg hne]
  have e1 : ((i : Int) + 1) = ((i + 1 : Nat) : Int) := by push_cast; rfl
  have hnone : pyGet (chunkSlices (groups.map (fun g => (g.length : Int)))) (i + 1)
      = .error .indexError := by
    unfold pyGet
    rw [List.getElem?_eq_none (by rw [chunkSlices_length]; simp; omega)]
  rw [e1, pyGetI_nat, pyGetI_nat, hnone]
  unfold pyGet
  cases (chunkSlices (groups.map (fun g => (g.length : Int))))[i]? <;> rfl

theorem seqFrames_cut (groups : List (List Str)) (rest : List Str) :
    seqFrames (groups.map (fun g => (g.length : Int))) (groups.flatten ++ rest)
      = groups.map List.flatten := by
  induction groups with
  | nil => rfl
  | cons g gs ih =>
    simp only [List.map_cons, seqFrames, List.flatten_cons, List.append_assoc, Int.toNat_natCast]
    rw [List.take_left, List.drop_left, ih]

end MaterSDK
