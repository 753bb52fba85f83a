import Verif.Lemmas.AlignedArray

/-!
# Properties of aligned arrays (C173, C174)
-/

namespace MaterSDK

variable {β : Type}

/-! ## C173: an array of `n` elements starts at a multiple of 16 and has room for `n` elements -/

/-- For every allocator and every size from 0 to 2³¹ − 1 (element types below 4 GiB): if the constructor
returns, the array says it has `n` elements, its first element is at a multiple of 16, all `n` elements may be
accessed and lie one after the other inside one block of its own, apart from all blocks that were in use, which
are still in use. The constructor fails only if the allocator refuses. Missing: negative sizes are not refused
(`C173_violated_negative_size`). -/
theorem C173_aligned_partial (A : CharAlloc β) (sz : ℕ) (hs32 : sz < 2 ^ 32) (m : AMem β)
    (n : ℤ) (h0 : 0 ≤ n) (hn : n < 2 ^ 31) :
    (A.pick m (sz * n.toNat + 15) = none → aAlloc A sz m n = .error .exception) ∧
    (A.pick m (sz * n.toNat + 15) ≠ none → ∃ r, aAlloc A sz m n = .ok r) ∧
    ∀ m' o, aAlloc A sz m n = .ok (m', o) →
      o.size = n ∧ 16 ∣ o.data ∧
      ∃ p len, m'.live = (p, len) :: m.live ∧
        (∀ b ∈ m.live, p + len ≤ b.1 ∨ b.1 + b.2 ≤ p) ∧
        (∀ a, (a < p ∨ p + len ≤ a) → m'.cells a = m.cells a) ∧
        ∀ i : ℤ, 0 ≤ i → i < n →
          aAddr sz m' o i = .ok (o.data + i.toNat * sz) ∧
          p ≤ o.data + i.toNat * sz ∧ o.data + (i.toNat + 1) * sz ≤ p + len := by
  obtain ⟨k, rfl⟩ := Int.eq_ofNat_of_zero_le h0
  have hb := alignedBytes_eq hs32 hn
  rw [Int.toNat_natCast]
  unfold aAlloc
  rw [hb]
  refine ⟨?_, ?_, ?_⟩
  · intro h; rw [h]
  · intro h
    obtain ⟨p, hp⟩ := Option.ne_none_iff_exists'.1 h
    rw [hp]
    exact ⟨_, rfl⟩
  · intro m' o h
    cases hp : A.pick m (sz * k + 15) with
    | none => rw [hp] at h; cases h
    | some p =>
      rw [hp] at h
      obtain ⟨rfl, rfl⟩ := Prod.mk.inj (Except.ok.inj h).symm
      obtain ⟨f1, f2, f3⟩ := A.fresh _ _ _ hp
      obtain ⟨b1, b2, b3⟩ := data_bounds (p := p) (n := sz * k) (by omega)
      refine ⟨rfl, b3, p, sz * k + 15, rfl, fun b hb => (f3 b hb).2, ?_, ?_⟩
      · intro a ha
        simp only
        rw [if_neg (by omega)]
      · intro i hi0 hik
        obtain ⟨j, rfl⟩ := Int.eq_ofNat_of_zero_le hi0
        rw [Int.toNat_natCast]
        have hm : j * sz + sz ≤ sz * k := by
          have hjk : j < k := by exact_mod_cast hik
          have := Nat.mul_le_mul_right sz (Nat.succ_le_of_lt hjk)
          rw [Nat.succ_mul] at this
          rwa [Nat.mul_comm sz]
        have e : ((alignDown (p + 15) : ℤ) + (j : ℤ) * sz) = ((alignDown (p + 15) + j * sz : ℕ) : ℤ) := by
          push_cast; rfl
        refine ⟨?_, by simp only; omega, by simp only; rw [Nat.add_mul, one_mul]; omega⟩
        unfold aAddr
        simp only [List.find?_cons, decide_true]
        rw [e, if_pos, Int.toNat_natCast]
        constructor
        · exact_mod_cast (by omega : p ≤ alignDown (p + 15) + j * sz)
        · exact_mod_cast (by omega : alignDown (p + 15) + j * sz + sz ≤ p + (sz * k + 15))

/-- A bump allocator gives ten doubles 95 bytes from address 1 on; the array starts at 16. -/
example : ∃ m, aAlloc (bumpAlloc (β := ℚ)) 8 ⟨[], fun _ => none⟩ 10 = .ok (m, ⟨10, some 1, 16⟩) ∧
    m.live = [(1, 95)] := ⟨_, rfl, rfl⟩

/-- `resize` gives back the old block and makes a new array, or, for the same size, does nothing. -/
theorem C173_resize_partial (A : CharAlloc β) (sz : ℕ) (m : AMem β) (x : AObj) (n : ℤ) :
    (x.size = n → aResize A sz m x n = .ok (m, x)) ∧
    (x.size ≠ n → x.base = none → aResize A sz m x n = aAlloc A sz m n) ∧
    ∀ p, x.size ≠ n → x.base = some p → p ∈ m.live.map Prod.fst →
      aResize A sz m x n = aAlloc A sz ⟨m.live.filter (fun b => b.1 ≠ p), m.cells⟩ n := by
  refine ⟨?_, ?_, ?_⟩
  · intro h; unfold aResize; rw [if_pos h]
  · intro h hb
    unfold aResize aDelete
    rw [if_neg h, hb]
    rfl
  · intro p h hb hp
    unfold aResize aDelete
    rw [if_neg h, hb]
    simp only
    rw [if_pos hp]
    rfl

example : aResize (bumpAlloc (β := ℚ)) 8 ⟨[(1, 95)], fun _ => none⟩ ⟨10, some 1, 16⟩ 10 =
    .ok (⟨[(1, 95)], fun _ => none⟩, ⟨10, some 1, 16⟩) := rfl

/-- A negative size is accepted: an array of `int` of size −1 is made by every allocator which has 11 bytes
left, and its `size()` is −1. -/
theorem C173_violated_negative_size :
    (∀ (A : CharAlloc β) (m : AMem β), A.pick m 11 ≠ none →
      ∃ m' o, aAlloc A 4 m (-1) = .ok (m', o) ∧ o.size = -1) ∧
    ∃ (A : CharAlloc β) (m' : AMem β) (o : AObj),
      aAlloc A 4 ⟨[], fun _ => none⟩ (-1) = .ok (m', o) ∧ o.size = -1 := by
  have h : ∀ (A : CharAlloc β) (m : AMem β), A.pick m 11 ≠ none →
      ∃ m' o, aAlloc A 4 m (-1) = .ok (m', o) ∧ o.size = -1 := by
    intro A m hp
    obtain ⟨p, hp⟩ := Option.ne_none_iff_exists'.1 hp
    unfold aAlloc
    have e : alignedBytes 4 (-1) = 11 := by decide
    rw [e, hp]
    exact ⟨_, _, rfl, rfl⟩
  exact ⟨h, bumpAlloc, h _ _ (by simp [bumpAlloc])⟩

/-! ## C174: aligned arrays behave like values -/

/-- A program which copies no array, and for which arrays that were plain lists would give the results `outs`,
gives exactly these with any allocator, unless memory runs out: no access outside a block, no use of memory
given back, no array changed by a write to another. When its last array is destroyed, all memory has been given
back. Missing: programs that copy or assign arrays (`C174_violated_copy`, `C174_violated_assign`). -/
theorem C174_values_partial (A : CharAlloc β) (sz : ℕ) (hsz : 0 < sz) (hs32 : sz < 2 ^ 32) (prog : List (AOp β))
    (hc : ∀ op ∈ prog, op.noCopy) (hz : ∀ op ∈ prog, op.sizeOk) (s : ArrVals β) (outs : List (AOut β))
    (h : arrRun (fun _ => none) prog = some (s, outs)) :
    aRun A sz aStart prog = .error .exception ∨
    ∃ st, aRun A sz aStart prog = .ok (st, outs) ∧ ((∀ x, s x = none) → st.mem.live = []) := by
  rcases aRun_ok hsz hs32 A prog (AInv.start sz) hc hz outs h with he | ⟨st, he, I⟩
  · exact Or.inl he
  · refine Or.inr ⟨st, he, ?_⟩
    intro hn
    apply List.eq_nil_iff_forall_not_mem.2
    intro b hb
    obtain ⟨x, o, hx, _⟩ := I.owned b hb
    rw [(I.names x).2 (hn x)] at hx
    cases hx

/-- Two arrays, one resized after the other was written; what is read, and that all memory is given back. -/
def exProg : List (AOp ℤ) :=
  [.make 0 2, .make 1 1, .set 0 1 7, .set 1 0 5, .get 0 1, .resize 0 3, .set 0 2 9, .get 1 0, .get 0 2, .size 0,
   .destroy 0, .destroy 1]

example : ∃ s, arrRun (fun _ => none) exProg =
    some (s, [.elem (some 7), .elem (some 5), .elem (some 9), .size 3]) ∧ (∀ x, s x = none) := by
  refine ⟨_, rfl, ?_⟩
  intro x
  by_cases h0 : x = 0
  · subst h0; rfl
  · by_cases h1 : x = 1
    · subst h1; rfl
    · simp [Function.update_of_ne, h0, h1]

example : ∃ st, aRun bumpAlloc 8 aStart exProg =
    .ok (st, [.elem (some 7), .elem (some 5), .elem (some 9), .size 3]) ∧ st.mem.live = [] := ⟨_, rfl, rfl⟩

/-- A copy shares the elements of the original: a write to one is seen in the other; and when both are
destroyed the block is given back twice. For values both programs are fine. -/
theorem C174_violated_copy (v : β) :
    (∃ s, arrRun (fun _ => none) [.make 0 1, .copy 1 0, .set 0 0 v, .get 1 0] = some (s, [.elem none])) ∧
    (∃ st, aRun bumpAlloc 8 aStart [.make 0 1, .copy 1 0, .set 0 0 v, .get 1 0] = .ok (st, [.elem (some v)])) ∧
    (∃ s, arrRun (fun _ => none) ([.make 0 1, .copy 1 0, .destroy 1, .destroy 0] : List (AOp β)) = some (s, [])) ∧
    ∀ (A : CharAlloc β), A.pick ⟨[], fun _ => none⟩ 23 ≠ none →
      aRun A 8 aStart [.make 0 1, .copy 1 0, .destroy 1, .destroy 0] = .error .undefined := by
  refine ⟨⟨_, rfl⟩, ?_, ⟨_, rfl⟩, ?_⟩
  · have e : alignedBytes 8 1 = 23 := by decide
    have e2 : alignDown 16 = 16 := by decide
    simp [aRun, aStep, aStart, aAlloc, bumpAlloc, e, e2, aVar, aAddr, bind, Except.bind, pure, Except.pure]
  · intro A hp
    obtain ⟨p, hp⟩ := Option.ne_none_iff_exists'.1 hp
    have e : alignedBytes 8 1 = 23 := by decide
    simp [aRun, aStep, aStart, aAlloc, e, hp, aVar, aDelete, bind, Except.bind, pure, Except.pure]

example : (bumpAlloc (β := ℚ)).pick ⟨[], fun _ => none⟩ 23 ≠ none := by simp [bumpAlloc]

/-- `x = y` loses the block of `x`, which is never given back: here nobody holds an array any more, or the
program gives the block of `y` back twice. -/
theorem C174_violated_assign :
    (∃ s, arrRun (fun _ => none) ([.make 0 1, .dflt 1, .assign 0 1, .destroy 0, .destroy 1] : List (AOp β)) =
      some (s, []) ∧ ∀ x, s x = none) ∧
    (∀ (A : CharAlloc β), A.pick ⟨[], fun _ => none⟩ 23 ≠ none →
      ∃ st p, aRun A 8 aStart [.make 0 1, .dflt 1, .assign 0 1, .destroy 0, .destroy 1] = .ok (st, []) ∧
        st.mem.live = [(p, 23)]) ∧
    (∃ s, arrRun (fun _ => none) ([.make 0 1, .dflt 1, .assign 1 0, .destroy 0, .destroy 1] : List (AOp β)) =
      some (s, [])) ∧
    ∀ (A : CharAlloc β), A.pick ⟨[], fun _ => none⟩ 23 ≠ none →
      aRun A 8 aStart [.make 0 1, .dflt 1, .assign 1 0, .destroy 0, .destroy 1] = .error .undefined := by
  have e : alignedBytes 8 1 = 23 := by decide
  refine ⟨⟨_, rfl, ?_⟩, ?_, ⟨_, rfl⟩, ?_⟩
  · intro x
    by_cases h0 : x = 0
    · subst h0; rfl
    · by_cases h1 : x = 1
      · subst h1; rfl
      · simp [Function.update_of_ne, h0, h1]
  · intro A hp
    obtain ⟨p, hp⟩ := Option.ne_none_iff_exists'.1 hp
    simp [aRun, aStep, aStart, aAlloc, e, hp, aVar, aDelete, aDflt, bind, Except.bind, pure, Except.pure]
  · intro A hp
    obtain ⟨p, hp⟩ := Option.ne_none_iff_exists'.1 hp
    simp [aRun, aStep, aStart, aAlloc, e, hp, aVar, aDelete, aDflt, bind, Except.bind, pure, Except.pure]

end MaterSDK
