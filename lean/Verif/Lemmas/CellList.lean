import Verif.Model.CellList
import Verif.Lemmas.Supercell
import Verif.Lemmas.Except
import Mathlib.Data.List.Nodup
import Mathlib.Data.List.Perm.Basic
import Mathlib.Data.List.Count
import Mathlib.Tactic.Ring
import Mathlib.Tactic.Linarith
import Mathlib.Tactic.FinCases
import Mathlib.Tactic.IntervalCases

/-! # Lemmas on the C++ memory model, loops, bins -/

namespace MaterSDK

open Classical

/-! ## Memory -/

theorem cGet_ok {α : Type} {l : List α} {i : ℤ} {a : α} :
    cGet l i = .ok a ↔ 0 ≤ i ∧ l[i.toNat]? = some a := by
  unfold cGet
  by_cases h : i < 0
  · rw [if_pos h]
    constructor
    · intro h'; cases h'
    · intro h'; omega
  · rw [if_neg h]
    cases h' : l[i.toNat]? with
    | none =>
      constructor
      · intro h'; cases h'
      · rintro ⟨_, h'⟩; cases h'
    | some b =>
      constructor
      · intro h'; cases h'; exact ⟨by omega, rfl⟩
      · rintro ⟨_, h'⟩; cases h'; rfl

theorem cGet_nat {α : Type} {l : List α} {i : ℕ} {a : α} (h : l[i]? = some a) :
    cGet l (i : ℤ) = .ok a := cGet_ok.2 ⟨by omega, by simpa using h⟩

theorem cGet_oob {α : Type} {l : List α} {i : ℤ} (h : i < 0 ∨ (l.length : ℤ) ≤ i) :
    cGet l i = .error .outOfBounds := by
  unfold cGet
  by_cases hi : i < 0
  · rw [if_pos hi]
  · rw [if_neg hi]
    have : l.length ≤ i.toNat := by omega
    rw [List.getElem?_eq_none this]

theorem cSet_ok {α : Type} {l : List α} {i : ℤ} {a : α} (h : 0 ≤ i ∧ i < l.length) :
    cSet l i a = .ok (l.set i.toNat a) := if_pos h

theorem cSet_oob {α : Type} {l : List α} {i : ℤ} {a : α} (h : i < 0 ∨ (l.length : ℤ) ≤ i) :
    cSet l i a = .error .outOfBounds := if_neg (by omega)

/-! ## Loops -/

theorem mem_cRange {lo hi x : ℤ} : x ∈ cRange lo hi ↔ lo ≤ x ∧ x ≤ hi := by
  unfold cRange
  rw [List.mem_map]
  constructor
  · rintro ⟨k, hk, rfl⟩
    rw [List.mem_range] at hk
    omega
  · rintro ⟨h1, h2⟩
    refine ⟨(x - lo).toNat, ?_, ?_⟩
    · rw [List.mem_range]; omega
    · omega

theorem cRange_nodup (lo hi : ℤ) : (cRange lo hi).Nodup := by
  unfold cRange
  apply List.Nodup.map _ List.nodup_range
  intro a b h
  simpa using h

theorem cRange_length (lo hi : ℤ) : (cRange lo hi).length = (hi - lo + 1).toNat := by
  simp [cRange]

theorem cRange_get {lo hi : ℤ} {k : ℕ} (h : lo + k ≤ hi) : (cRange lo hi)[k]? = some (lo + k) := by
  unfold cRange
  have : k < (hi - lo + 1).toNat := by omega
  simp [this]

theorem mem_cRange3 {lo hi x : Fin 3 → ℤ} :
    x ∈ cRange3 lo hi ↔ ∀ p, lo p ≤ x p ∧ x p ≤ hi p := by
  unfold cRange3
  simp only [List.mem_flatMap, List.mem_map, mem_cRange]
  constructor
  · rintro ⟨i, hi, j, hj, k, hk, rfl⟩ p
    fin_cases p <;> simpa
  · intro h
    refine ⟨x 0, h 0, x 1, h 1, x 2, h 2, ?_⟩
    funext p
    fin_cases p <;> rfl

theorem cRange3_nodup (lo hi : Fin 3 → ℤ) : (cRange3 lo hi).Nodup := by
  unfold cRange3
  rw [List.nodup_flatMap]
  refine ⟨fun i _ => ?_, ?_⟩
  · rw [List.nodup_flatMap]
    refine ⟨fun j _ => ?_, ?_⟩
    · apply List.Nodup.map _ (cRange_nodup _ _)
      intro a b hab
      have := congrFun hab 2
      simpa using this
    · apply List.Pairwise.imp _ (cRange_nodup _ _)
      intro a b hab x hx hy
      obtain ⟨k, _, rfl⟩ := List.mem_map.1 hx
      obtain ⟨k', _, he⟩ := List.mem_map.1 hy
      have := congrFun he 1
      simp at this
      exact hab this.symm
  · apply List.Pairwise.imp _ (cRange_nodup _ _)
    intro a b hab x hx hy
    obtain ⟨j, _, hx⟩ := List.mem_flatMap.1 hx
    obtain ⟨j', _, hy⟩ := List.mem_flatMap.1 hy
    obtain ⟨k, _, rfl⟩ := List.mem_map.1 hx
    obtain ⟨k', _, he⟩ := List.mem_map.1 hy
    have := congrFun he 0
    simp at this
    exact hab this.symm

theorem cRange3_length (lo hi : Fin 3 → ℤ) :
    (cRange3 lo hi).length
      = (hi 0 - lo 0 + 1).toNat * ((hi 1 - lo 1 + 1).toNat * (hi 2 - lo 2 + 1).toNat) := by
  simp [cRange3, List.length_flatMap, cRange_length]

/-- Element of a concatenation of blocks of equal length. -/
theorem flatMap_uniform_get {α β : Type} (l : List α) (f : α → List β) (n : ℕ)
    (hf : ∀ a ∈ l, (f a).length = n) (c j : ℕ) (a : α) (ha : l[c]? = some a) (hj : j < n) :
    (l.flatMap f)[c * n + j]? = (f a)[j]? := by
  induction l generalizing c with
  | nil => simp at ha
  | cons b l ih =>
    rw [List.flatMap_cons]
    have hb : (f b).length = n := hf b (by simp)
    cases c with
    | zero =>
      simp at ha
      subst ha
      rw [List.getElem?_append_left (by omega)]
      simp
    | succ c =>
      have e : (c + 1) * n + j = n + (c * n + j) := by ring
      rw [List.getElem?_append_right (by rw [hb, e]; omega), hb, e, Nat.add_sub_cancel_left]
      exact ih (fun a h => hf a (by simp [h])) c (by simpa using ha)

theorem flatMap_uniform_length {α β : Type} (l : List α) (f : α → List β) (n : ℕ)
    (hf : ∀ a ∈ l, (f a).length = n) : (l.flatMap f).length = l.length * n := by
  induction l with
  | nil => simp
  | cons b l ih =>
    rw [List.flatMap_cons, List.length_append, hf b (by simp), ih (fun a h => hf a (by simp [h])),
      List.length_cons]
    ring

theorem cRange3_get {lo hi : Fin 3 → ℤ} {i j k : ℕ} (hi0 : lo 0 + i ≤ hi 0) (hj : lo 1 + j ≤ hi 1)
    (hk : lo 2 + k ≤ hi 2) :
    (cRange3 lo hi)[i * ((hi 1 - lo 1 + 1).toNat * (hi 2 - lo 2 + 1).toNat) +
      (j * (hi 2 - lo 2 + 1).toNat + k)]? = some ![lo 0 + i, lo 1 + j, lo 2 + k] := by
  unfold cRange3
  have h2 : ∀ (x y : ℤ), ((cRange (lo 2) (hi 2)).map fun k => (![x, y, k] : Fin 3 → ℤ)).length
      = (hi 2 - lo 2 + 1).toNat := by intro x y; simp [cRange_length]
  have h1 : ∀ x : ℤ, ((cRange (lo 1) (hi 1)).flatMap fun j =>
      (cRange (lo 2) (hi 2)).map fun k => (![x, j, k] : Fin 3 → ℤ)).length
      = (hi 1 - lo 1 + 1).toNat * (hi 2 - lo 2 + 1).toNat := by
    intro x
    rw [flatMap_uniform_length _ _ _ (fun y _ => h2 x y), cRange_length]
  have hjk : j * (hi 2 - lo 2 + 1).toNat + k < (hi 1 - lo 1 + 1).toNat * (hi 2 - lo 2 + 1).toNat := by
    have a1 : j + 1 ≤ (hi 1 - lo 1 + 1).toNat := by omega
    have a2 : k < (hi 2 - lo 2 + 1).toNat := by omega
    calc j * (hi 2 - lo 2 + 1).toNat + k < (j + 1) * (hi 2 - lo 2 + 1).toNat := by
          rw [add_mul, one_mul]; omega
      _ ≤ _ := Nat.mul_le_mul_right _ a1
  rw [flatMap_uniform_get _ _ _ (fun x _ => h1 x) i _ _ (cRange_get hi0) hjk,
    flatMap_uniform_get _ _ _ (fun y _ => h2 _ y) j k _ (cRange_get hj) (by omega),
    List.getElem?_map, cRange_get hk]
  rfl

/-! ## Bins -/

/-- Following `nexts` from `h` meets the atoms `l` and stops. -/
inductive BinChain (nexts : List ℤ) : ℤ → List ℕ → Prop
  | nil : BinChain nexts (-1) []
  | cons (i : ℕ) (h : ℤ) (l : List ℕ) : nexts[i]? = some h → BinChain nexts h l →
      BinChain nexts (i : ℤ) (i :: l)

theorem BinChain.set {nexts : List ℤ} {h : ℤ} {l : List ℕ} (hc : BinChain nexts h l) (k : ℕ) (v : ℤ)
    (hk : k ∉ l) : BinChain (nexts.set k v) h l := by
  induction hc with
  | nil => exact .nil
  | cons i h l h1 _ ih =>
    simp only [List.mem_cons, not_or] at hk
    refine .cons i h l ?_ (ih hk.2)
    rw [List.getElem?_set_ne hk.1]
    exact h1

theorem BinChain.walk {nexts : List ℤ} {h : ℤ} {l : List ℕ} (hc : BinChain nexts h l) (n : ℕ)
    (hn : l.length ≤ n) : walkBin nexts n h = .ok (l.map (fun k : ℕ => (k : ℤ))) := by
  induction hc generalizing n with
  | nil => cases n <;> simp [walkBin]
  | cons i h l h1 _ ih =>
    cases n with
    | zero => simp at hn
    | succ n =>
      have : (i : ℤ) ≠ -1 := by omega
      rw [walkBin, if_neg this, cGet_nat h1, ok_bind, ih n (by simpa using hn), ok_bind]
      rfl

/-- The atoms of bin `b`, last one first. -/
def binMembers (bs : List ℤ) (b : ℤ) : List ℕ :=
  ((List.range bs.length).filter (fun i => bs[i]? = some b)).reverse

theorem mem_binMembers {bs : List ℤ} {b : ℤ} {i : ℕ} : i ∈ binMembers bs b ↔ bs[i]? = some b := by
  unfold binMembers
  rw [List.mem_reverse, List.mem_filter, List.mem_range]
  constructor
  · rintro ⟨_, h⟩; simpa using h
  · intro h
    obtain ⟨hi, _⟩ := List.getElem?_eq_some_iff.1 h
    exact ⟨hi, by simpa using h⟩

theorem binMembers_nodup (bs : List ℤ) (b : ℤ) : (binMembers bs b).Nodup := by
  unfold binMembers
  rw [List.nodup_reverse]
  exact List.nodup_range.filter _

theorem binMembers_length (bs : List ℤ) (b : ℤ) : (binMembers bs b).length ≤ bs.length := by
  unfold binMembers
  rw [List.length_reverse]
  have := List.length_filter_le (fun i => decide (bs[i]? = some b)) (List.range bs.length)
  simpa using this

theorem binMembers_snoc (bs : List ℤ) (x b : ℤ) :
    binMembers (bs ++ [x]) b = if x = b then bs.length :: binMembers bs b else binMembers bs b := by
  unfold binMembers
  rw [List.length_append, List.length_singleton, List.range_succ, List.filter_append,
    List.reverse_append]
  have e1 : (List.range bs.length).filter (fun i => decide ((bs ++ [x])[i]? = some b))
      = (List.range bs.length).filter (fun i => decide (bs[i]? = some b)) := by
    apply List.filter_congr
    intro i hi
    rw [List.mem_range] at hi
    rw [List.getElem?_append_left hi]
  rw [e1]
  by_cases h : x = b
  · simp [h]
  · simp [h]

theorem fillBins_spec (H : ℕ) (bs done : List ℤ) (heads nexts : List ℤ)
    (hb : ∀ b ∈ bs, 0 ≤ b ∧ b < H) (hH : heads.length = H)
    (hN : nexts.length = done.length + bs.length)
    (hinv : ∀ b : ℕ, b < H → ∃ h, heads[b]? = some h ∧ BinChain nexts h (binMembers done b)) :
    ∃ heads' nexts', fillBins bs done.length heads nexts = .ok (heads', nexts') ∧
      heads'.length = H ∧ nexts'.length = nexts.length ∧
      ∀ b : ℕ, b < H → ∃ h, heads'[b]? = some h ∧ BinChain nexts' h (binMembers (done ++ bs) b) := by
  induction bs generalizing done heads nexts with
  | nil => exact ⟨heads, nexts, rfl, hH, rfl, by simpa using hinv⟩
  | cons b bs ih =>
    obtain ⟨hb0, hb1⟩ := hb b (by simp)
    obtain ⟨h, hh, hc⟩ := hinv b.toNat (by omega)
    have hbz : ((b.toNat : ℕ) : ℤ) = b := by omega
    have hlt : done.length < nexts.length := by rw [hN, List.length_cons]; omega
    have g1 : cGet heads b = .ok h := cGet_ok.2 ⟨hb0, hh⟩
    have g2 : cSet nexts (done.length : ℤ) h = .ok (nexts.set done.length h) := by
      rw [cSet_ok (by omega)]; simp
    have g3 : cSet heads b (done.length : ℤ) = .ok (heads.set b.toNat done.length) :=
      cSet_ok (by omega)
    have hnew : ∀ b' : ℕ, b' < H → ∃ h', (heads.set b.toNat (done.length : ℤ))[b']? = some h' ∧
        BinChain (nexts.set done.length h) h' (binMembers (done ++ [b]) b') := by
      intro b' hb'
      have hfresh : ∀ c : ℤ, done.length ∉ binMembers done c := by
        intro c hm
        rw [mem_binMembers] at hm
        simp at hm
      by_cases hbb : b = (b' : ℤ)
      · refine ⟨done.length, ?_, ?_⟩
        · have : b.toNat = b' := by omega
          rw [this, List.getElem?_set_self (by omega)]
        · rw [binMembers_snoc, if_pos hbb]
          refine .cons _ h _ (List.getElem?_set_self hlt) ?_
          rw [← hbb]
          rw [hbz] at hc
          exact hc.set _ _ (hfresh _)
      · obtain ⟨h', e1, e2⟩ := hinv b' hb'
        refine ⟨h', ?_, ?_⟩
        · rw [List.getElem?_set_ne (by omega)]; exact e1
        · rw [binMembers_snoc, if_neg hbb]
          exact e2.set _ _ (hfresh _)
    obtain ⟨heads', nexts', r1, r2, r3, r4⟩ := ih (done ++ [b]) (heads.set b.toNat done.length)
      (nexts.set done.length h) (fun x hx => hb x (by simp [hx])) (by simpa using hH)
      (by rw [List.length_set, hN]; simp; omega) hnew
    refine ⟨heads', nexts', ?_, r2, by rw [r3, List.length_set], ?_⟩
    · rw [fillBins, g1, ok_bind, g2, ok_bind, g3, ok_bind]
      simpa using r1
    · simpa using r4

theorem fillBins_ok (H : ℕ) (bs : List ℤ) (hb : ∀ b ∈ bs, 0 ≤ b ∧ b < H) :
    ∃ heads nexts, fillBins bs 0 (List.replicate H (-1)) (List.replicate bs.length (-1))
        = .ok (heads, nexts) ∧ heads.length = H ∧ nexts.length = bs.length ∧
      ∀ b : ℕ, b < H → ∃ h, heads[b]? = some h ∧ BinChain nexts h (binMembers bs b) := by
  obtain ⟨heads, nexts, h1, h2, h3, h4⟩ := fillBins_spec H bs [] (List.replicate H (-1))
    (List.replicate bs.length (-1)) hb (by simp) (by simp) (by
      intro b hb
      refine ⟨-1, by simp [hb], ?_⟩
      exact .nil)
  exact ⟨heads, nexts, h1, h2, by simpa using h3, by simpa using h4⟩

/-- One atom outside the allocated bins is enough for an access outside the memory. -/
theorem fillBins_oob (bs : List ℤ) (ii : ℕ) (heads nexts : List ℤ)
    (hN : nexts.length = ii + bs.length)
    (h : ∃ b ∈ bs, b < 0 ∨ (heads.length : ℤ) ≤ b) :
    fillBins bs ii heads nexts = .error .outOfBounds := by
  induction bs generalizing ii heads nexts with
  | nil => simp at h
  | cons b bs ih =>
    rw [fillBins]
    by_cases hb : b < 0 ∨ (heads.length : ℤ) ≤ b
    · rw [cGet_oob hb]; rfl
    · have hb' : 0 ≤ b ∧ b < heads.length := by omega
      have hlt : b.toNat < heads.length := by omega
      have g1 : cGet heads b = .ok heads[b.toNat] :=
        cGet_ok.2 ⟨hb'.1, List.getElem?_eq_getElem hlt⟩
      rw [g1, ok_bind, cSet_ok (by rw [hN, List.length_cons]; push_cast; omega), ok_bind, cSet_ok hb', ok_bind]
      apply ih
      · rw [List.length_set, hN, List.length_cons]; omega
      · obtain ⟨x, hx, hx'⟩ := h
        rcases List.mem_cons.1 hx with rfl | hx
        · exact absurd hx' hb
        · exact ⟨x, hx, by simpa using hx'⟩

theorem linIdx_bounds {nb b : Fin 3 → ℤ} (h : ∀ p, 0 ≤ b p ∧ b p < nb p) :
    0 ≤ linIdx nb b ∧ linIdx nb b < nb 0 * nb 1 * nb 2 := by
  unfold linIdx
  have h0 := h 0
  have h1 := h 1
  have h2 := h 2
  constructor
  · have : 0 ≤ b 1 * nb 0 := mul_nonneg h1.1 (by omega)
    have : 0 ≤ b 2 * nb 0 * nb 1 := mul_nonneg (mul_nonneg h2.1 (by omega)) (by omega)
    omega
  · have e1 : b 1 * nb 0 ≤ (nb 1 - 1) * nb 0 := mul_le_mul_of_nonneg_right (by omega) (by omega)
    have e2 : b 2 * nb 0 * nb 1 ≤ (nb 2 - 1) * nb 0 * nb 1 :=
      mul_le_mul_of_nonneg_right (mul_le_mul_of_nonneg_right (by omega) (by omega)) (by omega)
    nlinarith

theorem linIdx_inj {nb b c : Fin 3 → ℤ} (hb : ∀ p, 0 ≤ b p ∧ b p < nb p)
    (hc : ∀ p, 0 ≤ c p ∧ c p < nb p) (h : linIdx nb b = linIdx nb c) : b = c := by
  unfold linIdx at h
  have b0 := hb 0; have b1 := hb 1; have b2 := hb 2
  have c0 := hc 0; have c1 := hc 1; have c2 := hc 2
  have e : ∀ (x y z n0 n1 : ℤ), x + y * n0 + z * n0 * n1 = x + n0 * (y + n1 * z) := by
    intros; ring
  rw [e, e] at h
  have h0 : b 0 = c 0 := by
    have := congrArg (fun t => t % nb 0) h
    simpa [Int.add_mul_emod_self_left, Int.emod_eq_of_lt b0.1 b0.2, Int.emod_eq_of_lt c0.1 c0.2]
      using this
  rw [h0] at h
  have hn0 : nb 0 ≠ 0 := by omega
  have h' : b 1 + nb 1 * b 2 = c 1 + nb 1 * c 2 := mul_left_cancel₀ hn0 (by linarith)
  have h1 : b 1 = c 1 := by
    have := congrArg (fun t => t % nb 1) h'
    simpa [Int.add_mul_emod_self_left, Int.emod_eq_of_lt b1.1 b1.2, Int.emod_eq_of_lt c1.1 c1.2]
      using this
  rw [h1] at h'
  have hn1 : nb 1 ≠ 0 := by omega
  have h2 : b 2 = c 2 := mul_left_cancel₀ hn1 (by linarith)
  funext p
  fin_cases p
  · exact h0
  · exact h1
  · exact h2

end MaterSDK
