import Verif.Lemmas.DatasetAux
import Verif.Lemmas.MtpParamErr
import Verif.Spec.FolderNames

/-! # Helper lemmas for numbered folder names -/

namespace MaterSDK

theorem natOfDigits_cons (c : Char) (cs : Str) :
    natOfDigits (c :: cs) = digitVal c * 10 ^ cs.length + natOfDigits cs := by
  have := natOfDigits_append [c] cs
  rw [natOfDigits_singleton] at this
  exact this

theorem digitVal_isDigit {c : Char} (h : c.isDigit = true) : c.toNat = 48 + digitVal c ∧ digitVal c < 10 := by
  unfold Char.isDigit at h
  simp only [Bool.and_eq_true, decide_eq_true_eq, ge_iff_le, UInt32.le_iff_toNat_le] at h
  have h1 : 48 ≤ c.toNat := h.1
  have h2 : c.toNat ≤ 57 := h.2
  unfold digitVal
  have : '0'.toNat = 48 := rfl
  omega

theorem natOfDigits_lt : ∀ {s : Str}, (∀ c ∈ s, c.isDigit = true) → natOfDigits s < 10 ^ s.length
  | [], _ => by simp [natOfDigits]
  | c :: cs, h => by
    rw [natOfDigits_cons, List.length_cons, pow_succ]
    have h1 := (digitVal_isDigit (h c (by simp))).2
    have h2 := natOfDigits_lt (fun d hd => h d (by simp [hd]) : ∀ d ∈ cs, _)
    nlinarith

/-- Digit strings of the same length are ordered like their values. -/
theorem digits_lt : ∀ {a b : Str}, (∀ c ∈ a, c.isDigit = true) → (∀ c ∈ b, c.isDigit = true) →
    a.length = b.length → natOfDigits a < natOfDigits b → a < b
  | [], [], _, _, _, h => absurd h (lt_irrefl _)
  | [], _ :: _, _, _, hl, _ => by cases hl
  | _ :: _, [], _, _, hl, _ => by cases hl
  | c :: cs, d :: ds, ha, hb, hl, h => by
    have hl' : cs.length = ds.length := by simpa using hl
    obtain ⟨c1, c2⟩ := digitVal_isDigit (ha c (by simp))
    obtain ⟨d1, d2⟩ := digitVal_isDigit (hb d (by simp))
    have hcs := natOfDigits_lt (fun x hx => ha x (by simp [hx]) : ∀ x ∈ cs, _)
    have hds := natOfDigits_lt (fun x hx => hb x (by simp [hx]) : ∀ x ∈ ds, _)
    rw [natOfDigits_cons, natOfDigits_cons, hl'] at h
    rw [hl'] at hcs
    rw [List.cons_lt_cons_iff]
    rcases lt_trichotomy (digitVal c) (digitVal d) with hv | hv | hv
    · left
      rw [Char.lt_def, UInt32.lt_iff_toNat_lt]
      have : c.toNat < d.toNat := by omega
      exact this
    · right
      have e : c = d := by
        apply Char.ext
        apply UInt32.toNat.inj
        have : c.toNat = d.toNat := by omega
        exact this
      refine ⟨e, digits_lt (fun x hx => ha x (by simp [hx])) (fun x hx => hb x (by simp [hx])) hl' ?_⟩
      rw [hv] at h
      omega
    · exfalso
      have : (digitVal d + 1) * 10 ^ ds.length ≤ digitVal c * 10 ^ ds.length :=
        Nat.mul_le_mul_right _ hv
      nlinarith

theorem showNat_head : ∀ n : ℕ, 10 ≤ n → (showNat n).head? ≠ some '0' := by
  intro n
  induction n using Nat.strong_induction_on with
  | _ n ih =>
    intro h
    unfold showNat
    rw [dif_neg (by omega)]
    by_cases h2 : n / 10 < 10
    · unfold showNat
      rw [dif_pos h2]
      have hpos : 1 ≤ n / 10 := by omega
      generalize n / 10 = k at h2 hpos
      rw [List.singleton_append, List.head?_cons]
      interval_cases k <;> decide
    · have := ih (n / 10) (by omega) (by omega)
      cases hs : showNat (n / 10) with
      | nil => exact absurd hs (showNat_spec _).2.2
      | cons c cs =>
        rw [hs] at this
        simpa using this

/-- The digits of a padded number. -/
theorem padded_spec (n : ℕ) : let ds := List.replicate (3 - (showNat n).length) '0' ++ showNat n
    (∀ c ∈ ds, c.isDigit = true) ∧ natOfDigits ds = n ∧ 3 ≤ ds.length ∧ (n < 1000 → ds.length = 3) ∧
      (3 < ds.length → ds.head? ≠ some '0') := by
  obtain ⟨h1, h2, h3⟩ := showNat_spec n
  have hz : ∀ k, natOfDigits (List.replicate k '0') = 0 := by
    intro k
    induction k with
    | zero => rfl
    | succ k ih => rw [List.replicate_succ', natOfDigits_append, ih]; rfl
  refine ⟨?_, ?_, ?_, ?_, ?_⟩
  · intro c hc
    rcases List.mem_append.1 hc with hc | hc
    · rw [(List.mem_replicate.1 hc).2]; rfl
    · exact h2 c hc
  · rw [natOfDigits_append, hz, h1]; simp
  · simp; omega
  · intro hn
    have := showNat_length 2 n (by simpa using hn)
    simp; omega
  · intro hl
    simp only [List.length_append, List.length_replicate] at hl
    have h0 : 3 - (showNat n).length = 0 := by omega
    rw [h0, List.replicate_zero, List.nil_append]
    apply showNat_head
    by_contra hlt
    have := showNat_length 0 n (by omega)
    omega

theorem parseInt_digits {ds : Str} (h : ∀ c ∈ ds, c.isDigit = true) (hne : ds ≠ []) :
    parseInt ds = .ok (natOfDigits ds : ℤ) := by
  unfold parseInt
  rw [strip_of_no_space (fun c hc => digit_not_space (h c hc))]
  cases ds with
  | nil => exact absurd rfl hne
  | cons c cs =>
    rw [takeSign_digits (h c (by simp))]
    simp only
    rw [if_pos ⟨by simp, List.all_eq_true.2 h⟩]
    simp

/-- A list whose entry `k` is the prefix and the padded number `k`. -/
theorem numbered_of {pre : Str} {names : List Str}
    (h : ∀ (k : ℕ) nm, names[k]? = some nm → nm = pre ++ List.replicate (3 - (showNat k).length) '0' ++ showNat k) :
    Numbered pre names := by
  intro k nm hk
  obtain ⟨a, b, c, _, d⟩ := padded_spec k
  refine ⟨_, by rw [h k nm hk, List.append_assoc], c, ?_, d⟩
  rw [parseInt_digits a (by intro e; rw [e] at c; simp at c), b]

theorem append_lt_append {pre a b : Str} : pre ++ a < pre ++ b ↔ a < b := by
  induction pre with
  | nil => rfl
  | cons c cs ih =>
    rw [List.cons_append, List.cons_append, List.cons_lt_cons_iff]
    constructor
    · rintro (h | ⟨_, h⟩)
      · exact absurd h (Char.lt_irrefl c)
      · exact ih.1 h
    · intro h
      exact Or.inr ⟨rfl, ih.2 h⟩

theorem numbered_sorted {pre : Str} {names : List Str}
    (h : ∀ (k : ℕ) nm, names[k]? = some nm → nm = pre ++ List.replicate (3 - (showNat k).length) '0' ++ showNat k) :
    names.Pairwise (· < ·) ↔ names.length ≤ 1000 := by
  rw [List.pairwise_iff_getElem]
  constructor
  · intro hp
    by_contra hl
    have := hp 999 1000 (by omega) (by omega) (by omega)
    rw [h 999 _ (List.getElem?_eq_getElem (by omega)), h 1000 _ (List.getElem?_eq_getElem (by omega)),
      List.append_assoc, List.append_assoc, append_lt_append] at this
    revert this
    decide +kernel
  · intro hl i j hi hj hij
    rw [h i _ (List.getElem?_eq_getElem hi), h j _ (List.getElem?_eq_getElem hj),
      List.append_assoc, List.append_assoc, append_lt_append]
    obtain ⟨a1, b1, _, c1, _⟩ := padded_spec i
    obtain ⟨a2, b2, _, c2, _⟩ := padded_spec j
    exact digits_lt a1 a2 (by rw [c1 (by omega), c2 (by omega)]) (by rw [b1, b2]; exact hij)

theorem numbered_nodup {pre : Str} {names : List Str} (h : Numbered pre names) : names.Nodup := by
  rw [List.nodup_iff_getElem?_ne_getElem?]
  intro i j hij hj e
  rw [List.getElem?_eq_getElem (by omega), List.getElem?_eq_getElem hj] at e
  have e := Option.some.inj e
  obtain ⟨a, ha, _, va, _⟩ := h i _ (List.getElem?_eq_getElem (by omega))
  obtain ⟨b, hb, _, vb, _⟩ := h j _ (List.getElem?_eq_getElem hj)
  rw [ha, hb] at e
  rw [List.append_cancel_left e, vb] at va
  have := Except.ok.inj va
  omega

end MaterSDK
