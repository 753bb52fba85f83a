import Verif.Model.Dataset
import Verif.Spec.Dataset
import Verif.Lemmas.Num
import Verif.Lemmas.Dict
import Verif.Props.Elements
import Verif.Lemmas.TrajectoryAux
import Verif.Lemmas.StructureAux
import Mathlib.Tactic.Ring
import Mathlib.Tactic.Linarith

/-! # Lemmas on data sets -/

namespace MaterSDK

/-! ## Cutting into parts -/

/-- The bounds of the pieces. -/
def cutBounds (n p : Nat) : List (Nat × Nat) :=
  ((List.range (n / p)).map (fun (r : Nat) => (r * p, r * p + p))) ++
    (if n % p = 0 then [] else [(n / p * p, n)])

theorem slices_full {α : Type} (l : List α) (p q : Nat) :
    ((List.range q).map (fun r => pySlice l (r * p) (r * p + p))).flatten = l.take (q * p) := by
  induction q with
  | zero => simp
  | succ q ih =>
    rw [List.range_succ, List.map_append, List.flatten_append, ih]
    simp only [List.map_cons, List.map_nil, List.flatten_cons, List.flatten_nil, List.append_nil]
    unfold pySlice
    rw [show q * p + p - q * p = p by omega, show (q + 1) * p = q * p + p by ring, List.take_add]

theorem cutBounds_chunks {α : Type} (l : List α) (p : Nat) (hp : 1 ≤ p) :
    Chunks p l ((cutBounds l.length p).map (fun b => pySlice l b.1 b.2)) := by
  have hdm := Nat.div_add_mod l.length p
  have hmod := Nat.mod_lt l.length (by omega : p > 0)
  have hqp : l.length / p * p + l.length % p = l.length := by rw [Nat.mul_comm]; exact hdm
  have hfull : ∀ r < l.length / p, (pySlice l (r * p) (r * p + p)).length = p := by
    intro r hr
    unfold pySlice
    rw [List.length_take, List.length_drop]
    have : (r + 1) * p ≤ l.length / p * p := Nat.mul_le_mul_right p hr
    have e : (r + 1) * p = r * p + p := by ring
    omega
  unfold cutBounds
  split
  · rename_i h0
    rw [List.append_nil, List.map_map]
    have hfun : ((fun b : Nat × Nat => pySlice l b.1 b.2) ∘ fun r => (r * p, r * p + p)) =
        fun r => pySlice l (r * p) (r * p + p) := rfl
    rw [hfun]
    refine ⟨?_, ?_, ?_, ?_⟩
    · rw [slices_full, List.take_of_length_le (by omega)]
    · intro c hc
      obtain ⟨r, hr, rfl⟩ := List.mem_map.1 hc
      have := hfull r (List.mem_range.1 hr)
      intro h; rw [h] at this; simp at this; omega
    · intro c hc
      obtain ⟨r, hr, rfl⟩ := List.mem_map.1 hc
      exact (hfull r (List.mem_range.1 hr)).le
    · intro c hc
      obtain ⟨r, hr, rfl⟩ := List.mem_map.1 (List.mem_of_mem_dropLast hc)
      exact hfull r (List.mem_range.1 hr)
  · rename_i h0
    rw [List.map_append, List.map_map]
    have hfun : ((fun b : Nat × Nat => pySlice l b.1 b.2) ∘ fun r => (r * p, r * p + p)) =
        fun r => pySlice l (r * p) (r * p + p) := rfl
    rw [hfun]
    have hlast : (pySlice l (l.length / p * p) l.length).length = l.length % p := by
      unfold pySlice
      rw [List.length_take, List.length_drop]; omega
    refine ⟨?_, ?_, ?_, ?_⟩
    · rw [List.flatten_append, slices_full]
      simp only [List.map_cons, List.map_nil, List.flatten_cons, List.flatten_nil, List.append_nil]
      unfold pySlice
      rw [List.take_of_length_le (l := l.drop _) (by rw [List.length_drop]), List.take_append_drop]
    · intro c hc
      rcases List.mem_append.1 hc with hc | hc
      · obtain ⟨r, hr, rfl⟩ := List.mem_map.1 hc
        have := hfull r (List.mem_range.1 hr)
        intro h; rw [h] at this; simp at this; omega
      · simp at hc
        subst hc
        intro h; rw [h] at hlast; simp at hlast; omega
    · intro c hc
      rcases List.mem_append.1 hc with hc | hc
      · obtain ⟨r, hr, rfl⟩ := List.mem_map.1 hc
        exact (hfull r (List.mem_range.1 hr)).le
      · simp at hc
        subst hc
        omega
    · intro c hc
      simp only [List.map_cons, List.map_nil, List.dropLast_concat] at hc
      obtain ⟨r, hr, rfl⟩ := List.mem_map.1 hc
      exact hfull r (List.mem_range.1 hr)

/-- The bounds computed by `to_dir`. -/
theorem partBounds_some (n p : Nat) (hp : 1 ≤ p) :
    partBounds n (some (p : Int)) =
      .ok ((cutBounds n p).map (fun b => ((b.1 : Int), (b.2 : Int)))) := by
  unfold partBounds
  have h0 : ((p : Int)) ≠ 0 := by omega
  simp only [h0, if_false]
  have hnum : (Int.tdiv (n : Int) (p : Int) + 1).toNat = n / p + 1 := by
    rw [Int.tdiv_eq_ediv_of_nonneg (by omega)]
    have : (n : Int) / (p : Int) = ((n / p : Nat) : Int) := by simp
    rw [this]
    exact Int.toNat_natCast (n / p + 1)
  rw [hnum]
  have hdm : n / p * p + n % p = n := by rw [Nat.mul_comm]; exact Nat.div_add_mod n p
  congr 1
  have hfront : ∀ r < n / p, ((r : Int) * (p : Int), if r + 1 = n / p + 1 then (n : Int) else
      (r : Int) * (p : Int) + (p : Int)) = (((r * p : Nat) : Int), ((r * p + p : Nat) : Int)) := by
    intro r hr
    rw [if_neg (by omega)]
    push_cast; rfl
  rw [List.range_succ, List.map_append]
  simp only [List.map_cons, List.map_nil, if_true]
  have hmap : (List.range (n / p)).map (fun (r : Nat) => ((r : Int) * (p : Int),
      if r + 1 = n / p + 1 then (n : Int) else (r : Int) * (p : Int) + (p : Int))) =
      (List.range (n / p)).map (fun (r : Nat) => (((r * p : Nat) : Int), ((r * p + p : Nat) : Int))) :=
    List.map_congr_left (fun r hr => hfront r (List.mem_range.1 hr))
  rw [hmap]
  have hall : ∀ b ∈ (List.range (n / p)).map (fun (r : Nat) => (((r * p : Nat) : Int), ((r * p + p : Nat) : Int))),
      (fun (q : Int × Int) => decide (q.2 ≠ q.1)) b = true := by
    intro b hb
    obtain ⟨r, _, rfl⟩ := List.mem_map.1 hb
    simp only [decide_eq_true_eq]
    push_cast
    omega
  rw [List.takeWhile_append_of_pos hall]
  unfold cutBounds
  rw [List.map_append, List.map_map]
  congr 1
  by_cases hm : n % p = 0
  · rw [if_pos hm]
    have : (n : Int) = ((n / p : Nat) : Int) * (p : Int) := by
      have : n = n / p * p := by omega
      exact_mod_cast this
    rw [← this]
    simp
  · rw [if_neg hm]
    have : (n : Int) ≠ ((n / p : Nat) : Int) * (p : Int) := by
      intro h
      have : n = n / p * p := by exact_mod_cast h
      omega
    rw [List.takeWhile_cons_of_pos (by simpa using this)]
    simp

theorem partBounds_none (n : Nat) :
    partBounds n none = .ok (if n = 0 then [] else [((0 : Int), (n : Int))]) := by
  unfold partBounds
  by_cases h : n = 0
  · subst h; rfl
  · have h' : (n : Int) ≠ 0 := by omega
    simp [List.range_succ, h]

theorem partBounds_neg (n : Nat) (p : Int) (hp : p < 0) :
    partBounds n (some p) = .ok (if (n : Int) < -p ∧ n ≠ 0 then [((0 : Int), (n : Int))] else []) := by
  unfold partBounds
  have h0 : p ≠ 0 := by omega
  simp only [h0, if_false]
  congr 1
  have ht : Int.tdiv (n : Int) p = -((n : Int) / (-p)) := by
    conv_lhs => rw [show p = -(-p) by ring]
    rw [Int.tdiv_neg, Int.tdiv_eq_ediv_of_nonneg (by omega)]
  rw [ht]
  by_cases hlt : (n : Int) < -p
  · have hz : (n : Int) / (-p) = 0 := Int.ediv_eq_zero_of_lt (by omega) hlt
    rw [hz]
    by_cases hn : n = 0
    · subst hn; simp [List.range_succ]
    · have h' : (n : Int) ≠ 0 := by omega
      simp [List.range_succ, List.takeWhile, hlt, hn]
  · have hz : 1 ≤ (n : Int) / (-p) := by
      rw [Int.le_ediv_iff_mul_le (by omega)]; omega
    have : (-((n : Int) / (-p)) + 1).toNat = 0 := by omega
    rw [this, if_neg (by tauto)]
    rfl

/-- Number of sets of `StructCollection.to`. -/
theorem numSets_eq (n p : Nat) (hp : 1 ≤ p) :
    numSets n (p : Int) = .ok ((cutBounds n p).length : Int) := by
  unfold numSets
  have h0 : ((p : Int)) ≠ 0 := by omega
  simp only [h0, if_false]
  congr 1
  have hq : Int.fdiv (n : Int) (p : Int) = ((n / p : Nat) : Int) := by
    rw [Int.fdiv_eq_ediv_of_nonneg _ (by omega)]; simp
  rw [hq]
  have hdm : n / p * p + n % p = n := by rw [Nat.mul_comm]; exact Nat.div_add_mod n p
  unfold cutBounds
  by_cases hm : n % p = 0
  · rw [if_pos hm, if_neg]
    · simp
    · have : n = p * (n / p) := by rw [Nat.mul_comm]; omega
      have h2 : (n : Int) = (p : Int) * ((n / p : Nat) : Int) := by exact_mod_cast this
      omega
  · rw [if_neg hm, if_pos]
    · simp
    · have : p * (n / p) < n := by rw [Nat.mul_comm]; omega
      exact_mod_cast this

/-- Slices `[i p : (i+1) p]` are the pieces. -/
theorem cutBounds_slice {α : Type} (l : List α) (p : Nat) (hp : 1 ≤ p) (i : Nat)
    (hi : i < (cutBounds l.length p).length) :
    sliceI l ((i : Int) * (p : Int)) (((i : Int) + 1) * (p : Int)) =
      pySlice l ((cutBounds l.length p)[i]).1 ((cutBounds l.length p)[i]).2 := by
  have e1 : ((i : Int) * (p : Int)).toNat = i * p := by
    rw [← Nat.cast_mul, Int.toNat_natCast]
  have e2 : (((i : Int) + 1) * (p : Int)).toNat = i * p + p := by
    have : ((i : Int) + 1) * (p : Int) = ((i * p + p : Nat) : Int) := by push_cast; ring
    rw [this, Int.toNat_natCast]
  unfold sliceI
  rw [e1, e2]
  have hdm : l.length / p * p + l.length % p = l.length := by
    rw [Nat.mul_comm]; exact Nat.div_add_mod l.length p
  have hmod := Nat.mod_lt l.length (by omega : p > 0)
  by_cases hlt : i < l.length / p
  · have : (cutBounds l.length p)[i] = (i * p, i * p + p) := by
      simp only [cutBounds]
      rw [List.getElem_append_left (by simpa using hlt)]
      simp
    rw [this]
  · by_cases hm : l.length % p = 0
    · exfalso
      unfold cutBounds at hi
      rw [if_pos hm] at hi
      simp at hi; omega
    · have hi' : i = l.length / p := by
        unfold cutBounds at hi
        rw [if_neg hm] at hi
        simp at hi; omega
      subst hi'
      have : (cutBounds l.length p)[l.length / p] = (l.length / p * p, l.length) := by
        simp only [cutBounds]
        rw [List.getElem_append_right (by simp)]
        simp [hm]
      rw [this]
      unfold pySlice
      rw [List.take_of_length_le (by rw [List.length_drop]; omega),
        List.take_of_length_le (by rw [List.length_drop])]

/-! ## Dictionaries -/

theorem dictSet_new {α β : Type} [DecidableEq α] (d : List (α × β)) (k : α) (v : β)
    (h : k ∉ d.map Prod.fst) : dictSet d k v = d ++ [(k, v)] := by
  unfold dictSet; rw [if_neg h]

/-- Filling a dictionary with distinct keys keeps them in order. -/
theorem foldlM_dictSet {α β γ : Type} [DecidableEq α] (key : γ → Except PyErr α) (val : γ → β)
    (l : List γ) (d0 d : List (α × β))
    (h : l.foldlM (fun d p => do return dictSet d (← key p) (val p)) d0 = .ok d) :
    ∃ ks, l.mapM key = .ok ks ∧ ((d0.map Prod.fst ++ ks).Nodup → d = d0 ++ ks.zip (l.map val)) := by
  induction l generalizing d0 with
  | nil =>
    rw [List.foldlM_nil] at h
    have := Except.ok.inj h
    subst this
    exact ⟨[], rfl, by simp⟩
  | cons a l ih =>
    rw [List.foldlM_cons, bind_eq_ok] at h
    obtain ⟨d1, h1, h⟩ := h
    rw [bind_eq_ok] at h1
    obtain ⟨k, hk, h1⟩ := h1
    have h1 := Except.ok.inj h1
    obtain ⟨ks, hks, hd⟩ := ih d1 h
    refine ⟨k :: ks, by rw [List.mapM_cons, hk, ok_bind, hks, ok_bind]; rfl, ?_⟩
    intro hnd
    have hk0 : k ∉ d0.map Prod.fst := by
      intro hm
      rw [List.nodup_append] at hnd
      exact hnd.2.2 k hm k (by simp) rfl
    rw [dictSet_new _ _ _ hk0] at h1
    subst h1
    rw [hd (by simpa using hnd)]
    simp

/-- `d[k] += c` for every entry with key `k`. -/
def dictAdd {α : Type} [DecidableEq α] (d : List (α × Nat)) (k : α) (c : Nat) : List (α × Nat) :=
  d.map (fun p => if p.1 = k then (p.1, p.2 + c) else p)

theorem dictAdd_keys {α : Type} [DecidableEq α] (d : List (α × Nat)) (k : α) (c : Nat) :
    (dictAdd d k c).map Prod.fst = d.map Prod.fst := by
  unfold dictAdd
  rw [List.map_map]
  apply List.map_congr_left
  intro p _
  simp only [Function.comp]
  split <;> rfl

theorem dictAdd_add {α : Type} [DecidableEq α] (d : List (α × Nat)) (k : α) (a b : Nat) :
    dictAdd (dictAdd d k a) k b = dictAdd d k (a + b) := by
  unfold dictAdd
  rw [List.map_map]
  apply List.map_congr_left
  intro p _
  simp only [Function.comp]
  by_cases h : p.1 = k
  · simp [h, Nat.add_assoc]
  · simp [h]

theorem dictAdd_zero {α : Type} [DecidableEq α] (d : List (α × Nat)) (k : α) : dictAdd d k 0 = d := by
  unfold dictAdd
  conv_rhs => rw [← List.map_id d]
  apply List.map_congr_left
  intro p _
  split <;> rfl

theorem dictIncr_eq {α : Type} [DecidableEq α] (d : List (α × Nat)) (k : α)
    (hk : k ∈ d.map Prod.fst) (hnd : (d.map Prod.fst).Nodup) : dictIncr d k = .ok (dictAdd d k 1) := by
  obtain ⟨⟨k', v⟩, hp, rfl⟩ := List.mem_map.1 hk
  unfold dictIncr
  rw [(pyDictGet_ok hnd _ _).2 hp, ok_bind]
  unfold dictSet dictAdd
  rw [if_pos hk]
  refine congrArg Except.ok (List.map_congr_left ?_)
  intro q hq
  by_cases h : q.1 = k'
  · obtain ⟨qk, qv⟩ := q
    dsimp at h
    subst h
    have : qv = v := by
      have := List.inj_on_of_nodup_map hnd hq hp rfl
      exact (Prod.mk.inj this).2
    simp [this]
  · simp [h]

theorem foldlM_incr {α γ : Type} [DecidableEq α] [DecidableEq γ] (ts : List γ) (an : γ) (k : α)
    (key : Except PyErr α) (hkey : key = .ok k) (d : List (α × Nat))
    (hk : k ∈ d.map Prod.fst) (hnd : (d.map Prod.fst).Nodup) :
    ts.foldlM (fun d t => if t = an then do dictIncr d (← key) else .ok d) d =
      .ok (dictAdd d k (ts.count an)) := by
  subst hkey
  induction ts generalizing d with
  | nil => rw [List.foldlM_nil, List.count_nil, dictAdd_zero]; rfl
  | cons t ts ih =>
    rw [List.foldlM_cons]
    by_cases h : t = an
    · rw [if_pos h, ok_bind, dictIncr_eq d k hk hnd, ok_bind,
        ih _ (by rw [dictAdd_keys]; exact hk) (by rw [dictAdd_keys]; exact hnd), dictAdd_add, h,
        List.count_cons_self, Nat.add_comm]
    · rw [if_neg h, ok_bind, ih _ hk hnd, List.count_cons_of_ne (by simpa using h)]

theorem foldlM_counts {α γ : Type} [DecidableEq α] [DecidableEq γ] (key : γ → Except PyErr α)
    (ts : List γ) (ns : List γ) (ks : List α) (hks : ns.mapM key = .ok ks) (d : List (α × Nat))
    (hk : ∀ k ∈ ks, k ∈ d.map Prod.fst) (hnd : (d.map Prod.fst).Nodup) :
    ns.foldlM (fun d an =>
      ts.foldlM (fun d t => if t = an then do dictIncr d (← key an) else .ok d) d) d =
      .ok ((ks.zip (ns.map ts.count)).foldl (fun d p => dictAdd d p.1 p.2) d) := by
  induction ns generalizing ks d with
  | nil => simp only [List.mapM_nil] at hks; cases Except.ok.inj hks; rfl
  | cons a ns ih =>
    rw [List.mapM_cons, bind_eq_ok] at hks
    obtain ⟨k, hka, hks⟩ := hks
    rw [bind_eq_ok] at hks
    obtain ⟨ks', hks', hks⟩ := hks
    have := Except.ok.inj hks
    subst this
    rw [List.foldlM_cons, foldlM_incr ts a k (key a) hka d (hk k (by simp)) hnd, ok_bind,
      ih ks' hks' _ (fun k' hk' => by rw [dictAdd_keys]; exact hk k' (by simp [hk']))
        (by rw [dictAdd_keys]; exact hnd)]
    rfl

theorem foldl_dictAdd {α : Type} [DecidableEq α] (rest d : List (α × Nat)) :
    rest.foldl (fun d p => dictAdd d p.1 p.2) d =
      d.map (fun p => (p.1, p.2 + ((rest.filter (fun r => r.1 = p.1)).map Prod.snd).sum)) := by
  induction rest generalizing d with
  | nil => simp
  | cons r rest ih =>
    rw [List.foldl_cons, ih]
    unfold dictAdd
    rw [List.map_map]
    apply List.map_congr_left
    intro p _
    simp only [Function.comp]
    by_cases h : p.1 = r.1
    · simp [h, Nat.add_assoc]
    · have h' : ¬ r.1 = p.1 := fun e => h e.symm
      simp [h, h']

theorem filter_zip_nodup {α : Type} [DecidableEq α] (ks : List α) (cs : List Nat)
    (hlen : ks.length = cs.length) (hnd : ks.Nodup) :
    ks.map (fun k => (k, (((ks.zip cs).filter (fun r => r.1 = k)).map Prod.snd).sum)) = ks.zip cs := by
  induction ks generalizing cs with
  | nil => simp
  | cons k ks ih =>
    cases cs with
    | nil => simp at hlen
    | cons c cs =>
      rw [List.nodup_cons] at hnd
      have hlen' : ks.length = cs.length := by simpa using hlen
      have hz : ∀ r ∈ ks.zip cs, r.1 ≠ k := by
        intro r hr e
        exact hnd.1 (e ▸ (List.of_mem_zip hr).1)
      have hf : (ks.zip cs).filter (fun r => r.1 = k) = [] := by
        rw [List.filter_eq_nil_iff]
        intro r hr
        simpa using hz r hr
      rw [List.map_cons, List.zip_cons_cons]
      congr 1
      · simp [hf]
      · conv_rhs => rw [← ih cs hlen' hnd.2]
        apply List.map_congr_left
        intro k' hk'
        have : k ≠ k' := fun e => hnd.1 (e ▸ hk')
        simp [this]

theorem mapM_length {α β : Type} {f : α → Except PyErr β} {l : List α} {r : List β}
    (h : l.mapM f = .ok r) : r.length = l.length := (mapM_eq_ok.1 h).length_eq.symm

theorem mapM_nodup {α β : Type} {f : α → Except PyErr β}
    (hinj : ∀ a b c, f a = .ok c → f b = .ok c → a = b) {l : List α} {r : List β}
    (h : l.mapM f = .ok r) (hnd : l.Nodup) : r.Nodup := by
  rw [mapM_eq_ok] at h
  induction h with
  | nil => exact List.nodup_nil
  | @cons a b l r hab hlr ih =>
    rw [List.nodup_cons] at hnd ⊢
    refine ⟨?_, ih hnd.2⟩
    intro hb
    obtain ⟨i, hi, rfl⟩ := List.mem_iff_getElem.1 hb
    have hi' : i < l.length := by rw [hlr.length_eq]; exact hi
    have := List.Forall₂.get hlr hi' hi
    have e := hinj a _ _ hab this
    exact hnd.1 (e ▸ List.getElem_mem hi')

theorem compositionFor_ok {ns ts : List Int} {d : List (Str × Nat)} (hnd : ns.Nodup)
    (h : compositionFor ns ts = .ok d) :
    ∃ ks, ns.mapM specieOf = .ok ks ∧ ks.Nodup ∧ d = ks.zip (ns.map ts.count) := by
  unfold compositionFor at h
  rw [bind_eq_ok] at h
  obtain ⟨d0, h0, h⟩ := h
  obtain ⟨ks, hks, hd0⟩ := foldlM_dictSet specieOf (fun _ => 0) ns [] d0 h0
  have hknd : ks.Nodup := mapM_nodup C05_injective hks hnd
  have hd0 := hd0 (by simpa using hknd)
  rw [List.nil_append] at hd0
  have hl := mapM_length hks
  have hkeys : d0.map Prod.fst = ks := by
    rw [hd0, List.map_fst_zip (by simp [hl])]
  rw [foldlM_counts specieOf ts ns ks hks d0 (by rw [hkeys]; exact fun _ h => h)
    (by rw [hkeys]; exact hknd)] at h
  refine ⟨ks, hks, hknd, ?_⟩
  have h := Except.ok.inj h
  rw [← h, foldl_dictAdd]
  refine Eq.trans ?_ (filter_zip_nodup ks (ns.map ts.count) (by simp [hl]) hknd)
  have hz : d0 = ks.map (fun k => (k, 0)) := by
    rw [hd0]
    clear * - hl
    induction ks generalizing ns with
    | nil => simp
    | cons k ks ih =>
      cases ns with
      | nil => simp at hl
      | cons n ns =>
        rw [List.map_cons, List.zip_cons_cons, List.map_cons, ih (by simpa using hl)]
  rw [hz, List.map_map]
  apply List.map_congr_left
  intro k _
  simp [Function.comp]

theorem npUnique_spec (l : List Int) : ((npUnique l).map Prod.fst).Nodup ∧
    (∀ z, z ∈ (npUnique l).map Prod.fst ↔ z ∈ l) ∧
    (npUnique l).map Prod.snd = ((npUnique l).map Prod.fst).map l.count ∧
    ((npUnique l).map Prod.fst).Pairwise (· ≤ ·) := by
  have e : (npUnique l).map Prod.fst = l.dedup.insertionSort (· ≤ ·) := by
    unfold npUnique
    rw [List.map_map]
    exact List.map_id _
  refine ⟨?_, ?_, ?_, ?_⟩
  · rw [e, (List.perm_insertionSort _ _).nodup_iff]; exact List.nodup_dedup l
  · intro z; rw [e, List.mem_insertionSort, List.mem_dedup]
  · rw [e]; unfold npUnique; rw [List.map_map]; rfl
  · rw [e]; exact List.pairwise_insertionSort _ _

theorem compositionOf_ok {ts : List Int} {d : List (Str × Nat)} (h : compositionOf ts = .ok d) :
    ∃ (ns : List Int) (ks : List Str), ns.Nodup ∧ ns.Pairwise (· ≤ ·) ∧ (∀ z, z ∈ ns ↔ z ∈ ts) ∧ ns.mapM specieOf = .ok ks ∧
      ks.Nodup ∧ d = ks.zip (ns.map ts.count) := by
  obtain ⟨hnd, hmem, hcnt, hsort⟩ := npUnique_spec ts
  obtain ⟨ks, hks, hd⟩ := foldlM_dictSet (fun p : Int × Nat => specieOf p.1) Prod.snd _ [] d h
  have hks' : ((npUnique ts).map Prod.fst).mapM specieOf = .ok ks := by
    rw [mapM_eq_ok] at hks ⊢
    rw [List.forall₂_map_left_iff]
    exact hks
  have hknd : ks.Nodup := mapM_nodup C05_injective hks' hnd
  refine ⟨_, ks, hnd, hsort, hmem, hks', hknd, ?_⟩
  rw [hd (by simpa using hknd), List.nil_append, hcnt]

theorem numbers_of_species {ns : List Int} {ks : List Str} (h : ns.mapM specieOf = .ok ks) : ∃ zs, ks.mapM numberOf = .ok zs ∧ zs.map (fun (z : Nat) => (z : Int)) = ns := by
  rw [mapM_eq_ok] at h
  induction h with
  | nil => exact ⟨[], rfl, rfl⟩
  | @cons a k ns ks hak _ ih =>
    obtain ⟨zs, hzs, he⟩ := ih
    have h0 : 0 ≤ a := (((C05_specieOf a).1 k).1 hak).1
    obtain ⟨n, rfl⟩ := Int.eq_ofNat_of_zero_le h0
    have := (C05_inverse n k).1 hak
    refine ⟨n :: zs, by rw [List.mapM_cons, this, ok_bind, hzs, ok_bind]; rfl, by simp [he]⟩

end MaterSDK
