import Verif.Lemmas.MtpMoment
import Mathlib.Data.List.FinRange

/-! # Helper lemmas: shapes, tables and neighbour rows of the moments -/

namespace MaterSDK

/-! ### Shapes -/

/-- The number of open indices during the contraction. -/
def dimRun : ℕ → List ℕ → Option ℕ
  | d, [] => some d
  | d, n :: ns => if n ≤ d then dimRun (d - n) ns else if d = 0 then dimRun n ns else none

theorem dimRun_sum (ns : List ℕ) : dimRun ns.sum ns = some 0 := by
  induction ns with
  | nil => rfl
  | cons n ns ih =>
    rw [dimRun, List.sum_cons, if_pos (by omega)]
    have : n + ns.sum - n = ns.sum := by omega
    rw [this, ih]

theorem dimRun_even (ns : List ℕ) (hs : ns.Pairwise (fun a b => b ≤ a))
    (he : ∀ n, n ≠ 0 → Even (ns.count n)) : dimRun 0 ns = some 0 := by
  induction hl : ns.length using Nat.strong_induction_on generalizing ns with
  | _ k ih =>
    match ns, hs with
    | [], _ => rfl
    | a :: rest, hs =>
      by_cases ha : a = 0
      · subst ha
        have h0 : (0 :: rest).sum = 0 := by
          rw [List.sum_eq_zero_iff]
          intro x hx
          rcases List.mem_cons.1 hx with rfl | hx
          · rfl
          · exact Nat.le_zero.1 (List.rel_of_pairwise_cons hs hx)
        have := dimRun_sum (0 :: rest)
        rwa [h0] at this
      · have hev := he a ha
        rw [List.count_cons_self] at hev
        have hmem : a ∈ rest := by
          by_contra hn
          rw [List.count_eq_zero_of_not_mem hn] at hev
          exact absurd hev (by decide)
        match rest, hs, hmem, he, hev with
        | b :: rest', hs, hmem, he, hev =>
          have hba : b = a := by
            have h1 : b ≤ a := List.rel_of_pairwise_cons hs (by simp)
            rcases List.mem_cons.1 hmem with h | h
            · exact h.symm
            · exact le_antisymm h1 (List.rel_of_pairwise_cons (List.Pairwise.of_cons hs) h)
          subst hba
          rw [dimRun, if_neg (by omega), if_pos rfl, dimRun, if_pos le_rfl, Nat.sub_self]
          refine ih rest'.length (by simp [← hl]) rest' (List.Pairwise.of_cons (List.Pairwise.of_cons hs))
            ?_ rfl
          intro n hn
          have := he n hn
          by_cases hnb : n = b
          · subst hnb
            rw [List.count_cons_self, List.count_cons_self] at this
            rw [Nat.even_iff] at this ⊢
            omega
          · rw [List.count_cons_of_ne (fun h => hnb h.symm), List.count_cons_of_ne (fun h => hnb h.symm)] at this
            exact this

theorem countP_snd (c : List (ℕ × ℕ)) (n : ℕ) : c.countP (fun r => r.2 == n) = (c.map Prod.snd).count n := by
  rw [List.count, List.countP_map]
  rfl

theorem dimRun_kept {c : List (ℕ × ℕ)} (hs : c.Pairwise (fun a b => b.2 ≤ a.2)) (hk : mtpKept c = true) :
    dimRun 0 (c.map Prod.snd) = some 0 := by
  match c, hs, hk with
  | [p], _, hk =>
    have : p.2 = 0 := by simpa [mtpKept] using hk
    simp [dimRun, this]
  | p :: q :: rest, hs, hk =>
    have hs' : ((p :: q :: rest).map Prod.snd).Pairwise (fun a b => b ≤ a) := by
      rw [List.pairwise_map]
      exact hs
    by_cases h1 : ((q :: rest).map Prod.snd).sum = p.2
    · rw [List.map_cons]
      by_cases hp : p.2 = 0
      · rw [dimRun, if_pos (by omega)]
        have := dimRun_sum ((q :: rest).map Prod.snd)
        rw [h1, hp] at this
        rwa [hp]
      · rw [dimRun, if_neg (by omega), if_pos rfl, ← h1]
        exact dimRun_sum _
    · refine dimRun_even _ hs' ?_
      intro n hn
      rw [← countP_snd]
      have hm := ((mtpKept_iff hs).1 hk).2
      rcases hm with ⟨r, hr, he⟩ | hm
      · exfalso
        apply h1
        rw [List.map_cons, List.sum_cons] at he
        have hr1 : r.2 ≤ p.2 := by
          rcases List.mem_cons.1 hr with rfl | hr
          · exact le_rfl
          · exact List.rel_of_pairwise_cons hs hr
        rcases List.mem_cons.1 hr with rfl | hr
        · omega
        · have := List.le_sum_of_mem (List.mem_map_of_mem (f := Prod.snd) hr)
          omega
      · exact hm n hn

/-- Up to four moments the contraction only succeeds for combinations that pass the rule. -/
theorem kept_of_dimRun {c : List (ℕ × ℕ)} (hs : c.Pairwise (fun a b => b.2 ≤ a.2)) (hc : c ≠ [])
    (h4 : c.length ≤ 4) (hd : dimRun 0 (c.map Prod.snd) = some 0) : mtpKept c = true := by
  match c, hs, hc, h4, hd with
  | [p], _, _, _, hd =>
    by_cases h : p.2 = 0
    · simp [mtpKept, h]
    · simp [dimRun, h] at hd
  | [p, q], hs, _, _, hd =>
    simp only [List.pairwise_cons, List.mem_singleton, forall_eq] at hs
    simp only [List.map_cons, List.map_nil, dimRun] at hd
    have : q.2 = p.2 := by
      split_ifs at hd <;> simp at hd <;> omega
    simp [mtpKept, this]
  | [p, q, r], hs, _, _, hd =>
    simp only [List.pairwise_cons, List.mem_cons, List.not_mem_nil, or_false, forall_eq_or_imp, forall_eq] at hs
    simp only [List.map_cons, List.map_nil, dimRun] at hd
    have : q.2 + r.2 = p.2 := by
      split_ifs at hd <;> simp at hd <;> omega
    simp [mtpKept, this]
  | [p, q, r, s], hs, _, _, hd =>
    simp only [List.pairwise_cons, List.mem_cons, List.not_mem_nil, or_false, forall_eq_or_imp, forall_eq] at hs
    simp only [List.map_cons, List.map_nil, dimRun] at hd
    have : q.2 + (r.2 + s.2) = p.2 ∨ (p.2 = q.2 ∧ r.2 = s.2) := by
      split_ifs at hd <;> simp at hd <;> omega
    rcases this with h | ⟨h1, h2⟩
    · simp [mtpKept, h]
    · by_cases h3 : q.2 = s.2
      · simp [mtpKept, h1, h2, h3]
      · have h3' : ¬ s.2 = q.2 := fun h => h3 h.symm
        simp [mtpKept, h1, h2, h3, h3']

theorem moment_dim {P : MtpParams} {mu nu : ℕ} {iidx : ℤ} {ifirst types : List ℤ} {rcs : List (Vec ℝ)} {t : Tens}
    (h : mtpMoment P mu nu iidx ifirst types rcs = .ok t) : t.dim = nu := by
  unfold mtpMoment at h
  obtain ⟨zi, _, h⟩ := bind_eq_ok.1 h
  split at h
  · cases h
  · obtain ⟨rows, _, h⟩ := bind_eq_ok.1 h
    rw [← Except.ok.inj h]

theorem bLoop_dim {P : MtpParams} {iidx : ℤ} {ifirst types : List ℤ} {rcs : List (Vec ℝ)} {comb : List (ℕ × ℕ)}
    {p t : Tens} (h : mtpBLoop P iidx ifirst types rcs p comb = .ok t) :
    dimRun p.dim (comb.map Prod.snd) = some t.dim := by
  induction comb generalizing p with
  | nil =>
    rw [← Except.ok.inj h]
    rfl
  | cons c cs ih =>
    unfold mtpBLoop at h
    obtain ⟨m, hm, h⟩ := bind_eq_ok.1 h
    obtain ⟨q, hq, h⟩ := bind_eq_ok.1 h
    have hd := moment_dim hm
    have := ih h
    rw [List.map_cons, dimRun, ← hd]
    unfold mtpContract at hq
    split at hq
    · next hle =>
      rw [if_pos hle]
      rw [← Except.ok.inj hq] at this
      exact this
    · next hle =>
      rw [if_neg hle]
      split at hq
      · next h0 =>
        rw [if_pos h0]
        rw [← Except.ok.inj hq] at this
        exact this
      · cases hq

theorem bLoop_ok {P : MtpParams} {iidx : ℤ} {ifirst types : List ℤ} {rcs : List (Vec ℝ)} {comb : List (ℕ × ℕ)}
    {p : Tens} {d : ℕ} (hm : ∀ c ∈ comb, ∃ t, mtpMoment P c.1 c.2 iidx ifirst types rcs = .ok t)
    (hd : dimRun p.dim (comb.map Prod.snd) = some d) :
    ∃ t, mtpBLoop P iidx ifirst types rcs p comb = .ok t ∧ t.dim = d := by
  induction comb generalizing p with
  | nil => exact ⟨p, rfl, by simpa [dimRun] using hd⟩
  | cons c cs ih =>
    obtain ⟨m, hm1⟩ := hm c (by simp)
    have hmd := moment_dim hm1
    rw [List.map_cons, dimRun, ← hmd] at hd
    unfold mtpBLoop
    rw [hm1, ok_bind]
    unfold mtpContract
    by_cases hle : m.dim ≤ p.dim
    · rw [if_pos hle] at hd ⊢
      rw [ok_bind]
      exact ih (fun c hc => hm c (by simp [hc])) hd
    · rw [if_neg hle] at hd ⊢
      by_cases h0 : p.dim = 0
      · rw [if_pos h0] at hd ⊢
        rw [ok_bind]
        exact ih (fun c hc => hm c (by simp [hc])) hd
      · rw [if_neg h0] at hd
        simp at hd

/-! ### Tables -/

theorem torchGet_ok {α : Type} {l : List α} {i : ℤ} (h1 : -(l.length : ℤ) ≤ i) (h2 : i < l.length) :
    ∃ x ∈ l, torchGet l i = .ok x := by
  unfold torchGet
  simp only
  have hk : 0 ≤ (if i < 0 then i + l.length else i) ∧ (if i < 0 then i + l.length else i) < l.length := by
    split <;> omega
  rw [if_pos hk.1]
  have hlt : (if i < 0 then i + (l.length : ℤ) else i).toNat < l.length := by omega
  rw [List.getElem?_eq_getElem hlt]
  exact ⟨_, List.getElem_mem hlt, rfl⟩

theorem torchGet_err {α : Type} {l : List α} {i : ℤ} {e : CErr} (h : torchGet l i = .error e) : e = .exception := by
  unfold torchGet at h
  simp only at h
  generalize (if i < 0 then i + (l.length : ℤ) else i) = k at h
  split at h
  · split at h
    · cases h
    · cases h; rfl
  · cases h; rfl

theorem torchGet_mem {α : Type} {l : List α} {i : ℤ} {x : α} (h : torchGet l i = .ok x) : x ∈ l := by
  unfold torchGet at h
  simp only at h
  generalize (if i < 0 then i + (l.length : ℤ) else i) = k at h
  split at h
  · split at h
    · next y hy =>
      rw [← Except.ok.inj h]
      exact List.mem_of_getElem? hy
    · cases h
  · cases h

theorem paramGet_err {α : Type} {l : List α} {i : ℤ} {e : CErr} (h : paramGet l i = .error e) : e = .exception := by
  unfold paramGet at h
  split at h
  · split at h
    · cases h
    · cases h; rfl
  · cases h; rfl

theorem torchGet_nat {α : Type} {l : List α} {i : ℕ} (h : i < l.length) : torchGet l (i : ℤ) = .ok l[i] := by
  unfold torchGet
  simp only
  have e : (if (i : ℤ) < 0 then (i : ℤ) + l.length else i) = i := if_neg (by omega)
  rw [e, if_pos (by omega), Int.toNat_natCast, List.getElem?_eq_getElem h]

theorem tableIdx_lt {nmus nt mu zi zj : ℕ} (h1 : mu < nmus) (h2 : zi < nt) (h3 : zj < nt) :
    mu * nt * nt + zi * nt + zj < nmus * nt * nt := by
  have a : (mu + 1) * nt * nt ≤ nmus * nt * nt :=
    Nat.mul_le_mul_right _ (Nat.mul_le_mul_right _ h1)
  have b : (zi + 1) * nt ≤ nt * nt := Nat.mul_le_mul_right _ h2
  have c : (mu + 1) * nt * nt = mu * nt * nt + nt * nt := by ring
  have d : (zi + 1) * nt = zi * nt + nt := by ring
  omega

theorem momentRow_ok {P : MtpParams} {nmus mu : ℕ} {types : List ℤ} {zi : ℤ} {e : ℤ × Vec ℝ}
    (hc : P.coeffs.length = nmus * P.ntypes * P.ntypes) (hmu : mu < nmus)
    (ht : ∀ t ∈ types, 0 ≤ t ∧ t < P.ntypes) (hzi : 0 ≤ zi ∧ zi < P.ntypes)
    (he : -(types.length : ℤ) ≤ e.1 ∧ e.1 < types.length) : ∃ w, momentRow P mu types zi e = .ok w ∧ w.2 = e.2 := by
  obtain ⟨zj, hzj, h1⟩ := torchGet_ok he.1 he.2
  unfold momentRow
  rw [h1, ok_bind]
  obtain ⟨a, ha⟩ := Int.eq_ofNat_of_zero_le hzi.1
  obtain ⟨b, hb⟩ := Int.eq_ofNat_of_zero_le (ht zj hzj).1
  have ha2 : a < P.ntypes := by have := hzi.2; omega
  have hb2 : b < P.ntypes := by have := (ht zj hzj).2; omega
  have hk : ((mu : ℤ) * P.ntypes * P.ntypes + zi * P.ntypes + zj)
      = ((mu * P.ntypes * P.ntypes + a * P.ntypes + b : ℕ) : ℤ) := by
    rw [ha, hb]
    push_cast
    rfl
  have hlt : mu * P.ntypes * P.ntypes + a * P.ntypes + b < P.coeffs.length := by
    rw [hc]
    exact tableIdx_lt hmu ha2 hb2
  unfold paramGet
  rw [hk, if_pos (Int.natCast_nonneg _), Int.toNat_natCast, List.getElem?_eq_getElem hlt]
  exact ⟨_, rfl, rfl⟩

/-! ### Neighbour rows -/

theorem momentRow_err {P : MtpParams} {mu : ℕ} {types : List ℤ} {zi : ℤ} {e : ℤ × Vec ℝ} {er : CErr}
    (h : momentRow P mu types zi e = .error er) : er = .exception := by
  unfold momentRow at h
  cases h1 : torchGet types e.1 with
  | error e1 =>
    rw [h1, error_bind] at h
    have := torchGet_err h1
    cases h
    exact this
  | ok zj =>
    rw [h1, ok_bind] at h
    cases h2 : paramGet P.coeffs (mu * P.ntypes * P.ntypes + zi * P.ntypes + zj) with
    | error e1 =>
      rw [h2, error_bind] at h
      have := paramGet_err h2
      cases h
      exact this
    | ok cf =>
      rw [h2, ok_bind] at h
      cases h

theorem mapM_perm_exRel {α β : Type} {f : α → Except CErr β} (hf : ∀ a e, f a = .error e → e = .exception)
    {l k : List α} (h : l.Perm k) : ExRel (fun a b : List β => a.Perm b) (l.mapM f) (k.mapM f) := by
  have herr : ∀ (l : List α) e, l.mapM f = .error e → e = .exception := by
    intro l
    induction l with
    | nil => intro e h; cases h
    | cons a l ih =>
      intro e h
      rw [List.mapM_cons] at h
      cases ha : f a with
      | error e' =>
        rw [ha, error_bind] at h
        cases h
        exact hf a _ ha
      | ok b =>
        rw [ha, ok_bind] at h
        cases hl : l.mapM f with
        | error e' =>
          rw [hl, error_bind] at h
          cases h
          exact ih _ hl
        | ok bs =>
          rw [hl, ok_bind] at h
          cases h
  have trans : ∀ {x y z : Except CErr (List β)}, ExRel (fun a b : List β => a.Perm b) x y →
      ExRel (fun a b : List β => a.Perm b) y z → ExRel (fun a b : List β => a.Perm b) x z := by
    intro x y z h1 h2
    match x, y, z, h1, h2 with
    | .ok a, .ok b, .ok c, h1, h2 => exact h1.trans h2
    | .error a, .error b, .error c, h1, h2 => exact Eq.trans h1 h2
  induction h with
  | nil => exact List.Perm.refl _
  | cons a _ ih =>
    rw [List.mapM_cons, List.mapM_cons]
    refine (ExRel.of_eq rfl).bind ?_
    rintro b _ rfl
    refine ih.bind ?_
    intro as bs hp
    exact hp.cons b
  | swap a b l =>
    simp only [List.mapM_cons]
    cases ha : f a with
    | error e =>
      have he := hf a e ha
      subst he
      cases hb : f b with
      | error e' =>
        have he' := hf b e' hb
        subst he'
        rfl
      | ok y => rfl
    | ok x =>
      cases hb : f b with
      | error e' => 
        have he' := hf b e' hb
        subst he'
        rfl
      | ok y =>
        cases hl : l.mapM f with
        | error e =>  rfl
        | ok zs => exact List.Perm.swap _ _ _
  | trans _ _ ih1 ih2 => exact trans ih1 ih2

theorem moment_perm (P : MtpParams) (mu nu : ℕ) (iidx : ℤ) (types : List ℤ) {ifirst ifirst' : List ℤ}
    {rcs rcs' : List (Vec ℝ)} (h1 : ifirst.length = rcs.length) (h2 : ifirst'.length = rcs'.length)
    (hp : (List.zip ifirst rcs).Perm (List.zip ifirst' rcs')) :
    mtpMoment P mu nu iidx ifirst types rcs = mtpMoment P mu nu iidx ifirst' types rcs' := by
  unfold mtpMoment
  refine ExRel.eq ((ExRel.of_eq rfl).bind ?_)
  rintro zi _ rfl
  rw [if_neg (by omega), if_neg (by omega)]
  refine (mapM_perm_exRel (fun a e he => momentRow_err he) hp).bind ?_
  intro rows rows' hr
  refine congrArg (Tens.mk nu) ?_
  funext idx
  exact (hr.map _).sum_eq

theorem moment_pad {P : MtpParams} {nmus mu : ℕ} (nu : ℕ) (iidx : ℤ) {types : List ℤ} {f g : List ℤ}
    {x y : List (Vec ℝ)} (h1 : f.length = x.length) (h2 : g.length = y.length)
    (hc : P.coeffs.length = nmus * P.ntypes * P.ntypes) (hmu : mu < nmus)
    (ht : ∀ t ∈ types, 0 ≤ t ∧ t < P.ntypes) (hg : ∀ j ∈ g, -(types.length : ℤ) ≤ j ∧ j < types.length)
    (hy : ∀ r ∈ y, norm3 r < P.rs ∨ P.rcut ≤ norm3 r) :
    mtpMoment P mu nu iidx (f ++ g) types (x ++ y) = mtpMoment P mu nu iidx f types x := by
  unfold mtpMoment
  refine ExRel.eq ?_
  cases hz : torchGet types iidx with
  | error e => rfl
  | ok zi =>
    have hzi : 0 ≤ zi ∧ zi < P.ntypes := ht _ (torchGet_mem hz)
    rw [ok_bind, ok_bind, List.length_append, List.length_append, if_neg (by omega), if_neg (by omega),
      List.zip_append h1]
    have hm : ∃ ws, (List.zip g y).mapM (momentRow P mu types zi) = .ok ws ∧ ∀ w ∈ ws, w.1 = 0 := by
      have hall : ∀ e ∈ List.zip g y, ∃ w : ℝ × Vec ℝ, momentRow P mu types zi e = .ok w ∧ w.1 = 0 := by
        intro e he
        obtain ⟨he1, he2⟩ := List.of_mem_zip he
        obtain ⟨w, hw, _⟩ := momentRow_ok (e := e) hc hmu ht hzi (hg _ he1)
        refine ⟨w, hw, ?_⟩
        unfold momentRow at hw
        obtain ⟨zj, _, hw⟩ := bind_eq_ok.1 hw
        obtain ⟨cf, _, hw⟩ := bind_eq_ok.1 hw
        rw [← Except.ok.inj hw]
        simp only
        rw [mtpDist_eq, mtpQ_out P.size (hy _ he2), List.map_replicate]
        unfold torchDot
        rw [List.sum_eq_zero]
        intro z hz
        obtain ⟨i, hi⟩ := List.mem_iff_getElem.1 hz
        obtain ⟨hi, rfl⟩ := hi
        simp
      generalize List.zip g y = l at hall
      induction l with
      | nil => exact ⟨[], rfl, by simp⟩
      | cons e l ih =>
        obtain ⟨w, hw, hw0⟩ := hall e (by simp)
        obtain ⟨ws, hws, hws0⟩ := ih (fun e he => hall e (by simp [he]))
        refine ⟨w :: ws, ?_, ?_⟩
        · rw [List.mapM_cons, hw, ok_bind, hws, ok_bind]; rfl
        · intro v hv
          rcases List.mem_cons.1 hv with rfl | hv
          · exact hw0
          · exact hws0 v hv
    obtain ⟨ws, hws, hws0⟩ := hm
    rw [List.mapM_append, hws]
    cases hfx : (List.zip f x).mapM (momentRow P mu types zi) with
    | error e => rfl
    | ok rows =>
      refine congrArg (Tens.mk nu) ?_
      funext idx
      rw [List.map_append, List.sum_append]
      have : (ws.map (fun w => w.1 * angularPow w.2 nu idx)).sum = 0 := by
        rw [List.sum_eq_zero]
        intro z hz
        obtain ⟨w, hw, rfl⟩ := List.mem_map.1 hz
        rw [hws0 w hw, zero_mul]
      rw [this, add_zero]

theorem bLoop_congr {P : MtpParams} {iidx : ℤ} {types : List ℤ} {f f' : List ℤ} {x x' : List (Vec ℝ)}
    {comb : List (ℕ × ℕ)} (h : ∀ c ∈ comb, mtpMoment P c.1 c.2 iidx f types x = mtpMoment P c.1 c.2 iidx f' types x')
    (p : Tens) : mtpBLoop P iidx f types x p comb = mtpBLoop P iidx f' types x' p comb := by
  induction comb generalizing p with
  | nil => rfl
  | cons c cs ih =>
    unfold mtpBLoop
    rw [h c (by simp)]
    refine bind_congr ?_
    intro m
    refine bind_congr ?_
    intro q
    exact ih (fun c hc => h c (by simp [hc])) q

/-! ### Whole arrays -/

theorem zipIdx_ofFn {α : Type} {n : ℕ} (f : Fin n → α) :
    (List.ofFn f).zipIdx = (List.finRange n).map (fun i => (f i, i.1)) := by
  apply List.ext_getElem
  · simp
  · intro i h1 h2
    simp

theorem mapM_map_eq {α β γ : Type} (g : α → β) (f : β → Except CErr γ) (l : List α) :
    (l.map g).mapM f = l.mapM (fun a => f (g a)) := by
  induction l with
  | nil => rfl
  | cons a l ih => rw [List.map_cons, List.mapM_cons, List.mapM_cons, ih]

theorem mapM_congr_mem {α β : Type} {f g : α → Except CErr β} {l : List α} (h : ∀ a ∈ l, f a = g a) :
    l.mapM f = l.mapM g := by
  induction l with
  | nil => rfl
  | cons a l ih => rw [List.mapM_cons, List.mapM_cons, h a (by simp), ih (fun b hb => h b (by simp [hb]))]

theorem mtpForward_ofFn (P : MtpParams) (combs : List (List (ℕ × ℕ))) {nb nc nn : ℕ} (ilist : Fin nb → Fin nc → ℤ)
    (fn : Fin nb → Fin nc → Fin nn → ℤ) (rcs : Fin nb → Fin nc → Fin nn → Vec ℝ) (types : List ℤ) :
    mtpForward P combs (List.ofFn fun b => List.ofFn (ilist b))
      (List.ofFn fun b => List.ofFn fun c => List.ofFn (fn b c))
      (List.ofFn fun b => List.ofFn fun c => List.ofFn (rcs b c)) types
    = (List.finRange nb).mapM (fun b => (List.finRange nc).mapM (fun c => combs.mapM (fun comb =>
        mtpBasis P (ilist b c) (List.ofFn (fn b c)) types (List.ofFn (rcs b c)) comb))) := by
  unfold mtpForward
  rw [zipIdx_ofFn, mapM_map_eq]
  refine mapM_congr_mem ?_
  intro b _
  simp only
  rw [zipIdx_ofFn, mapM_map_eq]
  refine mapM_congr_mem ?_
  intro c _
  refine mapM_congr_mem ?_
  intro comb _
  rw [torchGet_nat (by simp), ok_bind, List.getElem_ofFn, torchGet_nat (by simp), ok_bind, List.getElem_ofFn,
    torchGet_nat (by simp), ok_bind, List.getElem_ofFn, torchGet_nat (by simp), ok_bind, List.getElem_ofFn]

theorem finRange_mapM_ok {n : ℕ} {β : Type} (f : Fin n → Except CErr β) (g : Fin n → β) (h : ∀ i, f i = .ok (g i)) :
    (List.finRange n).mapM f = .ok (List.ofFn g) := by
  rw [List.ofFn_eq_map]
  exact mapM_map_ok (fun i _ => h i)

/-- All entries of the arrays refer to atoms and types that exist, and there are enough coefficients. -/
theorem basis_ok {S : NuSort} {maxLevel : ℤ} (hmax : 2 ≤ maxLevel) {P : MtpParams}
    (hc : P.coeffs.length = (mtpNmus maxLevel).toNat * P.ntypes * P.ntypes) {types : List ℤ}
    (ht : ∀ t ∈ types, 0 ≤ t ∧ t < P.ntypes) {iidx : ℤ} (hi : 0 ≤ iidx ∧ iidx < types.length) {ifirst : List ℤ}
    (hf : ∀ j ∈ ifirst, -(types.length : ℤ) ≤ j ∧ j < types.length) {rcs : List (Vec ℝ)}
    (hlen : ifirst.length ≤ rcs.length) {comb : List (ℕ × ℕ)}
    (hmu : ∀ c ∈ comb, (c.1 : ℤ) < mtpNmus maxLevel) (hd : dimRun 0 (comb.map Prod.snd) = some 0) :
    ∃ v, mtpBasis P iidx ifirst types rcs comb = .ok v := by
  have hm : ∀ c ∈ comb, ∃ t, mtpMoment P c.1 c.2 iidx ifirst types rcs = .ok t := by
    intro c hcm
    have hmu' : c.1 < (mtpNmus maxLevel).toNat := by have := hmu c hcm; omega
    obtain ⟨zi, hzi, h1⟩ := torchGet_ok (l := types) (i := iidx) (by omega) hi.2
    unfold mtpMoment
    rw [h1, ok_bind, if_neg (by omega)]
    have : ∃ rows, (List.zip ifirst rcs).mapM (momentRow P c.1 types zi) = .ok rows := by
      have hall : ∀ e ∈ List.zip ifirst rcs, ∃ w, momentRow P c.1 types zi e = .ok w := by
        intro e he
        obtain ⟨w, hw, _⟩ := momentRow_ok (e := e) hc hmu' ht (ht zi hzi) (hf _ (List.of_mem_zip he).1)
        exact ⟨w, hw⟩
      generalize List.zip ifirst rcs = l at hall
      induction l with
      | nil => exact ⟨[], rfl⟩
      | cons e l ih =>
        obtain ⟨w, hw⟩ := hall e (by simp)
        obtain ⟨ws, hws⟩ := ih (fun e he => hall e (by simp [he]))
        exact ⟨w :: ws, by rw [List.mapM_cons, hw, ok_bind, hws, ok_bind]; rfl⟩
    obtain ⟨rows, hr⟩ := this
    rw [hr, ok_bind]
    exact ⟨_, rfl⟩
  obtain ⟨t, h1, h2⟩ := bLoop_ok (p := { dim := 0, val := fun _ => 1 }) hm hd
  unfold mtpBasis
  rw [h1, ok_bind, if_pos h2]
  exact ⟨_, rfl⟩

theorem basis_dim {P : MtpParams} {iidx : ℤ} {ifirst types : List ℤ} {rcs : List (Vec ℝ)} {comb : List (ℕ × ℕ)}
    {v : ℝ} (h : mtpBasis P iidx ifirst types rcs comb = .ok v) : dimRun 0 (comb.map Prod.snd) = some 0 := by
  unfold mtpBasis at h
  obtain ⟨t, ht, h⟩ := bind_eq_ok.1 h
  have := bLoop_dim ht
  split at h
  · next h0 => rw [h0] at this; exact this
  · cases h

/-! ### Recursive outer product -/

theorem recOuter_spec (v : Vec ℝ) (n : ℕ) : ∃ rows, recOuter v (n + 1) = .ok rows ∧ (∀ r ∈ rows, r.length = 3) ∧
    rows.flatten.length = 3 ^ (n + 1) ∧ ∀ m < 3 ^ (n + 1), rows.flatten[m]? =
      some (((List.range (n + 1)).map (fun k => v (Fin.ofNat 3 (m / 3 ^ k)))).prod) := by
  induction n with
  | zero =>
    refine ⟨[[v 0, v 1, v 2]], rfl, by simp, by simp, ?_⟩
    intro m hm
    have : m = 0 ∨ m = 1 ∨ m = 2 := by omega
    rcases this with rfl | rfl | rfl <;> simp <;> rfl
  | succ n ih =>
    obtain ⟨rows, h1, h2, h3, h4⟩ := ih
    have hfl : (rows.flatMap (fun row => row.map (fun x => [x * v 0, x * v 1, x * v 2]))).flatten
        = rows.flatten.flatMap (fun x => [x * v 0, x * v 1, x * v 2]) := by
      clear h1 h2 h3 h4
      induction rows with
      | nil => rfl
      | cons r rows ih =>
        rw [List.flatMap_cons, List.flatten_append, ih, List.flatten_cons, List.flatMap_append]
        rfl
    refine ⟨rows.flatMap (fun row => row.map (fun x => [x * v 0, x * v 1, x * v 2])), ?_, ?_, ?_, ?_⟩
    · rw [recOuter, h1, ok_bind]; rfl
    · intro r hr
      obtain ⟨row, _, hr⟩ := List.mem_flatMap.1 hr
      obtain ⟨x, _, rfl⟩ := List.mem_map.1 hr
      rfl
    · rw [hfl, List.length_flatMap]
      have : ∀ l : List ℝ, (l.map (fun x => [x * v 0, x * v 1, x * v 2].length)).sum = 3 * l.length := by
        intro l
        induction l with
        | nil => rfl
        | cons a l ih => rw [List.map_cons, List.sum_cons, ih, List.length_cons]; simp; omega
      rw [this, h3]
      ring
    · intro m hm
      have hm3 : m / 3 < 3 ^ (n + 1) := by
        rw [Nat.div_lt_iff_lt_mul (by norm_num)]
        rw [pow_succ] at hm
        exact hm
      have hflat : ∀ (l : List ℝ) (m : ℕ) (x : ℝ), l[m / 3]? = some x →
          (l.flatMap (fun x => [x * v 0, x * v 1, x * v 2]))[m]? = some (x * v (Fin.ofNat 3 m)) := by
        intro l
        induction l with
        | nil => intro m x h; simp at h
        | cons a l ih =>
          intro m x h
          rw [List.flatMap_cons]
          by_cases hlt : m < 3
          · have h0 : m / 3 = 0 := by omega
            rw [h0] at h
            have : a = x := by simpa using h
            subst this
            rw [List.getElem?_append_left (by simpa using hlt)]
            have : m = 0 ∨ m = 1 ∨ m = 2 := by omega
            rcases this with rfl | rfl | rfl <;> rfl
          · obtain ⟨k, rfl⟩ := Nat.exists_eq_add_of_le (not_lt.1 hlt)
            rw [List.getElem?_append_right (by simp)]
            have hk : (3 + k) / 3 = k / 3 + 1 := by omega
            rw [hk, List.getElem?_cons_succ] at h
            have := ih k x h
            have e : Fin.ofNat 3 (3 + k) = Fin.ofNat 3 k := by
              apply Fin.ext
              simp [Fin.ofNat]
            rw [e]
            simpa using this
      rw [hfl, hflat _ m _ (h4 _ hm3)]
      congr 1
      rw [List.range_succ_eq_map (n := n + 1), List.map_cons, List.prod_cons, List.map_map]
      rw [mul_comm, pow_zero, Nat.div_one]
      congr 2
      refine List.map_congr_left ?_
      intro k _
      simp only [Function.comp, pow_succ', Nat.div_div_eq_div_mul]

end MaterSDK
