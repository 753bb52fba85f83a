import Verif.Spec.MtpBlocks
import Verif.Lemmas.MtpHeap

/-! # Counting the blocks of `MtpParam` objects -/

namespace MaterSDK

/-- The number of blocks that are allocated. -/
def liveCount (h : MtpHeap) : ℕ := h.countP Option.isSome

def objBlocks (o : MtpObj) : MtpBlocks := ⟨o.basic.isSome, o.times.isSome, o.mapping.isSome⟩

def poolBlocks (p : List (Option MtpObj)) : List (Option MtpBlocks) := p.map (Option.map objBlocks)

def wtB : Option MtpBlocks → ℕ
  | none => 0
  | some b => b.size

def wtPool (k : List (Option MtpBlocks)) : ℕ := (k.map wtB).sum

theorem wtPool_append (k : List (Option MtpBlocks)) (x : Option MtpBlocks) : wtPool (k ++ [x]) = wtPool k + wtB x := by
  simp [wtPool]

theorem wtPool_set : ∀ (k : List (Option MtpBlocks)) (i : ℕ) (b x : Option MtpBlocks), k[i]? = some b →
    wtPool (k.set i x) + wtB b = wtPool k + wtB x
  | [], i, b, x, h => by simp at h
  | c :: k, 0, b, x, h => by
    simp at h
    subst h
    simp [wtPool]
    omega
  | c :: k, i + 1, b, x, h => by
    have := wtPool_set k i b x (by simpa using h)
    simp only [wtPool, List.set_cons_succ, List.map_cons, List.sum_cons] at this ⊢
    omega

theorem liveCount_new (h : MtpHeap) (b : List MtpQuad) : liveCount (h ++ [some b]) = liveCount h + 1 := by
  simp [liveCount]

theorem liveCount_set : ∀ (h : MtpHeap) (p : ℕ) (b : List MtpQuad), h[p]? = some (some b) →
    liveCount (h.set p none) + 1 = liveCount h
  | [], p, b, e => by simp at e
  | c :: h, 0, b, e => by
    simp at e
    subst e
    simp [liveCount]
  | c :: h, p + 1, b, e => by
    have := liveCount_set h p b (by simpa using e)
    simp only [liveCount, List.set_cons_succ, List.countP_cons] at this ⊢
    omega

theorem heapFree_count {h h' : MtpHeap} {q : Option ℕ} (e : heapFree h q = .ok h') :
    liveCount h' + q.isSome.toNat = liveCount h := by
  cases q with
  | none => cases e; rfl
  | some p =>
    unfold heapFree at e
    dsimp only at e
    split at e
    · rename_i b hb
      cases e
      exact liveCount_set h p b hb
    · cases e

theorem freeIf_count {h h' : MtpHeap} {n : ℤ} {q : Option ℕ} (e : freeIf h n q = .ok h') :
    liveCount h' + (if n = 0 then 0 else q.isSome.toNat) = liveCount h := by
  unfold freeIf at e
  by_cases hn : n = 0
  · rw [if_neg (by simpa using hn)] at e
    cases e
    simp [hn]
  · rw [if_pos hn] at e
    rw [if_neg hn]
    exact heapFree_count e

theorem copyBlock_count {h : MtpHeap} {p : Option ℕ} {n : ℤ} {r : MtpHeap × Option ℕ} (e : copyBlock h p n = .ok r) :
    liveCount r.1 = liveCount h + 1 ∧ r.2.isSome = true := by
  unfold copyBlock at e
  obtain ⟨b, -, e⟩ := bind_eq_ok.1 e
  cases e
  exact ⟨liveCount_new h b, rfl⟩

theorem copyIf_count {h : MtpHeap} {old p : Option ℕ} {n : ℤ} {r : MtpHeap × Option ℕ} (e : copyIf h old p n = .ok r) :
    liveCount r.1 = liveCount h + (if n = 0 then 0 else 1) ∧ r.2.isSome = (old.isSome || decide (n ≠ 0)) := by
  unfold copyIf at e
  by_cases hn : n = 0
  · rw [if_neg (by simpa using hn)] at e
    cases e
    simp [hn]
  · rw [if_pos hn] at e
    obtain ⟨h1, h2⟩ := copyBlock_count e
    simp [hn, h1, h2]

theorem mtpDestroy_count {h h' : MtpHeap} {o : MtpObj} (e : mtpDestroy h o = .ok h') :
    liveCount h' + (objBlocks o).size = liveCount h := by
  unfold mtpDestroy at e
  obtain ⟨h1, e1, e⟩ := bind_eq_ok.1 e
  obtain ⟨h2, e2, e⟩ := bind_eq_ok.1 e
  have a1 := heapFree_count e1
  have a2 := heapFree_count e2
  have a3 := heapFree_count e
  simp only [MtpBlocks.size, objBlocks]
  omega

theorem mtpStore_count (h : MtpHeap) (t : MtpTables) :
    liveCount (mtpStore h t).1 = liveCount h + (objBlocks (mtpStore h t).2).size ∧
      objBlocks (mtpStore h t).2 = ⟨true, decide (t.timesCount ≠ 0), true⟩ := by
  by_cases ht : t.timesCount = 0 <;>
    simp [mtpStore, heapNew, ht, objBlocks, MtpBlocks.size, liveCount]

theorem mtpCopy_count {h : MtpHeap} {r : MtpObj} {x : MtpHeap × MtpObj} (e : mtpCopy h r = .ok x) :
    liveCount x.1 = liveCount h + 3 ∧ objBlocks x.2 = ⟨true, true, true⟩ := by
  unfold mtpCopy at e
  obtain ⟨⟨h1, b⟩, e1, e⟩ := bind_eq_ok.1 e
  obtain ⟨⟨h2, t⟩, e2, e⟩ := bind_eq_ok.1 e
  obtain ⟨⟨h3, m⟩, e3, e⟩ := bind_eq_ok.1 e
  cases e
  have a1 := copyBlock_count e1
  have a2 := copyBlock_count e2
  have a3 := copyBlock_count e3
  dsimp only at a1 a2 a3 ⊢
  refine ⟨by omega, ?_⟩
  simp only [objBlocks, a1.2, a2.2, a3.2]

theorem one_table (k : Bool) (m n : ℤ) (hs : n = 0 → m = 0) :
    (if n = 0 then 0 else 1) + k.toNat =
      (if m = 0 then 0 else k.toNat) + (k || decide (n ≠ 0)).toNat + lostTable k m n := by
  by_cases hn : n = 0
  · simp [hn, hs hn, lostTable]
  · by_cases hm : m = 0
    · cases k <;> simp [hn, hm, lostTable]
    · cases k <;> simp [hn, hm, lostTable]

theorem mtpAssign_count {h : MtpHeap} {o r : MtpObj} {x : MtpHeap × MtpObj} (e : mtpAssign h o r = .ok x)
    (s1 : r.basicCount = 0 → o.basicCount = 0) (s2 : r.timesCount = 0 → o.timesCount = 0)
    (s3 : r.scalarCount = 0 → o.scalarCount = 0) :
    objBlocks x.2 = ⟨o.basic.isSome || decide (r.basicCount ≠ 0), o.times.isSome || decide (r.timesCount ≠ 0),
      o.mapping.isSome || decide (r.scalarCount ≠ 0)⟩ ∧
    liveCount x.1 + (objBlocks o).size = liveCount h + (objBlocks x.2).size +
      (lostTable o.basic.isSome o.basicCount r.basicCount + lostTable o.times.isSome o.timesCount r.timesCount +
        lostTable o.mapping.isSome o.scalarCount r.scalarCount) := by
  unfold mtpAssign mtpRelease mtpFill at e
  obtain ⟨⟨h', o'⟩, e0, e⟩ := bind_eq_ok.1 e
  obtain ⟨g1, f1, e0⟩ := bind_eq_ok.1 e0
  obtain ⟨g2, f2, e0⟩ := bind_eq_ok.1 e0
  obtain ⟨g3, f3, e0⟩ := bind_eq_ok.1 e0
  cases e0
  obtain ⟨⟨h1, b⟩, e1, e⟩ := bind_eq_ok.1 e
  obtain ⟨⟨h2, t⟩, e2, e⟩ := bind_eq_ok.1 e
  obtain ⟨⟨h3, m⟩, e3, e⟩ := bind_eq_ok.1 e
  cases e
  have a1 := copyIf_count e1
  have a2 := copyIf_count e2
  have a3 := copyIf_count e3
  have b1 := freeIf_count f1
  have b2 := freeIf_count f2
  have b3 := freeIf_count f3
  dsimp only at a1 a2 a3 ⊢
  have c1 := one_table o.basic.isSome _ _ s1
  have c2 := one_table o.times.isSome _ _ s2
  have c3 := one_table o.mapping.isSome _ _ s3
  simp only [objBlocks, MtpBlocks.size, a1.2, a2.2, a3.2]
  refine ⟨trivial, ?_⟩
  have d1 := a1.1
  have d2 := a2.1
  have d3 := a3.1
  clear a1 a2 a3
  omega

theorem obj_get {s : MtpState} {i : ℕ} {o : MtpObj} (h : s.obj i = .ok o) : s.pool[i]? = some (some o) := by
  unfold MtpState.obj at h
  split at h
  · rename_i o' e
    cases h
    exact e
  · cases h

theorem poolBlocks_get {p : List (Option MtpObj)} {i : ℕ} {o : MtpObj} (h : p[i]? = some (some o)) :
    (poolBlocks p)[i]? = some (some (objBlocks o)) := by
  simp [poolBlocks, h]

theorem view_counts {h : MtpHeap} {o : MtpObj} {t : MtpTables} (e : mtpView h o = .ok t) :
    o.basicCount = t.basicCount ∧ o.timesCount = t.timesCount ∧ o.scalarCount = t.scalarCount := by
  unfold mtpView at e
  obtain ⟨b, -, e⟩ := bind_eq_ok.1 e
  obtain ⟨c, -, e⟩ := bind_eq_ok.1 e
  obtain ⟨d, -, e⟩ := bind_eq_ok.1 e
  cases e
  exact ⟨rfl, rfl, rfl⟩

theorem inv_value {s : MtpState} {v : List (Option MtpTables)} (inv : StateInv s v) {i : ℕ} {o : MtpObj}
    (h : s.pool[i]? = some (some o)) : ∃ t, v[i]?.join = some t ∧ mtpView s.heap o = .ok t := by
  have hp : poolFn s.pool i = some o := by simp [poolFn, h]
  cases ht : poolFn v i with
  | none => rw [(inv.2.alive i).2 ht] at hp; cases hp
  | some t => exact ⟨t, ht, inv.2.view i o t hp ht⟩

theorem step_count {s s' : MtpState} {v : List (Option MtpTables)} {op : MtpOp} (inv : StateInv s v)
    (hsafe : SafeOp v op) (e : mtpStep s op = .ok s') :
    poolBlocks s'.pool = blocksStep v (poolBlocks s.pool) op ∧
    liveCount s'.heap + wtPool (poolBlocks s.pool) =
      liveCount s.heap + wtPool (poolBlocks s'.pool) + blocksLost v (poolBlocks s.pool) op := by
  have happ : ∀ (p : List (Option MtpObj)) (o : MtpObj), poolBlocks (p ++ [some o]) = poolBlocks p ++ [some (objBlocks o)] := by
    intro p o; simp [poolBlocks]
  have hset : ∀ (p : List (Option MtpObj)) (i : ℕ) (x : Option MtpObj),
      poolBlocks (p.set i x) = (poolBlocks p).set i (x.map objBlocks) := by
    intro p i x; simp [poolBlocks, List.map_set]
  cases op with
  | dflt =>
    cases e
    dsimp only
    rw [happ, wtPool_append]
    exact ⟨rfl, by simp [wtB, objBlocks, mtpEmpty, MtpBlocks.size, blocksLost]⟩
  | load t =>
    have e : s' = ⟨(mtpStore s.heap t).1, s.pool ++ [some (mtpStore s.heap t).2]⟩ := (Except.ok.inj e).symm
    rw [e]
    dsimp only
    obtain ⟨h1, h2⟩ := mtpStore_count s.heap t
    rw [happ, wtPool_append]
    refine ⟨by rw [h2]; rfl, ?_⟩
    simp only [blocksLost, wtB]
    omega
  | copy y =>
    obtain ⟨r, -, e⟩ := bind_eq_ok.1 e
    obtain ⟨⟨h, o⟩, e2, e⟩ := bind_eq_ok.1 e
    cases e
    obtain ⟨h1, h2⟩ := mtpCopy_count e2
    dsimp only at h1 h2 ⊢
    rw [happ, wtPool_append, h2]
    refine ⟨rfl, ?_⟩
    simp only [blocksLost, wtB, MtpBlocks.size, Bool.toNat_true]
    omega
  | move y =>
    obtain ⟨r, hr, e⟩ := bind_eq_ok.1 e
    cases e
    have hg := poolBlocks_get (obj_get hr)
    dsimp only [mtpMove]
    rw [happ, hset, wtPool_append]
    refine ⟨by simp only [blocksStep]; rw [hg]; rfl, ?_⟩
    have := wtPool_set _ y _ ((some mtpEmpty).map objBlocks) hg
    simp only [blocksLost, wtB, objBlocks, mtpEmpty, MtpBlocks.size, Option.map_some, Option.isSome_none,
      Bool.toNat_false] at this ⊢
    omega
  | assign x y =>
    obtain ⟨o, ho, e⟩ := bind_eq_ok.1 e
    obtain ⟨r, hr, e⟩ := bind_eq_ok.1 e
    dsimp only at e
    rw [if_neg hsafe.1] at e
    obtain ⟨⟨h, o'⟩, e2, e⟩ := bind_eq_ok.1 e
    cases e
    have hg := poolBlocks_get (obj_get ho)
    obtain ⟨a, ha, va⟩ := inv_value inv (obj_get ho)
    obtain ⟨t, ht, vt⟩ := inv_value inv (obj_get hr)
    obtain ⟨a1, a2, a3⟩ := view_counts va
    obtain ⟨t1, t2, t3⟩ := view_counts vt
    obtain ⟨s1, s2, s3⟩ := hsafe.2 a t ha ht
    rw [← a1, ← t1] at s1
    rw [← a2, ← t2] at s2
    rw [← a3, ← t3] at s3
    obtain ⟨c1, c2⟩ := mtpAssign_count e2 s1 s2 s3
    dsimp only at c1 c2 ⊢
    have hj : (poolBlocks s.pool)[x]?.join = some (objBlocks o) := by rw [hg]; rfl
    have hw := wtPool_set _ x _ ((some o').map objBlocks) hg
    rw [hset]
    constructor
    · rw [Option.map_some, c1, t1, t2, t3]
      simp only [blocksStep, hj, ht]
      rfl
    · simp only [blocksLost, hj, ha, ht]
      rw [a1, a2, a3, t1, t2, t3] at c2
      simp only [Option.map_some, wtB] at hw
      simp only [objBlocks, Option.map_some] at c2 hw ⊢
      omega
  | moveAssign x y => exact hsafe.elim
  | destroy x =>
    obtain ⟨o, ho, e⟩ := bind_eq_ok.1 e
    obtain ⟨h, e2, e⟩ := bind_eq_ok.1 e
    cases e
    have hc := mtpDestroy_count e2
    have hg := poolBlocks_get (obj_get ho)
    have hw := wtPool_set _ x _ none hg
    dsimp only
    rw [hset]
    refine ⟨rfl, ?_⟩
    simp only [blocksLost, Option.map_none, wtB] at hw ⊢
    omega

theorem run_count : ∀ {ops : List MtpOp} {s : MtpState} {v v' : List (Option MtpTables)},
    StateInv s v → SafeRun v ops → valueRun v ops = some v' →
    ∃ s', mtpRun s ops = .ok s' ∧ StateInv s' v' ∧
      liveCount s'.heap + wtPool (poolBlocks s.pool) =
        liveCount s.heap + wtPool (poolBlocks s'.pool) + lostRun v (poolBlocks s.pool) ops
  | [], s, v, v', inv, _, hv => by
    have := Option.some.inj hv
    subst this
    exact ⟨s, rfl, inv, by simp [lostRun]⟩
  | op :: ops, s, v, v', inv, hs, hv => by
    unfold valueRun at hv
    rw [List.foldlM_cons] at hv
    obtain ⟨w, hw, hv⟩ := Option.bind_eq_some_iff.1 hv
    obtain ⟨s1, e1, inv1, -⟩ := step_spec inv hs.1 hw
    obtain ⟨k1, c1⟩ := step_count inv hs.1 e1
    obtain ⟨s2, e2, inv2, c2⟩ := run_count inv1 (hs.2 w hw) hv
    refine ⟨s2, ?_, inv2, ?_⟩
    · unfold mtpRun
      rw [List.foldlM_cons, e1, ok_bind]
      exact e2
    · rw [lostRun, hw]
      dsimp only
      rw [← k1]
      omega

end MaterSDK
