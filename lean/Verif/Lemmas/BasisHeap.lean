import Verif.Lemmas.BasisPool

/-!
# The single operations of the radial basis classes
-/

namespace MaterSDK

variable {α γ δ : Type}

/-- The block a pointer points to. -/
def ptrList : CPtr → List ℕ
  | .addr p => [p]
  | _ => []

/-- The pointer is not wild and, if there are rows, points to a block with exactly these. -/
def HasRows (h : RowHeap γ) (p : CPtr) (rows : List γ) : Prop :=
  p ≠ .wild ∧ (rows ≠ [] → ∃ a, p = .addr a ∧ h[a]? = some (some (.val rows)))

theorem HasRows.congr {h h' : RowHeap γ} {p : CPtr} {rows : List γ} (hr : HasRows h p rows)
    (he : ∀ q ∈ ptrList p, h'[q]? = h[q]?) : HasRows h' p rows := by
  refine ⟨hr.1, fun hn => ?_⟩
  obtain ⟨a, rfl, ha⟩ := hr.2 hn
  exact ⟨a, rfl, by rw [he a (by simp [ptrList]), ha]⟩

theorem hasRows_null (h : RowHeap γ) : HasRows h .null ([] : List γ) := ⟨by simp, by simp⟩

theorem hasRows_addr {h : RowHeap γ} {a : ℕ} {rows : List γ}
    (ha : h[a]? = some (some (.val rows))) : HasRows h (.addr a) rows :=
  ⟨by simp, fun _ => ⟨a, rfl, ha⟩⟩

theorem rowFree_spec {h : RowHeap γ} {p : CPtr} {R : List ℕ} (hp : p ≠ .wild)
    (ho : OwnsAll h (ptrList p ++ R)) :
    ∃ h', rowFree h p = .ok h' ∧ OwnsAll h' R ∧ ∀ q ∈ R, h'[q]? = h[q]? := by
  cases p with
  | wild => exact absurd rfl hp
  | null => exact ⟨h, rfl, by simpa [ptrList] using ho, fun _ _ => rfl⟩
  | addr p => exact owns_free (by simpa [ptrList] using ho)

theorem alloc_spec {h : RowHeap γ} {R : List ℕ} (c : Block (List γ)) (ho : OwnsAll h R) :
    ∃ h' q, objAlloc h c = (h', q) ∧ OwnsAll h' (q :: R) ∧ (∀ p ∈ R, h'[p]? = h[p]?) ∧
      h'[q]? = some (some c) := by
  obtain ⟨h1, h2, h3⟩ := owns_alloc c ho
  exact ⟨_, _, rfl, h1, h2, h3⟩

theorem rowCopy_spec {h : RowHeap γ} {R : List ℕ} {p : CPtr} {rows : List γ}
    (ho : OwnsAll h R) (hr : HasRows h p rows) :
    ∃ h' q, rowCopy h rows.length p = .ok (h', .addr q) ∧ OwnsAll h' (q :: R) ∧
      (∀ a ∈ R, h'[a]? = h[a]?) ∧ h'[q]? = some (some (.val rows)) := by
  unfold rowCopy
  by_cases hn : rows = []
  · subst hn
    obtain ⟨h', q, e, o1, k1, c1⟩ := alloc_spec (.val ([] : List γ)) ho
    refine ⟨h', q, ?_, o1, k1, c1⟩
    simp only [List.length_nil, if_true, e]
  · have hl : rows.length ≠ 0 := by simpa using hn
    obtain ⟨a, rfl, ha⟩ := hr.2 hn
    obtain ⟨h', q, e, o1, k1, c1⟩ := alloc_spec (.val rows) ho
    refine ⟨h', q, ?_, o1, k1, c1⟩
    rw [if_neg hl]
    have hread : objRead h a = .ok (.val rows) := by simp [objRead, ha]
    simp only [hread, ok_bind, lt_irrefl, if_false, List.take_length, e]
    rfl

theorem rowRead_spec {h : RowHeap γ} {p : CPtr} {rows : List γ} (hr : HasRows h p rows) :
    rowRead h rows.length p = .ok rows := by
  unfold rowRead
  by_cases hn : rows = []
  · subst hn; rfl
  · have hl : rows.length ≠ 0 := by simpa using hn
    obtain ⟨a, rfl, ha⟩ := hr.2 hn
    rw [if_neg hl]
    have hread : objRead h a = .ok (.val rows) := by simp [objRead, ha]
    simp only [hread, ok_bind, lt_irrefl, if_false, List.take_length]
    rfl

theorem rowWrite_spec {h : RowHeap γ} {R : List ℕ} {p : CPtr} {rows new : List γ}
    (ho : OwnsAll h (ptrList p ++ R)) (hr : HasRows h p rows) (hl : new.length = rows.length) :
    ∃ h', rowWrite h p new = .ok h' ∧ OwnsAll h' (ptrList p ++ R) ∧ (∀ q ∈ R, h'[q]? = h[q]?) ∧
      HasRows h' p new := by
  unfold rowWrite
  by_cases hn : new = []
  · subst hn
    exact ⟨h, by simp, ho, fun _ _ => rfl, hr.1, by simp⟩
  · have hn' : rows ≠ [] := by
      rintro rfl
      exact hn (List.length_eq_zero_iff.1 hl)
    obtain ⟨a, rfl, ha⟩ := hr.2 hn'
    rw [if_neg hn]
    have hread : objRead h a = .ok (.val rows) := by simp [objRead, ha]
    obtain ⟨w1, w2, w3, w4⟩ := owns_write (.val new) (h := h) (p := a) (R := R)
      (by simpa [ptrList] using ho)
    refine ⟨h.set a (some (.val new)), ?_, by simpa [ptrList] using w2, w3, hasRows_addr w4⟩
    simp only [hread, ok_bind]
    rw [if_neg (by omega), hl, List.drop_length, List.append_nil, w1]

/-! ## `RB_Chebyshev` and `ChebyshevPoly` -/

/-- The object has the value `v`.  With `tight`, an object without rows has a null pointer. -/
structure PolyHolds (tight : Bool) (h : RowHeap γ) (x : PolyObj α) (v : BasisVal α γ) : Prop where
  par : x.par = v.par
  size : x.size = v.rows.length
  null : tight = true → v.rows = [] → x.ptr = .null
  sw : v.rows ≠ [] → x.sw = v.par
  rows : HasRows h x.ptr v.rows

theorem PolyHolds.congr {t : Bool} {h h' : RowHeap γ} {x : PolyObj α} {v : BasisVal α γ}
    (he : ∀ q ∈ ptrList x.ptr, h'[q]? = h[q]?) (hx : PolyHolds t h x v) : PolyHolds t h' x v :=
  ⟨hx.par, hx.size, hx.null, hx.sw, hx.rows.congr he⟩

theorem PolyHolds.see {t : Bool} {h : RowHeap γ} {x : PolyObj α} {v : BasisVal α γ}
    (hx : PolyHolds t h x v) : (do
      let r ← rowRead h x.size x.ptr
      return (⟨x.par, r⟩ : BasisVal α γ)) = (.ok v : Except CErr _) := by
  rw [hx.size, rowRead_spec hx.rows, ok_bind, hx.par]; rfl

theorem PolyHolds.count {h : RowHeap γ} {x : PolyObj α} {v : BasisVal α γ}
    (hx : PolyHolds true h x v) : (ptrList x.ptr).length = if v.rows.isEmpty then 0 else 1 := by
  by_cases hn : v.rows = []
  · simp [hx.null rfl hn, ptrList, hn]
  · obtain ⟨a, e, _⟩ := hx.rows.2 hn
    have : v.rows.isEmpty = false := by simpa using hn
    simp [e, ptrList, this]

theorem polyHolds_dflt (t : Bool) (z w : α) (h : RowHeap γ) :
    PolyHolds t h ⟨z, w, 0, .null⟩ ⟨z, []⟩ :=
  ⟨rfl, rfl, fun _ _ => rfl, by simp, hasRows_null h⟩

theorem polyMake_spec (t : Bool) (zero : γ) {h : RowHeap γ} {R : List ℕ} (a : α) (n : ℕ)
    (hn : t = true → n ≠ 0) (ho : OwnsAll h R) :
    ∃ h' q, polyMake zero h a n = (h', ⟨a, a, n, .addr q⟩) ∧ OwnsAll h' (q :: R) ∧
      (∀ p ∈ R, h'[p]? = h[p]?) ∧ PolyHolds t h' ⟨a, a, n, .addr q⟩ ⟨a, List.replicate n zero⟩ := by
  obtain ⟨h', q, e, o1, k1, c1⟩ := alloc_spec (.val (List.replicate n zero)) ho
  refine ⟨h', q, by simp only [polyMake, e], o1, k1, ⟨rfl, by simp, ?_, fun _ => rfl, hasRows_addr c1⟩⟩
  intro ht hr
  exact absurd (by simpa using hr) (hn ht)

theorem polyRelease_spec {t : Bool} {h : RowHeap γ} {R : List ℕ} {x : PolyObj α}
    {u : BasisVal α γ} (ho : OwnsAll h (ptrList x.ptr ++ R)) (hx : PolyHolds t h x u) :
    ∃ h' L, polyRelease h x = .ok h' ∧ OwnsAll h' (L ++ R) ∧ (∀ q ∈ R, h'[q]? = h[q]?) ∧
      (t = true → L = []) := by
  unfold polyRelease
  by_cases hn : u.rows = []
  · rw [if_neg (by simp [hx.size, hn])]
    exact ⟨h, ptrList x.ptr, rfl, ho, fun _ _ => rfl, fun ht => by rw [hx.null ht hn]; rfl⟩
  · rw [if_pos (by rw [hx.size]; simpa using hn)]
    obtain ⟨h', e, o1, k1⟩ := rowFree_spec hx.rows.1 ho
    exact ⟨h', [], e, by simpa using o1, k1, fun _ => rfl⟩

/-- The result of copying a nonempty object. -/
theorem polyHolds_new {t : Bool} {h : RowHeap γ} {y : PolyObj α} {v : BasisVal α γ} {g : RowHeap γ}
    {q : ℕ} (hy : PolyHolds t h y v) (hq : g[q]? = some (some (.val v.rows)))
    (ht : t = true → v.rows ≠ []) : PolyHolds t g ⟨y.par, y.sw, y.size, .addr q⟩ v :=
  ⟨hy.par, hy.size, fun h1 h2 => absurd h2 (ht h1), hy.sw, hasRows_addr hq⟩

theorem chAssign_spec {t s : Bool} {h : RowHeap γ} {R : List ℕ} {x y : PolyObj α}
    {u v : BasisVal α γ} (hg : t = true → v.rows ≠ []) (ho : OwnsAll h (ptrList x.ptr ++ R))
    (hyR : ∀ q ∈ ptrList y.ptr, q ∈ R) (hx : PolyHolds t h x u) (hy : PolyHolds s h y v) :
    ∃ h' q L, chAssign h x y = .ok (h', ⟨y.par, y.sw, y.size, .addr q⟩) ∧
      OwnsAll h' (q :: (L ++ R)) ∧ (∀ a ∈ R, h'[a]? = h[a]?) ∧
      PolyHolds t h' ⟨y.par, y.sw, y.size, .addr q⟩ v ∧ (t = true → L = []) := by
  obtain ⟨h1, L, e1, o1, k1, hL⟩ := polyRelease_spec ho hx
  have hy1 : PolyHolds s h1 y v := hy.congr fun q hq => k1 q (hyR q hq)
  obtain ⟨h2, q, e2, o2, k2, c2⟩ := rowCopy_spec o1 hy1.rows
  refine ⟨h2, q, L, ?_, o2, fun a ha => (k2 a (by simp [ha])).trans (k1 a ha), ?_, hL⟩
  · unfold chAssign
    rw [e1, ok_bind, hy.size, e2]; rfl
  · exact ⟨hy.par, hy.size, fun h1 h2 => absurd h2 (hg h1), hy.sw, hasRows_addr c2⟩

/-- Assigning to a default constructed object. -/
theorem chInit_spec (z : α) {t s : Bool} {h : RowHeap γ} {R : List ℕ} {y : PolyObj α}
    {v : BasisVal α γ} (hg : t = true → v.rows ≠ []) (ho : OwnsAll h R)
    (_hyR : ∀ q ∈ ptrList y.ptr, q ∈ R) (hy : PolyHolds s h y v) :
    ∃ h' q, chAssign h (polyDflt z) y = .ok (h', ⟨y.par, y.sw, y.size, .addr q⟩) ∧
      OwnsAll h' (q :: R) ∧ (∀ a ∈ R, h'[a]? = h[a]?) ∧
      PolyHolds t h' ⟨y.par, y.sw, y.size, .addr q⟩ v := by
  obtain ⟨h2, q, e2, o2, k2, c2⟩ := rowCopy_spec ho hy.rows
  refine ⟨h2, q, ?_, o2, k2,
    hy.par, hy.size, fun h1 h2 => absurd h2 (hg h1), hy.sw, hasRows_addr c2⟩
  unfold chAssign polyRelease
  rw [if_neg (by simp [polyDflt])]
  show (do let (h2, q) ← rowCopy h y.size y.ptr; _) = _
  rw [hy.size, e2]; rfl

theorem polyBuild_spec (F : BasisFill α γ δ) {t : Bool} {h : RowHeap γ} {R : List ℕ}
    {x : PolyObj α} {v : BasisVal α γ} (d : δ) (ho : OwnsAll h (ptrList x.ptr ++ R))
    (hx : PolyHolds t h x v) (hd : F.dom v.par d = true) :
    ∃ h', polyBuild F h x d = .ok h' ∧ OwnsAll h' (ptrList x.ptr ++ R) ∧
      (∀ q ∈ R, h'[q]? = h[q]?) ∧
      PolyHolds t h' x ⟨v.par, (List.range v.rows.length).map (F.row v.par v.par d)⟩ := by
  unfold polyBuild
  rw [hx.par, if_pos hd]
  have hrow : (List.range x.size).map (F.row v.par x.sw d)
      = (List.range v.rows.length).map (F.row v.par v.par d) := by
    rw [hx.size]
    by_cases hn : v.rows = []
    · simp [hn]
    · rw [hx.sw hn]
  rw [hrow]
  obtain ⟨h', e, o1, k1, r1⟩ := rowWrite_spec
    (new := (List.range v.rows.length).map (F.row v.par v.par d)) ho hx.rows (by simp)
  refine ⟨h', e, o1, k1, hx.par, by simp [hx.size], fun ht hr => hx.null ht ?_, fun hn => hx.sw ?_, r1⟩
  · simpa using hr
  · simpa using hn

/-! ## The four classes -/

/-- `RB_Chebyshev`: no objects of size 0 and no assignment of an empty object to one with rows. -/
def rbGuard : BasisGuard := ⟨true, false, true, false, true, true, true⟩

/-- Anything but `x = x`. -/
def anyGuard : BasisGuard := ⟨true, true, true, true, true, true, true⟩

/-- `ChebyshevPoly` without lost blocks: no objects of size 0, and empty objects are not copied. -/
def chebGuard : BasisGuard := ⟨true, false, false, false, false, true, true⟩

/-- `RQ_Chebyshev`: empty objects are neither copied nor built. -/
def rqGuard : BasisGuard := ⟨true, false, false, false, false, true, false⟩

/-- `MtpQ`: no default construction. -/
def mtpqGuard : BasisGuard := ⟨false, true, true, true, true, true, true⟩

/-- `MtpQ` without lost blocks: empty objects are neither copied nor moved. -/
def mtpqTight : BasisGuard := ⟨false, false, false, false, false, false, true⟩

theorem bne_zero {n : ℕ} : (n != 0) = true ↔ n ≠ 0 := by simp

theorem rows_guard {b : Bool} {l : List γ} (h : (b || !l.isEmpty) = true) : b = false → l ≠ [] := by
  intro hb
  simpa [hb] using h

/-- `RB_Chebyshev`. -/
def rbOK (z : α) (zero : γ) (F : BasisFill α γ δ) :
    ClassOK (rbClass z zero F) z zero F.poly rbGuard true 1 where
  own x := ptrList x.ptr
  inv := PolyHolds true
  inv_congr := PolyHolds.congr
  see := PolyHolds.see
  count _ hx := hx.count
  dflt _ := ⟨rfl, polyHolds_dflt true z z⟩
  make a n hg ho := by
    obtain ⟨h', q, e, o1, k1, i1⟩ := polyMake_spec true zero a n
      (fun _ => by simpa [rbGuard] using hg) ho
    exact ⟨h', ⟨a, a, n, .addr q⟩, by simp only [rbClass, e], o1, k1, i1⟩
  copy := by
    intro h R y v _ ho hyR hy
    by_cases hn : v.rows = []
    · refine ⟨h, ⟨y.par, y.sw, 0, .null⟩, ?_, by simpa [ptrList] using ho, fun _ _ => rfl, ?_⟩
      · show rbCopy h y = _
        unfold rbCopy
        rw [if_neg (by simp [hy.size, hn])]; rfl
      · exact ⟨hy.par, by simp [hn], fun _ _ => rfl, fun h => absurd hn h, by rw [hn]; exact hasRows_null h⟩
    · obtain ⟨h', q, e, o1, k1, c1⟩ := rowCopy_spec ho hy.rows
      refine ⟨h', ⟨y.par, y.sw, y.size, .addr q⟩, ?_, o1, k1, polyHolds_new hy c1 fun _ => hn⟩
      show rbCopy h y = _
      unfold rbCopy
      rw [if_pos (by rw [hy.size]; simpa using hn), hy.size, e]; rfl
  move := by
    intro h R y v _ ho hy
    exact ⟨h, y, polyDflt z, [], rfl, by simpa [ptrList, polyDflt] using ho, fun _ _ => rfl, hy,
      polyHolds_dflt true z z h, fun _ => rfl⟩
  assign := by
    intro h R x y u v hg ho hyR hx hy
    obtain ⟨h1, L, e1, o1, k1, hL⟩ := polyRelease_spec ho hx
    obtain rfl := hL rfl
    have hy1 : PolyHolds true h1 y v := hy.congr fun q hq => k1 q (hyR q hq)
    by_cases hn : v.rows = []
    · have hu : u.rows = [] := by
        by_contra hc
        have : u.rows.isEmpty = false := by simpa using hc
        simp [this, rbGuard, hn] at hg
      have hp := hx.null rfl hu
      refine ⟨h1, ⟨y.par, y.sw, 0, x.ptr⟩, [], ?_, by simpa [hp, ptrList] using o1, k1, ?_, fun _ => rfl⟩
      · show rbAssign h x y = _
        unfold rbAssign
        rw [e1, ok_bind, if_neg (by simp [hy.size, hn])]; rfl
      · exact ⟨hy.par, by simp [hn], fun _ _ => hp, fun h => absurd hn h, by
          rw [hn]; show HasRows h1 x.ptr []; rw [hp]; exact hasRows_null h1⟩
    · obtain ⟨h2, q, e2, o2, k2, c2⟩ := rowCopy_spec o1 hy1.rows
      refine ⟨h2, ⟨y.par, y.sw, y.size, .addr q⟩, [], ?_, o2,
        fun a ha => (k2 a (by simp [ha])).trans (k1 a ha), polyHolds_new hy c2 fun _ => hn, fun _ => rfl⟩
      show rbAssign h x y = _
      unfold rbAssign
      rw [e1, ok_bind, if_pos (by rw [hy.size]; simpa using hn), hy.size, e2]; rfl
  moveAssign := by
    intro h R x y u v _ ho hx hy
    obtain ⟨h1, L, e1, o1, k1, hL⟩ := polyRelease_spec ho hx
    obtain rfl := hL rfl
    refine ⟨h1, y, ⟨z, z, 0, .null⟩, [], ?_, by simpa [ptrList] using o1,
      fun q hq => k1 q (by simp [hq]), hy.congr fun q hq => k1 q (by simp [hq]),
      polyHolds_dflt true z z h1, fun _ => rfl⟩
    show polyMoveAssign false z h x y = _
    unfold polyMoveAssign
    rw [e1]; rfl
  build := by
    intro h R x v d _ ho hx
    show if F.dom v.par d = true then _ else polyBuild F h x d = _
    by_cases hd : F.dom v.par d = true
    · rw [if_pos hd]; exact polyBuild_spec F d ho hx hd
    · rw [if_neg hd]
      unfold polyBuild
      rw [hx.par, if_neg hd]
  destroy ho hx := rowFree_spec hx.rows.1 ho

/-- `ChebyshevPoly`. -/
def chebOK (t : Bool) (z : α) (zero : γ) (F : BasisFill α γ δ) :
    ClassOK (chebClass z zero F) z zero F.poly (if t then chebGuard else anyGuard) t 1 where
  own x := ptrList x.ptr
  inv := PolyHolds t
  inv_congr := PolyHolds.congr
  see := PolyHolds.see
  count ht hx := by subst ht; exact hx.count
  dflt _ := ⟨rfl, polyHolds_dflt t z z⟩
  make a n hg ho := by
    obtain ⟨h', q, e, o1, k1, i1⟩ := polyMake_spec t zero a n
      (fun ht => by simpa [ht, chebGuard] using hg) ho
    exact ⟨h', ⟨a, a, n, .addr q⟩, by simp only [chebClass, e], o1, k1, i1⟩
  copy := by
    intro h R y v hg ho hyR hy
    obtain ⟨h', q, e, o1, k1, c1⟩ := rowCopy_spec ho hy.rows
    refine ⟨h', ⟨y.par, y.sw, y.size, .addr q⟩, ?_, o1, k1, polyHolds_new hy c1 fun ht => ?_⟩
    · show chCopy h y = _
      unfold chCopy
      rw [hy.size, e]; rfl
    · subst ht; exact rows_guard hg rfl
  move := by
    intro h R y v _ ho hy
    exact ⟨h, y, polyDflt z, [], rfl, by simpa [ptrList, polyDflt] using ho, fun _ _ => rfl, hy,
      polyHolds_dflt t z z h, fun _ => rfl⟩
  assign := by
    intro h R x y u v hg ho hyR hx hy
    obtain ⟨h', q, L, e, o1, k1, i1, hL⟩ := chAssign_spec (fun ht => by
      subst ht
      refine rows_guard hg ?_
      simp [chebGuard]) ho hyR hx hy
    exact ⟨h', _, L, e, o1, k1, i1, hL⟩
  moveAssign := by
    intro h R x y u v _ ho hx hy
    obtain ⟨h1, L, e1, o1, k1, hL⟩ := polyRelease_spec ho hx
    refine ⟨h1, y, ⟨z, y.sw, 0, .null⟩, L, ?_, ?_,
      fun q hq => k1 q (by simp [hq]), hy.congr fun q hq => k1 q (by simp [hq]),
      polyHolds_dflt t z y.sw h1, hL⟩
    · show polyMoveAssign true z h x y = _
      unfold polyMoveAssign
      rw [e1]; rfl
    · refine OwnsAll.perm ?_ o1
      simpa [ptrList] using List.perm_append_comm_assoc _ _ _
  build := by
    intro h R x v d _ ho hx
    show if F.dom v.par d = true then _ else polyBuild F h x d = _
    by_cases hd : F.dom v.par d = true
    · rw [if_pos hd]; exact polyBuild_spec F d ho hx hd
    · rw [if_neg hd]
      unfold polyBuild
      rw [hx.par, if_neg hd]
  destroy ho hx := rowFree_spec hx.rows.1 ho

/-! ## `RQ_Chebyshev` -/

/-- The blocks of the inner object and the block it lives in. -/
def rbList : Option (ℕ × PolyObj α) → List ℕ
  | none => []
  | some (p, o) => p :: ptrList o.ptr

/-- The object has the value `v`. -/
structure RqHolds (h : RowHeap γ) (x : RqObj α) (v : BasisVal α γ) : Prop where
  par : x.par = v.par
  size : x.size = v.rows.length
  null : v.rows = [] → x.ptr = .null ∧ x.rb = none
  rows : HasRows h x.ptr v.rows
  some : v.rows ≠ [] → x.sw = v.par ∧ ∃ p o inner, x.rb = some (p, o) ∧
    inner.length = v.rows.length ∧ PolyHolds true h o ⟨v.par, inner⟩

/-- The blocks of an object. -/
def rqOwn (x : RqObj α) : List ℕ := rbList x.rb ++ ptrList x.ptr

theorem RqHolds.congr {h h' : RowHeap γ} {x : RqObj α} {v : BasisVal α γ}
    (he : ∀ q ∈ rqOwn x, h'[q]? = h[q]?) (hx : RqHolds h x v) : RqHolds h' x v := by
  refine ⟨hx.par, hx.size, hx.null, hx.rows.congr fun q hq => he q (by simp [rqOwn, hq]), fun hn => ?_⟩
  obtain ⟨h1, p, o, inner, h2, h3, h4⟩ := hx.some hn
  exact ⟨h1, p, o, inner, h2, h3, h4.congr fun q hq => he q (by simp [rqOwn, h2, rbList, hq])⟩

theorem rqHolds_dflt (z w : α) (h : RowHeap γ) : RqHolds h ⟨z, w, 0, none, .null⟩ ⟨z, []⟩ :=
  ⟨rfl, rfl, fun _ => ⟨rfl, rfl⟩, hasRows_null h, fun hn => absurd rfl hn⟩

theorem rbDelete_spec {h : RowHeap γ} {R : List ℕ} {x : RqObj α} {v : BasisVal α γ}
    (ho : OwnsAll h (rqOwn x ++ R)) (hx : RqHolds h x v) :
    ∃ h', rbDelete h x.rb = .ok h' ∧ OwnsAll h' (ptrList x.ptr ++ R) ∧
      ∀ q ∈ ptrList x.ptr ++ R, h'[q]? = h[q]? := by
  by_cases hn : v.rows = []
  · obtain ⟨e1, e2⟩ := hx.null hn
    rw [e2]
    exact ⟨h, rfl, by simpa [rqOwn, e2, rbList] using ho, fun _ _ => rfl⟩
  · obtain ⟨_, p, o, inner, e, _, hi⟩ := hx.some hn
    have ho' : OwnsAll h (ptrList o.ptr ++ (p :: (ptrList x.ptr ++ R))) := by
      refine OwnsAll.perm ?_ ho
      simp only [rqOwn, e, rbList, List.cons_append, List.append_assoc]
      exact (List.perm_middle).symm
    obtain ⟨h1, e1, o1, k1⟩ := rowFree_spec hi.rows.1 ho'
    obtain ⟨h2, e2, o2, k2⟩ := owns_free o1
    refine ⟨h2, ?_, o2, fun q hq => (k2 q hq).trans (k1 q (by simp only [List.mem_cons]; exact Or.inr hq))⟩
    rw [e]
    show (do let h1 ← polyDestroy h o; objFree h1 p) = _
    unfold polyDestroy
    rw [e1, ok_bind, e2]

theorem rqRelease_spec {h : RowHeap γ} {R : List ℕ} {x : RqObj α} {v : BasisVal α γ}
    (ho : OwnsAll h (rqOwn x ++ R)) (hx : RqHolds h x v) :
    ∃ h', rqRelease h x = .ok h' ∧ OwnsAll h' R ∧ ∀ q ∈ R, h'[q]? = h[q]? := by
  unfold rqRelease
  by_cases hn : v.rows = []
  · obtain ⟨e1, e2⟩ := hx.null hn
    rw [if_neg (by simp [hx.size, hn])]
    exact ⟨h, rfl, by simpa [rqOwn, e1, e2, rbList, ptrList] using ho, fun _ _ => rfl⟩
  · rw [if_pos (by rw [hx.size]; simpa using hn)]
    obtain ⟨h1, e1, o1, k1⟩ := rbDelete_spec ho hx
    obtain ⟨h2, e2, o2, k2⟩ := rowFree_spec hx.rows.1 o1
    exact ⟨h2, by rw [e1, ok_bind, e2], o2, fun q hq => (k2 q hq).trans (k1 q (by simp [hq]))⟩

theorem rqFrom_spec (z : α) {h : RowHeap γ} {R : List ℕ} {y : RqObj α} {v : BasisVal α γ}
    (hn : v.rows ≠ []) (ho : OwnsAll h R) (hyR : ∀ q ∈ rqOwn y, q ∈ R) (hy : RqHolds h y v) :
    ∃ h' o, rqFrom z h y = .ok (h', o) ∧ OwnsAll h' (rqOwn o ++ R) ∧ (∀ q ∈ R, h'[q]? = h[q]?) ∧
      RqHolds h' o v := by
  obtain ⟨hsw, p, i, inner, er, hl, hi⟩ := hy.some hn
  have hin : inner ≠ [] := by
    rintro rfl
    exact hn (List.length_eq_zero_iff.1 hl.symm)
  obtain ⟨h1, q1, e1, o1, k1, c1⟩ := alloc_spec (.emptied : Block (List γ)) ho
  have hy1 := hy.congr (h' := h1) fun q hq => k1 q (hyR q hq)
  have hiR : ∀ q ∈ ptrList i.ptr, q ∈ R := fun q hq => hyR q (by simp [rqOwn, er, rbList, hq])
  have hi1 : PolyHolds true h1 i ⟨v.par, inner⟩ := hi.congr fun q hq => k1 q (hiR q hq)
  obtain ⟨h2, q2, e2, o2, k2, c2⟩ := rowCopy_spec o1 hi1.rows
  have hy2 := hy1.congr (h' := h2) fun q hq => k2 q (by simp [hyR q hq])
  obtain ⟨h3, q3, e3, o3, k3, c3⟩ := rowCopy_spec o2 hy2.rows
  refine ⟨h3, ⟨y.par, y.sw, y.size, some (q1, ⟨i.par, i.sw, i.size, .addr q2⟩), .addr q3⟩,
    ?_, ?_, fun q hq => (k3 q (by simp [hq])).trans ((k2 q (by simp [hq])).trans (k1 q hq)), ?_⟩
  · unfold rqFrom
    simp only [er, e1]
    have : rbAssign h1 (polyDflt z) i = .ok (h2, ⟨i.par, i.sw, i.size, .addr q2⟩) := by
      unfold rbAssign polyRelease
      rw [if_neg (by simp [polyDflt])]
      show (if i.size ≠ 0 then _ else _) = _
      rw [if_pos (by rw [hi.size]; simpa using hin), hi.size]
      simp only at e2
      rw [e2]; rfl
    rw [this, ok_bind]
    simp only
    rw [if_pos (by rw [hy.size]; simpa using hn), hy.size, e3]; rfl
  · refine OwnsAll.perm ?_ o3
    simp only [rqOwn, rbList, ptrList]
    exact List.perm_iff_count.2 fun a => by
      simp only [List.count_append, List.count_cons, List.count_nil]; omega
  · refine ⟨hy.par, hy.size, fun h => absurd h hn, hasRows_addr c3, fun _ => ⟨hsw, q1, _, inner, rfl, hl, ?_⟩⟩
    exact ⟨hi.par, hi.size, fun _ h => absurd h hin, hi.sw,
      hasRows_addr ((k3 q2 (by simp)).trans c2)⟩

/-- `RQ_Chebyshev`. -/
def rqOK (z : α) (zero : γ) (F : BasisFill α γ δ) :
    ClassOK (rqClass z zero F) z zero F.full rqGuard true 3 where
  own := rqOwn
  inv := RqHolds
  inv_congr := RqHolds.congr
  see := by
    intro h o v hx
    show (do let r ← rowRead h o.size o.ptr; return (⟨o.par, r⟩ : BasisVal α γ)) = _
    rw [hx.size, rowRead_spec hx.rows, ok_bind, hx.par]; rfl
  count := by
    intro h o v _ hx
    by_cases hn : v.rows = []
    · obtain ⟨e1, e2⟩ := hx.null hn
      simp [rqOwn, e1, e2, rbList, ptrList, hn]
    · obtain ⟨_, p, i, inner, er, hl, hi⟩ := hx.some hn
      have hin : inner ≠ [] := by
        rintro rfl
        exact hn (List.length_eq_zero_iff.1 hl.symm)
      obtain ⟨a, e1, _⟩ := hx.rows.2 hn
      obtain ⟨b, e2, _⟩ := hi.rows.2 hin
      have : v.rows.isEmpty = false := by simpa using hn
      simp [rqOwn, er, e1, e2, rbList, ptrList, this]
  dflt _ := ⟨rfl, rqHolds_dflt z z⟩
  make := by
    intro h R a n hg ho
    have hn : n ≠ 0 := by simpa [rqGuard] using hg
    obtain ⟨h1, q1, e1, o1, k1, c1⟩ := alloc_spec (.emptied : Block (List γ)) ho
    obtain ⟨h2, q2, e2, o2, k2, i2⟩ := polyMake_spec true zero a n (fun _ => hn) o1
    obtain ⟨h3, q3, e3, o3, k3, c3⟩ := alloc_spec (.val (List.replicate n zero)) o2
    refine ⟨h3, ⟨a, a, n, some (q1, ⟨a, a, n, .addr q2⟩), .addr q3⟩, ?_, ?_,
      fun q hq => (k3 q (by simp [hq])).trans ((k2 q (by simp [hq])).trans (k1 q hq)), ?_⟩
    · show Except.ok (rqMake zero h a n) = _
      simp only [rqMake, e1, e2, e3]
    · refine OwnsAll.perm ?_ o3
      simp only [rqOwn, rbList, ptrList]
      exact List.perm_iff_count.2 fun a => by
        simp only [List.count_append, List.count_cons, List.count_nil]; omega
    · refine ⟨rfl, by simp, fun h => absurd (by simpa using h) hn, hasRows_addr c3, fun _ =>
        ⟨rfl, q1, _, List.replicate n zero, rfl, rfl, ?_⟩⟩
      exact i2.congr fun q hq => k3 q (by
        have : q = q2 := by simpa [ptrList] using hq
        simp [this])
  copy := by
    intro h R y v hg ho hyR hy
    exact rqFrom_spec z (rows_guard hg rfl) ho hyR hy
  move := by
    intro h R y v _ ho hy
    exact ⟨h, y, ⟨z, y.sw, 0, none, .null⟩, [], rfl, by simpa [rqOwn, rbList, ptrList] using ho,
      fun _ _ => rfl, hy, rqHolds_dflt z y.sw h, fun _ => rfl⟩
  assign := by
    intro h R x y u v hg ho hyR hx hy
    obtain ⟨h1, e1, o1, k1⟩ := rqRelease_spec ho hx
    obtain ⟨h2, o, e2, o2, k2, i2⟩ := rqFrom_spec z (rows_guard hg (by simp [rqGuard])) o1 hyR
      (hy.congr fun q hq => k1 q (hyR q hq))
    refine ⟨h2, o, [], ?_, o2, fun q hq => (k2 q hq).trans (k1 q hq), i2, fun _ => rfl⟩
    show rqAssign z h x y = _
    unfold rqAssign
    rw [e1, ok_bind, e2]
  moveAssign := by
    intro h R x y u v _ ho hx hy
    obtain ⟨h1, e1, o1, k1⟩ := rqRelease_spec ho hx
    refine ⟨h1, y, ⟨z, y.sw, 0, none, .null⟩, [], ?_, by simpa [rqOwn, rbList, ptrList] using o1,
      fun q hq => k1 q (by simp [hq]), hy.congr fun q hq => k1 q (by simp [hq]),
      rqHolds_dflt z y.sw h1, fun _ => rfl⟩
    show rqMoveAssign z h x y = _
    unfold rqMoveAssign
    rw [e1]; rfl
  build := by
    intro h R x v d hg ho hx
    have hn : v.rows ≠ [] := rows_guard hg rfl
    obtain ⟨hsw, p, i, inner, er, hl, hi⟩ := hx.some hn
    show if F.dom v.par d = true then _ else rqBuildObj F h x d = _
    by_cases hd : F.dom v.par d = true
    · rw [if_pos hd]
      have ho1 : OwnsAll h (ptrList i.ptr ++ (p :: (ptrList x.ptr ++ R))) := by
        refine OwnsAll.perm ?_ ho
        simp only [rqOwn, er, rbList, List.cons_append, List.append_assoc]
        exact (List.perm_middle).symm
      obtain ⟨h1, e1, o1, k1, i1⟩ := polyBuild_spec F d ho1 hi hd
      have hx1 : HasRows h1 x.ptr v.rows := hx.rows.congr fun q hq => k1 q (by simp [hq])
      have ho2 : OwnsAll h1 (ptrList x.ptr ++ (ptrList i.ptr ++ (p :: R))) := by
        refine OwnsAll.perm ?_ o1
        exact List.perm_iff_count.2 fun a => by
          simp only [List.count_append, List.count_cons]; omega
      obtain ⟨h2, e2, o2, k2, r2⟩ := rowWrite_spec (new :=
        (List.range v.rows.length).map (F.full.row v.par d)) ho2 hx1 (by simp)
      refine ⟨h2, ?_, ?_, fun q hq => (k2 q (by simp [hq])).trans (k1 q (by simp [hq])), ?_⟩
      · show rqBuildObj F h x d = _
        unfold rqBuildObj
        rw [hx.par, if_pos hd]
        simp only [er]
        rw [e1, ok_bind, hx.size]
        have hlen : v.rows.length
            = ((List.range inner.length).map (F.row v.par v.par d)).length := by simp [hl]
        rw [hlen, rowRead_spec i1.rows, ok_bind, ← e2, hsw, List.map_map, hl]
        rfl
      · refine OwnsAll.perm ?_ o2
        simp only [rqOwn, er, rbList]
        exact List.perm_iff_count.2 fun a => by
          simp only [List.count_append, List.count_cons]; omega
      · refine ⟨hx.par, by simp [hx.size], fun h => ?_, r2, fun _ => ⟨hsw, p, i,
          (List.range inner.length).map (F.row v.par v.par d), er, by simp [hl], ?_⟩⟩
        · exact absurd (by simpa using h) hn
        · exact i1.congr fun q hq => k2 q (by simp [hq])
    · rw [if_neg hd]
      unfold rqBuildObj
      rw [hx.par, if_neg hd]
  destroy := by
    intro h R x v ho hx
    obtain ⟨h1, e1, o1, k1⟩ := rbDelete_spec ho hx
    obtain ⟨h2, e2, o2, k2⟩ := rowFree_spec hx.rows.1 o1
    refine ⟨h2, ?_, o2, fun q hq => (k2 q hq).trans (k1 q (by simp [hq]))⟩
    show rqDestroy h x = _
    unfold rqDestroy
    rw [e1, ok_bind, e2]

/-! ## `MtpQ` -/

/-- The blocks of an object. -/
def mtpqOwn (x : MtpqObj α) : List ℕ := ptrList x.ptr ++ ptrList x.cheb.ptr

/-- The object has the value `v`. -/
structure MtpqHolds (t : Bool) (h : RowHeap γ) (x : MtpqObj α) (v : BasisVal α γ) : Prop where
  sw : x.sw = v.par
  size : x.size = v.rows.length
  null : t = true → v.rows = [] → x.ptr = .null
  rows : HasRows h x.ptr v.rows
  cheb : ∃ a inner, inner.length = v.rows.length ∧ (v.rows ≠ [] → a = v.par) ∧
    PolyHolds t h x.cheb ⟨a, inner⟩

theorem MtpqHolds.congr {t : Bool} {h h' : RowHeap γ} {x : MtpqObj α} {v : BasisVal α γ}
    (he : ∀ q ∈ mtpqOwn x, h'[q]? = h[q]?) (hx : MtpqHolds t h x v) : MtpqHolds t h' x v := by
  obtain ⟨a, inner, h1, h2, h3⟩ := hx.cheb
  exact ⟨hx.sw, hx.size, hx.null, hx.rows.congr fun q hq => he q (by simp [mtpqOwn, hq]), a, inner, h1, h2,
    h3.congr fun q hq => he q (by simp [mtpqOwn, hq])⟩

theorem mtpqRelease_spec {t : Bool} {h : RowHeap γ} {R : List ℕ} {x : MtpqObj α}
    {u : BasisVal α γ} (ho : OwnsAll h (ptrList x.ptr ++ R)) (hx : MtpqHolds t h x u) :
    ∃ h' L, mtpqRelease h x = .ok h' ∧ OwnsAll h' (L ++ R) ∧ (∀ q ∈ R, h'[q]? = h[q]?) ∧
      (t = true → L = []) := by
  unfold mtpqRelease
  by_cases hn : u.rows = []
  · rw [if_neg (by simp [hx.size, hn])]
    exact ⟨h, ptrList x.ptr, rfl, ho, fun _ _ => rfl, fun ht => by rw [hx.null ht hn]; rfl⟩
  · rw [if_pos (by rw [hx.size]; simpa using hn)]
    obtain ⟨h', e, o1, k1⟩ := rowFree_spec hx.rows.1 ho
    exact ⟨h', [], e, by simpa using o1, k1, fun _ => rfl⟩

theorem mtpqEmptied_spec (z : α) {t : Bool} {h : RowHeap γ} {R : List ℕ} {y : MtpqObj α}
    {c : BasisVal α γ} (ho : OwnsAll h (ptrList y.cheb.ptr ++ R)) (hc : PolyHolds t h y.cheb c) :
    ∃ h' L, mtpqEmptied z h y = .ok (h', ⟨z, 0, polyDflt z, .null⟩) ∧ OwnsAll h' (L ++ R) ∧
      (∀ q ∈ R, h'[q]? = h[q]?) ∧ (t = true → L = []) := by
  obtain ⟨h1, L, e1, o1, k1, hL⟩ := polyRelease_spec ho hc
  refine ⟨h1, L, ?_, o1, k1, hL⟩
  unfold mtpqEmptied polyMoveAssign
  rw [e1]; rfl

theorem mtpqHolds_emptied (t : Bool) (z : α) (h : RowHeap γ) :
    MtpqHolds t h ⟨z, 0, polyDflt z, .null⟩ ⟨z, []⟩ :=
  ⟨rfl, rfl, fun _ _ => rfl, hasRows_null h, z, [], rfl, fun h => absurd rfl h, polyHolds_dflt t z z h⟩

/-- `MtpQ`. -/
def mtpqOK (t : Bool) (z : α) (zero : γ) (F : BasisFill α γ δ) (hF : ∀ a d, F.dom a d = true) :
    ClassOK (mtpqClass z zero F) z zero F.full (if t then mtpqTight else mtpqGuard) t 2 where
  own := mtpqOwn
  inv := MtpqHolds t
  inv_congr := MtpqHolds.congr
  see := by
    intro h o v hx
    show (do let r ← rowRead h o.size o.ptr; return (⟨o.sw, r⟩ : BasisVal α γ)) = _
    rw [hx.size, rowRead_spec hx.rows, ok_bind, hx.sw]; rfl
  count := by
    intro h o v ht hx
    subst ht
    obtain ⟨a, inner, h1, h2, h3⟩ := hx.cheb
    have hc := h3.count
    by_cases hn : v.rows = []
    · have hi : inner = [] := List.length_eq_zero_iff.1 (by rw [h1, hn]; rfl)
      subst hi
      simp only [List.isEmpty_nil, if_true] at hc
      rw [mtpqOwn, List.length_append, hc, hx.null rfl hn, hn]
      rfl
    · have hi : inner ≠ [] := by
        rintro rfl
        exact hn (List.length_eq_zero_iff.1 h1.symm)
      have e1 : v.rows.isEmpty = false := by simpa using hn
      have e2 : inner.isEmpty = false := by simpa using hi
      obtain ⟨b, e3, _⟩ := hx.rows.2 hn
      simp only [e2, Bool.false_eq_true, if_false] at hc
      rw [mtpqOwn, List.length_append, hc, e3, e1]
      rfl
  dflt hg := by cases t <;> simp [mtpqTight, mtpqGuard] at hg
  make := by
    intro h R a n hg ho
    have hn : t = true → n ≠ 0 := by
      rintro rfl
      simpa [mtpqTight] using hg
    obtain ⟨h1, q1, e1, o1, k1, i1⟩ := polyMake_spec t zero a n hn ho
    obtain ⟨h2, q2, e2, o2, k2, c2⟩ := alloc_spec (.val (List.replicate n zero)) o1
    refine ⟨h2, ⟨a, n, ⟨a, a, n, .addr q1⟩, .addr q2⟩, ?_, o2,
      fun q hq => (k2 q (by simp [hq])).trans (k1 q hq), ?_⟩
    · show mtpqMake z zero h a n = _
      unfold mtpqMake
      simp only [e1]
      have : polyMoveAssign true z h1 (polyDflt z) ⟨a, a, n, .addr q1⟩
          = .ok (h1, ⟨a, a, n, .addr q1⟩, ⟨z, a, 0, .null⟩) := rfl
      rw [this, ok_bind]
      simp only [polyDestroy, rowFree, ok_bind, e2]
      rfl
    · refine ⟨rfl, by simp, fun ht h => absurd (by simpa using h) (hn ht), hasRows_addr c2,
        a, List.replicate n zero, rfl, fun _ => rfl, ?_⟩
      exact i1.congr fun q hq => k2 q (by
        have : q = q1 := by simpa [ptrList] using hq
        simp [this])
  copy := by
    intro h R y v hg ho hyR hy
    obtain ⟨a, inner, h1, h2, h3⟩ := hy.cheb
    have hv : t = true → v.rows ≠ [] := by
      rintro rfl
      exact rows_guard hg rfl
    have hi : t = true → inner ≠ [] := by
      rintro ht rfl
      exact hv ht (List.length_eq_zero_iff.1 h1.symm)
    obtain ⟨g1, q1, e1, o1, k1, i1⟩ := chInit_spec z (t := t) hi ho
      (fun q hq => hyR q (by simp [mtpqOwn, hq])) h3
    have hy1 := hy.congr (h' := g1) fun q hq => k1 q (hyR q hq)
    obtain ⟨g2, q2, e2, o2, k2, c2⟩ := rowCopy_spec o1 hy1.rows
    refine ⟨g2, ⟨y.sw, y.size, ⟨y.cheb.par, y.cheb.sw, y.cheb.size, .addr q1⟩, .addr q2⟩, ?_, o2,
      fun q hq => (k2 q (by simp [hq])).trans (k1 q hq), ?_⟩
    · show mtpqCopy z h y = _
      unfold mtpqCopy
      rw [e1, ok_bind]
      simp only
      rw [hy.size, e2]; rfl
    · refine ⟨hy.sw, hy.size, fun ht h => absurd h (hv ht), hasRows_addr c2, a, inner, h1, h2, ?_⟩
      exact i1.congr fun q hq => k2 q (by
        have : q = q1 := by simpa [ptrList] using hq
        simp [this])
  move := by
    intro h R y v hg ho hy
    obtain ⟨a, inner, h1, h2, h3⟩ := hy.cheb
    have hv : t = true → v.rows ≠ [] := by
      rintro rfl
      exact rows_guard hg rfl
    have hi : t = true → inner ≠ [] := by
      rintro ht rfl
      exact hv ht (List.length_eq_zero_iff.1 h1.symm)
    obtain ⟨g1, q1, e1, o1, k1, i1⟩ := chInit_spec z (t := t) hi ho
      (fun q hq => by simp [mtpqOwn, hq]) h3
    have o1' : OwnsAll g1 (ptrList y.cheb.ptr ++ (q1 :: (ptrList y.ptr ++ R))) := by
      refine OwnsAll.perm ?_ o1
      exact List.perm_iff_count.2 fun a => by
        simp only [mtpqOwn, List.count_append, List.count_cons]; omega
    have h3' : PolyHolds t g1 y.cheb ⟨a, inner⟩ := h3.congr fun q hq => k1 q (by simp [mtpqOwn, hq])
    obtain ⟨g2, L, e2, o2, k2, hL⟩ := mtpqEmptied_spec z (y := y) o1' h3'
    refine ⟨g2, ⟨y.sw, y.size, ⟨y.cheb.par, y.cheb.sw, y.cheb.size, .addr q1⟩, y.ptr⟩,
      ⟨z, 0, polyDflt z, .null⟩, L, ?_, ?_,
      fun q hq => (k2 q (by simp [hq])).trans (k1 q (by simp [hq])), ?_, mtpqHolds_emptied t z g2, hL⟩
    · show mtpqMove z h y = _
      unfold mtpqMove
      rw [e1, ok_bind]
      simp only
      rw [e2]; rfl
    · refine OwnsAll.perm ?_ o2
      exact List.perm_iff_count.2 fun a => by
        simp only [mtpqOwn, polyDflt, ptrList, List.count_append, List.count_cons, List.count_nil]; omega
    · refine ⟨hy.sw, hy.size, hy.null, hy.rows.congr fun q hq =>
        (k2 q (by simp [hq])).trans (k1 q (by simp [mtpqOwn, hq])), a, inner, h1, h2, ?_⟩
      exact i1.congr fun q hq => k2 q (by
        have : q = q1 := by simpa [ptrList] using hq
        simp [this])
  assign := by
    intro h R x y u v hg ho hyR hx hy
    obtain ⟨a, inner, h1, h2, h3⟩ := hy.cheb
    obtain ⟨b, xin, h4, h5, h6⟩ := hx.cheb
    have hv : t = true → v.rows ≠ [] := by
      rintro rfl
      exact rows_guard hg (by simp [mtpqTight])
    have hi : t = true → inner ≠ [] := by
      rintro ht rfl
      exact hv ht (List.length_eq_zero_iff.1 h1.symm)
    obtain ⟨g1, L1, e1, o1, k1, hL1⟩ := mtpqRelease_spec (R := ptrList x.cheb.ptr ++ R)
      (by simpa [mtpqOwn] using ho) hx
    have hy1 := hy.congr (h' := g1) fun q hq => k1 q (by simp [hyR q hq])
    have o1' : OwnsAll g1 (ptrList x.cheb.ptr ++ (L1 ++ R)) := by
      refine OwnsAll.perm ?_ o1
      exact List.perm_iff_count.2 fun a => by simp only [List.count_append]; omega
    obtain ⟨g2, q2, L2, e2, o2, k2, i2, hL2⟩ := chAssign_spec (t := t) hi o1'
      (fun q hq => by simp [hyR q (by simp [mtpqOwn, hq])])
      (h6.congr fun q hq => k1 q (by simp [hq]))
      (h3.congr fun q hq => k1 q (by simp [hyR q (by simp [mtpqOwn, hq])]))
    have hy2 := hy1.congr (h' := g2) fun q hq => k2 q (by simp [hyR q hq])
    obtain ⟨g3, q3, e3, o3, k3, c3⟩ := rowCopy_spec o2 hy2.rows
    refine ⟨g3, ⟨y.sw, y.size, ⟨y.cheb.par, y.cheb.sw, y.cheb.size, .addr q2⟩, .addr q3⟩, L2 ++ L1,
      ?_, by simpa [mtpqOwn, ptrList] using o3,
      fun q hq => (k3 q (by simp [hq])).trans ((k2 q (by simp [hq])).trans (k1 q (by simp [hq]))), ?_,
      fun ht => by rw [hL1 ht, hL2 ht]; rfl⟩
    · show mtpqAssign h x y = _
      unfold mtpqAssign
      rw [e1, ok_bind, e2, ok_bind]
      simp only
      rw [hy.size, e3]; rfl
    · refine ⟨hy.sw, hy.size, fun ht h => absurd h (hv ht), hasRows_addr c3, a, inner, h1, h2, ?_⟩
      exact i2.congr fun q hq => k3 q (by
        have : q = q2 := by simpa [ptrList] using hq
        simp [this])
  moveAssign := by
    intro h R x y u v hg ho hx hy
    obtain ⟨a, inner, h1, h2, h3⟩ := hy.cheb
    obtain ⟨b, xin, h4, h5, h6⟩ := hx.cheb
    have hv : t = true → v.rows ≠ [] := by
      rintro rfl
      exact rows_guard hg rfl
    have hi : t = true → inner ≠ [] := by
      rintro ht rfl
      exact hv ht (List.length_eq_zero_iff.1 h1.symm)
    obtain ⟨g1, L1, e1, o1, k1, hL1⟩ := mtpqRelease_spec (R := ptrList x.cheb.ptr ++ (mtpqOwn y ++ R))
      (by simpa [mtpqOwn] using ho) hx
    have hy1 := hy.congr (h' := g1) fun q hq => k1 q (by simp [hq])
    have o1' : OwnsAll g1 (ptrList x.cheb.ptr ++ (L1 ++ (mtpqOwn y ++ R))) := by
      refine OwnsAll.perm ?_ o1
      exact List.perm_iff_count.2 fun a => by simp only [List.count_append]; omega
    obtain ⟨g2, q2, L2, e2, o2, k2, i2, hL2⟩ := chAssign_spec (t := t) hi o1'
      (fun q hq => by simp [mtpqOwn, hq])
      (h6.congr fun q hq => k1 q (by simp [hq]))
      (h3.congr fun q hq => k1 q (by simp [mtpqOwn, hq]))
    have o2' : OwnsAll g2 (ptrList y.cheb.ptr ++ (q2 :: (ptrList y.ptr ++ (L2 ++ L1 ++ R)))) := by
      refine OwnsAll.perm ?_ o2
      exact List.perm_iff_count.2 fun a => by
        simp only [mtpqOwn, List.count_append, List.count_cons]; omega
    have h3' : PolyHolds t g2 y.cheb ⟨a, inner⟩ := h3.congr fun q hq =>
      (k2 q (by simp [mtpqOwn, hq])).trans (k1 q (by simp [mtpqOwn, hq]))
    obtain ⟨g3, L3, e3, o3, k3, hL3⟩ := mtpqEmptied_spec z (y := y) o2' h3'
    refine ⟨g3, ⟨y.sw, y.size, ⟨y.cheb.par, y.cheb.sw, y.cheb.size, .addr q2⟩, y.ptr⟩,
      ⟨z, 0, polyDflt z, .null⟩, L3 ++ (L2 ++ L1), ?_, ?_,
      fun q hq => (k3 q (by simp [hq])).trans ((k2 q (by simp [hq])).trans (k1 q (by simp [hq]))), ?_,
      mtpqHolds_emptied t z g3, fun ht => by rw [hL1 ht, hL2 ht, hL3 ht]; rfl⟩
    · show mtpqMoveAssign z h x y = _
      unfold mtpqMoveAssign
      rw [e1, ok_bind, e2, ok_bind]
      simp only
      rw [e3]; rfl
    · refine OwnsAll.perm ?_ o3
      exact List.perm_iff_count.2 fun a => by
        simp only [mtpqOwn, polyDflt, ptrList, List.count_append, List.count_cons, List.count_nil]; omega
    · refine ⟨hy.sw, hy.size, hy.null, hy.rows.congr fun q hq => (k3 q (by simp [hq])).trans
        ((k2 q (by simp [mtpqOwn, hq])).trans (k1 q (by simp [mtpqOwn, hq]))), a, inner, h1, h2, ?_⟩
      exact i2.congr fun q hq => k3 q (by
        have : q = q2 := by simpa [ptrList] using hq
        simp [this])
  build := by
    intro h R x v d _ ho hx
    obtain ⟨a, inner, h1, h2, h3⟩ := hx.cheb
    rw [if_pos (show F.full.dom v.par d = true from hF _ _)]
    obtain ⟨g1, e1, o1, k1, i1⟩ := polyBuild_spec F d (R := ptrList x.ptr ++ R) (by
      refine OwnsAll.perm ?_ ho
      exact List.perm_iff_count.2 fun a => by simp only [mtpqOwn, List.count_append]; omega) h3 (hF _ _)
    have hx1 : HasRows g1 x.ptr v.rows := hx.rows.congr fun q hq => k1 q (by simp [hq])
    obtain ⟨g2, e2, o2, k2, r2⟩ := rowWrite_spec (R := ptrList x.cheb.ptr ++ R) (new :=
      (List.range v.rows.length).map (F.full.row v.par d)) (by
        refine OwnsAll.perm ?_ o1
        exact List.perm_iff_count.2 fun a => by simp only [List.count_append]; omega) hx1 (by simp)
    have hrow : (List.range inner.length).map (F.row a a d)
        = (List.range inner.length).map (F.row v.par v.par d) := by
      by_cases hn : v.rows = []
      · have : inner = [] := List.length_eq_zero_iff.1 (by rw [h1, hn]; rfl)
        rw [this]; rfl
      · rw [h2 hn]
    refine ⟨g2, ?_, by simpa [mtpqOwn] using o2,
      fun q hq => (k2 q (by simp [hq])).trans (k1 q (by simp [hq])), ?_⟩
    · show mtpqBuildObj F h x d = _
      unfold mtpqBuildObj
      rw [e1, ok_bind, hx.size]
      have hlen : v.rows.length = ((List.range inner.length).map (F.row a a d)).length := by simp [h1]
      rw [hlen, rowRead_spec i1.rows, ok_bind, ← e2, hrow, hx.sw, List.map_map, h1]
      rfl
    · refine ⟨hx.sw, by simp [hx.size], fun ht h => hx.null ht (by simpa using h), r2, a, _, ?_, ?_,
        i1.congr fun q hq => k2 q (by simp [hq])⟩
      · simp [h1]
      · intro h
        exact h2 (by simpa using h)
  destroy := by
    intro h R x v ho hx
    obtain ⟨a, inner, h1, h2, h3⟩ := hx.cheb
    obtain ⟨g1, e1, o1, k1⟩ := rowFree_spec (R := ptrList x.cheb.ptr ++ R) hx.rows.1
      (by simpa [mtpqOwn] using ho)
    obtain ⟨g2, e2, o2, k2⟩ := rowFree_spec h3.rows.1 o1
    refine ⟨g2, ?_, o2, fun q hq => (k2 q hq).trans (k1 q (by simp [hq]))⟩
    show mtpqDestroy h x = _
    unfold mtpqDestroy polyDestroy
    rw [e1, ok_bind, e2]

end MaterSDK
