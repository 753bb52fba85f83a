import Verif.Lemmas.Stable
import Verif.Props.CrossD
import Verif.Props.StructIO

/-!
# C211, C212: features of slightly different structures

`ε` bounds the displacement of the atoms, `d` is the smallest distance of two atoms of the crystal.
-/

namespace MaterSDK

open Classical

/-! ## C211 -/

/-- C211: two structures with the same elements in the same order, whose atoms differ by at most `ε` in every
coordinate, no atom being as close to the cutoff as that.  Then the neighbour tables exist for both, and for every pair
of elements and every sufficient width, centre by centre, the rows and derivative blocks of one are those of the other
up to the order of the slots and to a change proportional to `ε`. -/
theorem C211_stable (A A' : ArgSort) (s s' : Struct ℝ) (hne : s.sites ≠ []) (rcut rs d ε : ℝ) (hr : 0 ≤ rcut)
    (sc : Fin 3 → ℤ) (m : Fin 3 → ℕ) (h : ∀ i, sc i = 2 * (m i : ℤ) + 1)
    (hD : Displaced s s' m ε) (hd : 0 < d) (hap : FarImages s.lattice (s.sites.map Site.pos) d)
    (h1 : 256 * ε ≤ d) (h2 : 128 * ε ≤ rcut - rs) (hrs : rs < rcut) (h3 : rcut * 2 ^ (-48 : ℤ) ≤ ε)
    (hgap : NoneNear s rcut (6 * ε)) :
    ∃ S table table', s.makeSupercell sc true = .ok S ∧ neighborTable A s rcut sc = .ok table ∧
      neighborTable A' s' rcut sc = .ok table' ∧
      ∀ cz nz width : ℕ, 0 < nz → (∀ c ∈ s.sites, c.z = cz → (nbrsOf S c.pos rcut nz).length ≤ width) →
        ∃ rows rows' : List (List (Fin 4 → ℝ) × List (Matrix (Fin 4) (Fin 3) ℝ)),
          getTildeR rcut rs table cz nz width = .ok (rows.map Prod.fst) ∧
          calcDerivative rcut rs table cz nz width = .ok (rows.map Prod.snd) ∧
          getTildeR rcut rs table' cz nz width = .ok (rows'.map Prod.fst) ∧
          calcDerivative rcut rs table' cz nz width = .ok (rows'.map Prod.snd) ∧
          rows.length = (s.sites.filter (fun c => c.z = cz)).length ∧
          List.Forall₂ (fun row row' => (row.1.length = width ∧ row.2.length = width) ∧
              (row'.1.length = width ∧ row'.2.length = width) ∧
              SlotsWithin (envMoveTol ε rcut rs d) (derivMoveTol ε rcut rs d) row row') rows rows' := by
  have hε : 0 ≤ ε := le_trans (mul_nonneg hr (by positivity)) h3
  obtain ⟨S, hS⟩ : ∃ S, s.makeSupercell sc true = .ok S := ⟨_, makeSupercell_odd s m h true⟩
  obtain ⟨S', hS'⟩ : ∃ S', s'.makeSupercell sc true = .ok S' := ⟨_, makeSupercell_odd s' m h true⟩
  have hfar := moved_far hD h hS hap
  have hnod : (S.sites.map Site.pos).Nodup := by
    rw [movedSorted_fst hD.length_eq h hS, List.map_map, List.Nodup, List.pairwise_map]
    refine hfar.imp ?_
    rintro q r ⟨hqr, _⟩ e
    simp only [Function.comp] at e
    rw [e, dist3_self] at hqr
    linarith
  have hnod' : (S'.sites.map Site.pos).Nodup := by
    rw [movedSorted_snd hD h hS', List.map_map, List.Nodup, List.pairwise_map]
    refine hfar.imp ?_
    rintro q r ⟨_, hqr⟩ e
    simp only [Function.comp] at e
    rw [e, dist3_self] at hqr
    linarith
  have hne' : s'.sites ≠ [] := by
    intro e
    have := hD.length_eq
    rw [e] at this
    exact hne (List.length_eq_zero_iff.1 this)
  obtain ⟨table, _, _, t1, _⟩ := pair_spec_nodup A s S hne rcut hr sc m h hS hnod 0 1 (by norm_num)
  obtain ⟨table', _, _, t1', _⟩ := pair_spec_nodup A' s' S' hne' rcut hr sc m h hS' hnod' 0 1 (by norm_num)
  refine ⟨S, table, table', hS, t1, t1', ?_⟩
  intro cz nz width hnz hw
  have hw' : ∀ c ∈ s'.sites, c.z = cz → (nbrsOf S' c.pos rcut nz).length ≤ width := by
    intro c hc hz
    obtain ⟨i, hi, rfl⟩ := List.mem_iff_getElem.1 hc
    have hi' : i < s.sites.length := by rw [hD.length_eq]; exact hi
    have hmem : (s.sites[i], s'.sites[i]) ∈ s.sites.zip s'.sites := by
      rw [← List.getElem_zip (i := i) (h := by simp [hi, hi'])]
      exact List.getElem_mem _
    obtain ⟨Q, q1, q2, _⟩ := moved_nbrs hD hε h hS hS' hd hap h1 hgap hmem nz
    simp only at q1 q2
    have := hw s.sites[i] (List.getElem_mem hi') (by rw [← hz]; exact ((hD.zip hmem).1).symm)
    rw [q1, List.length_map] at this
    rw [q2, List.length_map]
    exact this
  obtain ⟨rows, r1, r2, r3⟩ := py_rows_nodup A s S hne rcut rs hr hrs sc m h hS hnod cz nz hnz width hw table t1
  obtain ⟨rows', r1', r2', r3'⟩ := py_rows_nodup A' s' S' hne' rcut rs hr hrs sc m h hS' hnod' cz nz hnz width hw'
    table' t1'
  refine ⟨rows, rows', r1, r2, r1', r2', ?_, ?_⟩
  · rw [← r3.length_eq]
    exact ((sortByKey_perm _ _).filter _).length_eq
  obtain ⟨P, p1, p2, p3⟩ := reformat_pairs hD
  rw [p2, List.filter_map, List.forall₂_map_left_iff] at r3
  have hfil : (P.map Prod.snd).filter (fun c => decide (c.z = cz))
      = (P.filter ((fun c : Site ℝ => decide (c.z = cz)) ∘ Prod.fst)).map Prod.snd := by
    rw [List.filter_map]
    congr 1
    refine List.filter_congr ?_
    intro q hq
    simp only [Function.comp, (hD.zip (p1.mem_iff.1 hq)).1]
  rw [p3, hfil, List.forall₂_map_left_iff] at r3'
  have hPP : ∀ c ∈ P.filter ((fun c : Site ℝ => decide (c.z = cz)) ∘ Prod.fst), c ∈ s.sites.zip s'.sites :=
    fun c hc => p1.mem_iff.1 (List.mem_filter.1 hc).1
  generalize P.filter ((fun c : Site ℝ => decide (c.z = cz)) ∘ Prod.fst) = C at *
  rw [List.forall₂_iff_get] at r3 r3' ⊢
  refine ⟨by rw [← r3.1, ← r3'.1], ?_⟩
  intro i hi hi'
  have hiC : i < C.length := by rw [r3.1]; exact hi
  obtain ⟨l1, l2, ts, a1, _, a2⟩ := r3.2 i hiC hi
  obtain ⟨l1', l2', ts', b1, _, b2⟩ := r3'.2 i hiC hi'
  refine ⟨⟨l1, l2⟩, ⟨l1', l2'⟩, ?_⟩
  have hcm : C.get ⟨i, hiC⟩ ∈ s.sites.zip s'.sites := hPP _ (List.getElem_mem hiC)
  generalize C.get ⟨i, hiC⟩ = c at *
  obtain ⟨Q, q1, q2, q3⟩ := moved_nbrs hD hε h hS hS' hd hap h1 hgap hcm nz
  obtain ⟨Q1, c1, rfl⟩ := perm_lift Prod.fst ts Q (by rw [← q1]; exact a1)
  obtain ⟨Q2, c2, rfl⟩ := perm_lift Prod.snd ts' Q (by rw [← q2]; exact b1)
  have hcc : ∀ p, |c.2.pos p - c.1.pos p| ≤ ε := by
    intro p
    have := (hD.zip hcm).2 0 (by simp) p
    simpa [imagePos] using this
  have hl := (c1.trans c2.symm).length_eq
  have e1 : (0 : ℝ) ≤ envMoveTol ε rcut rs d := by
    have a1 : 0 < rcut - rs := by linarith
    unfold envMoveTol; positivity
  have e2 : (0 : ℝ) ≤ derivMoveTol ε rcut rs d := by
    have a1 : 0 < rcut - rs := by linarith
    unfold derivMoveTol; positivity
  unfold SlotsWithin
  rw [a2, b2, List.map_map, List.map_map, List.length_map, List.length_map, ← hl]
  refine ⟨_, ((c1.trans c2.symm).map _).append_right _, ?_⟩
  refine List.rel_append ?_ ?_
  · rw [List.forall₂_map_left_iff, List.forall₂_map_right_iff, List.forall₂_same]
    intro q hq
    obtain ⟨g1, g2, g3, g4, g5⟩ := q3 q (c1.mem_iff.1 hq)
    exact slot_move nz hrs hd g2 g3 g4 g5 g1 hcc h1 h2 h3
  · rw [List.forall₂_same]
    intro x hx
    exact ⟨fun a => by simpa using e1, fun a b => by simpa using e2⟩

/-! ## C212 -/

theorem frac_moves {f f' l l' n F : ℝ} (hf : |f' - f| ≤ 5 / 10 ^ 7) (hl : |l' - l| ≤ 5 / 10 ^ 7 * |l|)
    (hF : |f| + |n| + 2 ≤ F) : |(f' + n) * l' - (f + n) * l| ≤ 5 / 10 ^ 7 * (F * |l|) := by
  have e : (f' + n) * l' - (f + n) * l = (f + n) * (l' - l) + (f' - f) * l + (f' - f) * (l' - l) := by ring
  rw [e]
  have a := abs_add_le ((f + n) * (l' - l) + (f' - f) * l) ((f' - f) * (l' - l))
  have b := abs_add_le ((f + n) * (l' - l)) ((f' - f) * l)
  rw [abs_mul, abs_mul] at b
  rw [abs_mul] at a
  have c := abs_add_le f n
  have hl0 := abs_nonneg l
  have m1 : |f + n| * |l' - l| ≤ (|f| + |n|) * (5 / 10 ^ 7 * |l|) :=
    mul_le_mul c hl (abs_nonneg _) (by positivity)
  have m2 : |f' - f| * |l| ≤ 5 / 10 ^ 7 * |l| := mul_le_mul_of_nonneg_right hf hl0
  have m3 : |f' - f| * |l' - l| ≤ 5 / 10 ^ 7 * (5 / 10 ^ 7 * |l|) :=
    mul_le_mul hf hl (abs_nonneg _) (by positivity)
  have m4 := mul_le_mul_of_nonneg_right hF hl0
  nlinarith

/-- The change made by writing and reading. -/
theorem displaced_saved (z : Str → ℕ) (q q' : QStruct) (m : Fin 3 → ℕ) (M : ℝ)
    (hsp : q'.sites.map QSite.specie = q.sites.map QSite.specie)
    (hfr : ∀ (k : Nat) (t t' : QSite), q.sites[k]? = some t → q'.sites[k]? = some t' →
        |t'.frac.x - t.frac.x| ≤ 5 / 10 ^ 7 ∧ |t'.frac.y - t.frac.y| ≤ 5 / 10 ^ 7 ∧
        |t'.frac.z - t.frac.z| ≤ 5 / 10 ^ 7)
    (hlat : ∀ f ∈ [Q3.x, Q3.y, Q3.z], |f q'.a - f q.a| ≤ 5 / 10 ^ 7 * |f q.a| ∧
        |f q'.b - f q.b| ≤ 5 / 10 ^ 7 * |f q.b| ∧ |f q'.c - f q.c| ≤ 5 / 10 ^ 7 * |f q.c|)
    (hin : ∀ t ∈ q.sites, |t.frac.x| ≤ 1 ∧ |t.frac.y| ≤ 1 ∧ |t.frac.z| ≤ 1)
    (hM : ∀ p, ∑ i, ((m i : ℝ) + 3) * |(q.cart z).lattice i p| ≤ M) :
    Displaced (q.cart z) (q'.cart z) m (5 / 10 ^ 7 * M) := by
  have hlen : q'.sites.length = q.sites.length := by
    have := congrArg List.length hsp
    simpa using this
  have hq : ∀ {x y b : ℚ}, |x - y| ≤ 5 / 10 ^ 7 * b → |(x : ℝ) - y| ≤ 5 / 10 ^ 7 * (b : ℝ) := by
    intro x y b hxy
    have : ((|x - y| : ℚ) : ℝ) ≤ ((5 / 10 ^ 7 * b : ℚ) : ℝ) := by exact_mod_cast hxy
    push_cast at this
    exact this
  have hq1 : ∀ {x y : ℚ}, |x - y| ≤ 5 / 10 ^ 7 → |(x : ℝ) - y| ≤ 5 / 10 ^ 7 := by
    intro x y hxy
    have := hq (b := 1) (by rw [mul_one]; exact hxy)
    simpa using this
  have hL : ∀ i p, |(q'.cart z).lattice i p - (q.cart z).lattice i p| ≤ 5 / 10 ^ 7 * |(q.cart z).lattice i p| := by
    have hx := hlat Q3.x (by simp)
    have hy := hlat Q3.y (by simp)
    have hz := hlat Q3.z (by simp)
    intro i p
    fin_cases i <;> fin_cases p
    · simpa [QStruct.cart, Q3.vec] using hq hx.1
    · simpa [QStruct.cart, Q3.vec] using hq hy.1
    · simpa [QStruct.cart, Q3.vec] using hq hz.1
    · simpa [QStruct.cart, Q3.vec] using hq hx.2.1
    · simpa [QStruct.cart, Q3.vec] using hq hy.2.1
    · simpa [QStruct.cart, Q3.vec] using hq hz.2.1
    · simpa [QStruct.cart, Q3.vec] using hq hx.2.2
    · simpa [QStruct.cart, Q3.vec] using hq hy.2.2
    · simpa [QStruct.cart, Q3.vec] using hq hz.2.2
  unfold Displaced
  have hs1 : (q.cart z).sites = q.sites.map (fun t => ⟨z t.specie,
    (t.frac.x : ℝ) • q.a.vec + (t.frac.y : ℝ) • q.b.vec + (t.frac.z : ℝ) • q.c.vec, none⟩) := rfl
  have hs2 : (q'.cart z).sites = q'.sites.map (fun t => ⟨z t.specie,
    (t.frac.x : ℝ) • q'.a.vec + (t.frac.y : ℝ) • q'.b.vec + (t.frac.z : ℝ) • q'.c.vec, none⟩) := rfl
  rw [hs1, hs2, List.forall₂_map_left_iff, List.forall₂_map_right_iff, List.forall₂_iff_get]
  refine ⟨hlen.symm, ?_⟩
  intro k hk hk'
  simp only [List.get_eq_getElem]
  have hk1 := List.getElem?_eq_getElem hk
  have hk2 := List.getElem?_eq_getElem hk'
  obtain ⟨f0, f1, f2⟩ := hfr k _ _ hk1 hk2
  obtain ⟨i0, i1, i2⟩ := hin _ (List.getElem_mem hk)
  refine ⟨?_, ?_⟩
  · have := congrArg (fun l => l[k]?) hsp
    simp only [List.getElem?_map, hk1, hk2, Option.map_some, Option.some.injEq] at this
    rw [this]
  intro n hn p
  generalize q.sites[k] = t at *
  generalize q'.sites[k] = t' at *
  have hn' : ∀ i, |(n i : ℝ)| ≤ (m i : ℝ) := by
    intro i
    exact_mod_cast hn i
  have cast1 : ∀ {x : ℚ}, |x| ≤ 1 → |(x : ℝ)| ≤ 1 := by
    intro x hx
    exact_mod_cast hx
  have g0 := frac_moves (n := n 0) (F := m 0 + 3) (hq1 f0) (hL 0 p) (by linarith [hn' 0, cast1 i0])
  have g1 := frac_moves (n := n 1) (F := m 1 + 3) (hq1 f1) (hL 1 p) (by linarith [hn' 1, cast1 i1])
  have g2 := frac_moves (n := n 2) (F := m 2 + 3) (hq1 f2) (hL 2 p) (by linarith [hn' 2, cast1 i2])
  have hMp := hM p
  rw [Fin.sum_univ_three] at hMp
  have ex : ∀ (r : QStruct) (u : QSite),
      imagePos (r.cart z).lattice ((u.frac.x : ℝ) • r.a.vec + (u.frac.y : ℝ) • r.b.vec + (u.frac.z : ℝ) • r.c.vec) n p
        = (u.frac.x + n 0) * (r.cart z).lattice 0 p + (u.frac.y + n 1) * (r.cart z).lattice 1 p
          + (u.frac.z + n 2) * (r.cart z).lattice 2 p := by
    intro r u
    unfold imagePos
    rw [Fin.sum_univ_three]
    simp only [Pi.add_apply, Pi.smul_apply, smul_eq_mul]
    have b0 : (r.cart z).lattice 0 p = r.a.vec p := rfl
    have b1 : (r.cart z).lattice 1 p = r.b.vec p := rfl
    have b2 : (r.cart z).lattice 2 p = r.c.vec p := rfl
    rw [b0, b1, b2]
    ring
  rw [ex, ex]
  rw [abs_le] at g0 g1 g2 ⊢
  constructor <;> linarith [g0.1, g0.2, g1.1, g1.2, g2.1, g2.2]

/-- C212: saving a structure as atom.config and loading it again changes its features by no more than the digits the
file drops: with `M` bounding `Σᵢ (mᵢ + 3) |lattice i p|` the displacement is at most `5·10⁻⁷ M`, and if no atom is as
close to the cutoff as that, every row and derivative block of the loaded structure is that of the saved one up to the
order of the slots and a change proportional to it. -/
theorem C212_saved (A A' : ArgSort) (z : Str → ℕ) (q : QStruct) (hq : RealElements q) (hne : q.sites ≠ [])
    (hin : ∀ t ∈ q.sites, |t.frac.x| ≤ 1 ∧ |t.frac.y| ≤ 1 ∧ |t.frac.z| ≤ 1)
    (rcut rs d M : ℝ) (hr : 0 ≤ rcut) (hrs : rs < rcut)
    (sc : Fin 3 → ℤ) (m : Fin 3 → ℕ) (h : ∀ i, sc i = 2 * (m i : ℤ) + 1)
    (hM : ∀ p, ∑ i, ((m i : ℝ) + 3) * |(q.cart z).lattice i p| ≤ M) (hrM : rcut ≤ M)
    (hd : 0 < d) (hap : FarImages (q.cart z).lattice ((q.cart z).sites.map Site.pos) d)
    (h1 : 256 * (5 / 10 ^ 7 * M) ≤ d) (h2 : 128 * (5 / 10 ^ 7 * M) ≤ rcut - rs)
    (hgap : NoneNear (q.cart z) rcut (6 * (5 / 10 ^ 7 * M))) :
    ∃ text q', toPwmat q false = (text, none) ∧ fromFile (fileLines text) (fileLines text) = .ok q' ∧
      ∃ S table table', (q.cart z).makeSupercell sc true = .ok S ∧ neighborTable A (q.cart z) rcut sc = .ok table ∧
        neighborTable A' (q'.cart z) rcut sc = .ok table' ∧
        ∀ cz nz width : ℕ, 0 < nz →
          (∀ c ∈ (q.cart z).sites, c.z = cz → (nbrsOf S c.pos rcut nz).length ≤ width) →
          ∃ rows rows' : List (List (Fin 4 → ℝ) × List (Matrix (Fin 4) (Fin 3) ℝ)),
            getTildeR rcut rs table cz nz width = .ok (rows.map Prod.fst) ∧
            calcDerivative rcut rs table cz nz width = .ok (rows.map Prod.snd) ∧
            getTildeR rcut rs table' cz nz width = .ok (rows'.map Prod.fst) ∧
            calcDerivative rcut rs table' cz nz width = .ok (rows'.map Prod.snd) ∧
            rows.length = (q.sites.filter (fun t => z t.specie = cz)).length ∧
            List.Forall₂ (SlotsWithin (envMoveTol (5 / 10 ^ 7 * M) rcut rs d)
              (derivMoveTol (5 / 10 ^ 7 * M) rcut rs d)) rows rows' := by
  obtain ⟨text, q', w1, w2, w3, w4, w5⟩ := C07_write_read_roundtrip q hq
  have hD := displaced_saved z q q' m M w3 w4 w5 hin hM
  obtain ⟨S, table, table', t1, t2, t3, t4⟩ := C211_stable A A' (q.cart z) (q'.cart z)
    (by simpa [QStruct.cart] using hne) rcut rs d (5 / 10 ^ 7 * M) hr sc m h hD hd hap h1 h2 hrs
    (by
      rw [zpow_neg]
      have : (0 : ℝ) ≤ M := hr.trans hrM
      norm_num
      linarith) hgap
  refine ⟨text, q', w1, w2, S, table, table', t1, t2, t3, ?_⟩
  intro cz nz width hnz hw
  obtain ⟨rows, rows', r1, r2, r3, r4, r5, r6⟩ := t4 cz nz width hnz hw
  refine ⟨rows, rows', r1, r2, r3, r4, ?_, r6.imp fun _ _ hr => hr.2.2⟩
  rw [r5]
  simp only [QStruct.cart, List.filter_map, List.length_map]
  rfl

/-! ### Example -/

/-- The example of C210 as a structure with fractional coordinates. -/
def exSaved : QStruct := ⟨⟨4, 0, 0⟩, ⟨1, 5, 0⟩, ⟨0, 0, 6⟩,
  [⟨chars% "Li", ⟨0, 0, 0⟩⟩, ⟨chars% "O", ⟨9/20, 1/5, 1/6⟩⟩], none⟩

/-- Atomic numbers of the two elements. -/
def exNumber (s : Str) : ℕ := if s = (chars% "Li") then 3 else 8

theorem exSaved_cart : exSaved.cart exNumber = exCross := by
  have e1 : (exSaved.cart exNumber).lattice = exCross.lattice := by
    ext i p
    fin_cases i <;> fin_cases p <;> simp [QStruct.cart, exSaved, Q3.vec, exCross, exL]
  have e2 : (exSaved.cart exNumber).sites = exCross.sites := by
    simp only [QStruct.cart, exSaved, exCross, List.map_cons, List.map_nil, List.cons.injEq, and_true, Site.mk.injEq]
    refine ⟨⟨by decide, ?_⟩, by decide, ?_⟩
    · ext p; fin_cases p <;> simp
    · ext p; fin_cases p <;> simp [Q3.vec] <;> norm_num
  cases hx : exSaved.cart exNumber
  rw [hx] at e1 e2
  simp only at e1 e2
  subst e1 e2
  rfl

theorem exCross_lat : ∀ p, ∑ i, (((![1, 1, 1] : Fin 3 → ℕ) i : ℝ) + 3) * |exCross.lattice i p| ≤ 24 := by
  intro p
  rw [Fin.sum_univ_three]
  fin_cases p <;> simp [exCross, exL] <;> norm_num

/-- The hypotheses hold for lithium and oxygen in a skew cell. -/
example (A A' : ArgSort) := C212_saved A A' exNumber exSaved
  (by
    intro t ht
    simp only [exSaved, List.mem_cons, List.not_mem_nil, or_false] at ht
    rcases ht with rfl | rfl
    · exact ⟨3, by decide, by decide +kernel⟩
    · exact ⟨8, by decide, by decide +kernel⟩)
  (by simp [exSaved])
  (by
    intro t ht
    simp only [exSaved, List.mem_cons, List.not_mem_nil, or_false] at ht
    rcases ht with rfl | rfl
    · simp
    · refine ⟨?_, ?_, ?_⟩ <;> rw [abs_le] <;> norm_num)
  3 1 1 24 (by norm_num) (by norm_num) ![3, 3, 3] ![1, 1, 1] (by decide)
  (by rw [exSaved_cart]; exact exCross_lat) (by norm_num) one_pos
  (by rw [exSaved_cart]; exact exTyped_far) (by norm_num) (by norm_num)
  (by
    rw [exSaved_cart]
    intro c hc t ht n
    exact lt_of_le_of_lt (by norm_num) (exCross_gap c hc t ht n))

/-- The changes are below 1/40 in that example (the derivative blocks' below 3/5). -/
example : envMoveTol (5 / 10 ^ 7 * 24) 3 1 1 < 1 / 40 ∧ derivMoveTol (5 / 10 ^ 7 * 24) 3 1 1 < 3 / 5 := by
  unfold envMoveTol derivMoveTol
  norm_num

end MaterSDK
