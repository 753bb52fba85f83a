import Verif.Lemmas.DeepMDDErr
import Verif.Lemmas.NeighD
import Verif.Lemmas.DeepMD

/-! # The feature pair of a structure in doubles -/

namespace MaterSDK

open Classical

/-- The row of a centre, split into the centre and the rest. -/
theorem rowD_split {P : List (Site ℝ × Site ℝ)} {a : Site ℝ × Site ℝ} (ha : a ∈ P) {E : Site ℝ → NbrEntry}
    {r τ ρ : ℝ} (hr : 0 ≤ r) (hτρ : τ < ρ) (hρ : 0 < ρ) (hEa : (E a.2).2.1 = 0)
    (hsep : P.Pairwise (fun b b' => ρ ≤ dist3 b.1.pos b'.1.pos))
    (hdist : ∀ b ∈ P, |(E b.2).2.1 - dist3 b.1.pos a.1.pos| ≤ τ)
    (hgap : ∀ b ∈ P, τ < |dist3 b.1.pos a.1.pos - r|) {real : List NbrEntry}
    (g2 : real.Perm ((P.filter (fun b => (E b.2).2.1 ≤ r)).map (fun b => E b.2)))
    (g3 : real.Pairwise (fun e e' => e.2.1 ≤ e'.2.1)) :
    ∃ Q : List (Site ℝ × Site ℝ), real = E a.2 :: Q.map (fun b => E b.2) ∧
      Q.Perm (P.filter (fun b => 0 < dist3 b.1.pos a.1.pos ∧ dist3 b.1.pos a.1.pos ≤ r)) ∧
      ∀ b ∈ Q, b ∈ P ∧ ρ ≤ dist3 b.1.pos a.1.pos ∧ (E b.2).2.1 < r := by
  have hfar : ∀ b ∈ P, b ≠ a → ρ ≤ dist3 b.1.pos a.1.pos := by
    intro b hb hne
    haveI : Std.Symm (fun b b' : Site ℝ × Site ℝ => ρ ≤ dist3 b.1.pos b'.1.pos) :=
      ⟨fun x y h => by rwa [dist3_comm]⟩
    exact hsep.forall hb ha hne
  have hself : dist3 a.1.pos a.1.pos = 0 := by simp [dist3]
  have hnd : P.Nodup := by
    refine hsep.imp ?_
    rintro b b' h rfl
    have : dist3 b.1.pos b.1.pos = 0 := by simp [dist3]
    linarith
  have e1 : P.filter (fun b => (E b.2).2.1 ≤ r) = P.filter (fun b => dist3 b.1.pos a.1.pos ≤ r) := by
    refine List.filter_congr fun b hb => ?_
    rw [decide_eq_decide]
    have h1 := abs_le.1 (hdist b hb)
    have h2 := lt_abs.1 (hgap b hb)
    constructor
    · intro h
      rcases h2 with h2 | h2 <;> linarith
    · intro h
      rcases h2 with h2 | h2 <;> linarith
  rw [e1] at g2
  obtain ⟨Q, q1, q2⟩ := List.perm_comp_forall₂ g2
    (show List.Forall₂ (fun e b => e = E b.2)
      ((P.filter (fun b => dist3 b.1.pos a.1.pos ≤ r)).map (fun b => E b.2))
      (P.filter (fun b => dist3 b.1.pos a.1.pos ≤ r)) from
      List.forall₂_map_left_iff.2 (List.forall₂_same.2 (fun _ _ => rfl)))
  have hreal : real = Q.map (fun b => E b.2) := by
    clear g2 q2 g3
    induction q1 with
    | nil => rfl
    | cons h _ ih => rw [List.map_cons, ← ih, h]
  have hQ : ∀ b ∈ Q, b ∈ P ∧ dist3 b.1.pos a.1.pos ≤ r := by
    intro b hb
    have := List.mem_filter.1 (q2.mem_iff.1 hb)
    exact ⟨this.1, of_decide_eq_true this.2⟩
  have haQ : a ∈ Q := by
    rw [q2.mem_iff, List.mem_filter]
    exact ⟨ha, by simpa [hself] using hr⟩
  have hQnd : Q.Nodup := q2.nodup_iff.2 (hnd.filter _)
  rw [hreal, List.pairwise_map] at g3
  cases Q with
  | nil => simp at haQ
  | cons q Q =>
    have hqa : q = a := by
      by_contra hne
      have h1 : a ∈ Q := by
        rcases List.mem_cons.1 haQ with h | h
        · exact absurd h.symm hne
        · exact h
      have h2 := (List.pairwise_cons.1 g3).1 a h1
      have h3 := hfar q (hQ q (by simp)).1 hne
      have h4 := abs_le.1 (hdist q (hQ q (by simp)).1)
      rw [hEa] at h2
      linarith
    subst hqa
    have hne : ∀ b ∈ Q, b ≠ q := by
      rintro b hb rfl
      exact (List.nodup_cons.1 hQnd).1 hb
    refine ⟨Q, by rw [hreal, List.map_cons], ?_, ?_⟩
    · have e2 : Q = (q :: Q).filter (fun b => decide (0 < dist3 b.1.pos q.1.pos)) := by
        rw [List.filter_cons_of_neg (by simp [hself])]
        symm
        rw [List.filter_eq_self]
        intro b hb
        have := hfar b (hQ b (by simp [hb])).1 (hne b hb)
        simpa using hρ.trans_le this
      rw [e2]
      refine (q2.filter _).trans (List.Perm.of_eq ?_)
      rw [List.filter_filter]
      refine List.filter_congr fun b _ => ?_
      rw [← Bool.decide_and]
    · intro b hb
      obtain ⟨h1, h2⟩ := hQ b (by simp [hb])
      refine ⟨h1, hfar b h1 (hne b hb), ?_⟩
      have h3 := abs_le.1 (hdist b h1)
      have h4 := lt_abs.1 (hgap b h1)
      rcases h4 with h4 | h4 <;> linarith

/-- The table from its rows. -/
theorem tableD_of_rows (keep : Matrix (Fin 3) (Fin 3) ℝ → Vec ℝ → Vec ℝ) (A : ArgSort) (s S : Struct ℝ) (r : ℝ)
    {m : Fin 3 → ℕ} (hm : ∀ i, m i ≤ 2 ^ 52) {sc : Fin 3 → ℤ} (h : ∀ i, sc i = 2 * (m i : ℤ) + 1)
    (hS : s.makeSupercell sc true = .ok S) (Φ : Site ℝ → List NbrEntry → Prop)
    (hΦ : ∀ (c : Site ℝ), c ∈ s.sites → ∀ (k : ℕ) (a : Site ℝ × Site ℝ), (superSorted keep s sc m)[k]? = some a →
      a.1.z = c.z → a.1.pos = c.pos → ∀ real : List NbrEntry,
      real.Perm (((superSorted keep s sc m).filter (fun b => (entryD a.2.pos b.2).2.1 ≤ r)).map
        (fun b => entryD a.2.pos b.2)) →
      real.Pairwise (fun e e' => e.2.1 ≤ e'.2.1) → Φ c real) :
    ∃ table, neighborTableD flR keep A s r sc = .ok table ∧
      List.Forall₂ (fun c row => ∃ (real : List NbrEntry) (k : ℕ), row = real ++ List.replicate k zeroEntry ∧ Φ c real)
        s.reformat_.sites table := by
  obtain ⟨keys, S', h1, h2, _, h3⟩ := keys_sites s sc m h
  rw [hS] at h2
  obtain rfl := Except.ok.inj h2
  have hSe := superSorted_exact keep s h hS
  obtain ⟨SD, h4, hSD⟩ := superSorted_stored keep s hm h
  have h3' : List.Forall₂ (fun (c : Site ℝ) k => c ∈ s.sites ∧ ∃ c', S.sites[k]? = some c' ∧ c'.z = c.z ∧ c'.pos = c.pos)
      s.reformat_.sites keys := by
    rw [List.forall₂_iff_zip] at h3 ⊢
    refine ⟨h3.1, fun {c k} hck => ⟨?_, h3.2 hck⟩⟩
    exact (sortByKey_perm _ _).mem_iff.1 (List.of_mem_zip hck).1
  obtain ⟨rows, h5, h6⟩ := forall₂_mapM_ok
    (f := nbrEntriesD flR A (SD.sites.map Site.pos) (SD.sites.map Site.z) r)
    (R := fun (c : Site ℝ) real => Φ c real ∧ real.length ≤ SD.sites.length) h3' (by
    rintro c k ⟨hcs, c', hc', hz, hp⟩
    rw [hSe, List.getElem?_map, Option.map_eq_some_iff] at hc'
    obtain ⟨a, ha, rfl⟩ := hc'
    obtain ⟨real, g1, g2, g3⟩ := nbrEntriesD_spec A SD.sites r k a.2 (by rw [hSD, List.getElem?_map, ha]; rfl)
    refine ⟨real, g1, hΦ c hcs k a ha hz hp real ?_ g3, ?_⟩
    · rw [hSD, List.filter_map, List.map_map] at g2
      exact g2
    · rw [g2.length_eq, List.length_map]
      exact List.length_filter_le _ _)
  set W := runningMax (rows.map List.length) with hW
  have hle : ∀ row ∈ rows, row.length ≤ W := fun row hr => le_runningMax (List.mem_map_of_mem hr)
  have g8 : W ≤ SD.sites.length := by
    apply runningMax_le
    intro x hx
    obtain ⟨row, hr, rfl⟩ := List.mem_map.1 hx
    obtain ⟨j, hj, rfl⟩ := List.mem_iff_getElem.1 hr
    exact (h6.get (by rw [h6.length_eq]; exact hj) hj).2
  refine ⟨rows.map (fun r => (r ++ List.replicate ((SD.sites.map Site.z).length - r.length) zeroEntry).take W),
    ?_, ?_⟩
  · unfold neighborTableD
    rw [h4, ok_bind, getKeyIdxsD_eq keep s hm h, h1, ok_bind]
    unfold keyNeighsInfoD
    rw [h5, ok_bind]
    rfl
  · rw [List.forall₂_map_right_iff]
    rw [List.forall₂_iff_zip] at h6 ⊢
    refine ⟨h6.1, fun {c real} hcr => ?_⟩
    have hrl := hle real (List.of_mem_zip hcr).2
    refine ⟨real, W - real.length, ?_, (h6.2 hcr).1⟩
    rw [List.length_map, List.take_append, List.take_of_length_le hrl, List.take_replicate]
    congr 2
    omega

/-- What is proved about a pair of a stored entry and the exact neighbour. -/
structure NbrD (rcut rs τ ρ : ℝ) (nz : ℕ) (c t : Site ℝ) (e : NbrEntry) : Prop where
  elem : e.1 = nz
  len : e.2.1 = lengthD flR e.2.2
  lt : e.2.1 < rcut
  close : CloseVec rcut rs τ ρ e.2.2 (t.pos - c.pos)

/-- The width of the feature pair and its rows, from what is known of the entries of each row. -/
theorem extractD_of_rows {table : List (List NbrEntry)} {sites : List (Site ℝ)} (hne : sites ≠ []) {cz nz : ℕ}
    {N : Site ℝ → List (Site ℝ)} {Ψ : Site ℝ → Site ℝ → NbrEntry → Prop}
    (h : List.Forall₂ (fun (c : Site ℝ) row => row.head?.map Prod.fst = some c.z ∧
      ∃ ts : List (Site ℝ), ts.Perm (N c) ∧ List.Forall₂ (fun e t => Ψ c t e) (pairEntriesD flR row nz) ts)
      sites table) :
    ∃ w rows, extractFeaturePairD flR table cz nz = .ok (w, rows) ∧
      (w = 0 ∨ ∃ c ∈ sites, c.z = cz ∧ (N c).length = w) ∧
      List.Forall₂ (fun c row => ∃ (es : List NbrEntry) (ts : List (Site ℝ)),
        row = es ++ List.replicate (w - es.length) zeroEntry ∧ es.length ≤ w ∧ ts.Perm (N c) ∧
        List.Forall₂ (fun e t => Ψ c t e) es ts)
        (sites.filter (fun c => decide (c.z = cz))) rows := by
  have hte : table ≠ [] := by
    intro h0
    rw [h0] at h
    exact hne (List.length_eq_zero_iff.1 h.length_eq)
  have hre : ∀ row ∈ table, row ≠ [] := by
    intro row hrow
    obtain ⟨i, hi, rfl⟩ := List.mem_iff_getElem.1 hrow
    obtain ⟨g, _⟩ := h.get (by rw [h.length_eq]; exact hi) hi
    intro h0
    simp only [List.get_eq_getElem] at g
    rw [h0] at g
    simp at g
  have t4 := forall₂_filter (p := fun c : Site ℝ => decide (c.z = cz)) (q := centreIs cz) h (by
    rintro c row ⟨g, _⟩
    rw [centreIs, g]
    simp)
  have hex : extractFeaturePairD flR table cz nz =
      .ok (runningMax ((table.filter (centreIs cz)).map (fun r => (pairEntriesD flR r nz).length)),
        (table.filter (centreIs cz)).map (fun r => pairEntriesD flR r nz ++ List.replicate
          (runningMax ((table.filter (centreIs cz)).map (fun r => (pairEntriesD flR r nz).length))
            - (pairEntriesD flR r nz).length) zeroEntry)) := by
    unfold extractFeaturePairD
    rw [if_neg]
    · simp only [runningMax_ite (centreIs cz) (fun r => (pairEntriesD flR r nz).length)]
    · rintro (h | h)
      · exact hte (List.isEmpty_iff.1 h)
      · obtain ⟨r, h1, h2⟩ := List.any_eq_true.1 h
        exact hre r h1 (List.isEmpty_iff.1 h2)
  refine ⟨_, _, hex, ?_⟩
  have hmem : ∀ c, c ∈ sites.filter (fun c => decide (c.z = cz)) ↔ c ∈ sites ∧ c.z = cz := by
    intro c
    rw [List.mem_filter]
    simp
  generalize sites.filter (fun c => decide (c.z = cz)) = centres at *
  generalize table.filter (centreIs cz) = trows at *
  have hlens : trows.map (fun row => (pairEntriesD flR row nz).length) = centres.map (fun c => (N c).length) := by
    symm
    rw [← List.forall₂_eq_eq_eq, List.forall₂_map_left_iff, List.forall₂_map_right_iff]
    refine t4.imp ?_
    rintro c row ⟨_, ts, g1, g2⟩
    rw [← g1.length_eq, g2.length_eq]
  refine ⟨?_, ?_⟩
  · rw [hlens]
    by_cases hc : centres = []
    · left; rw [hc]; rfl
    · right
      have hne' : centres.map (fun c => (N c).length) ≠ [] := by simpa using hc
      obtain ⟨c', hc', he⟩ := List.mem_map.1 (runningMax_mem hne')
      exact ⟨c', ((hmem c').1 hc').1, ((hmem c').1 hc').2, he⟩
  · rw [List.forall₂_map_right_iff]
    rw [List.forall₂_iff_zip] at t4 ⊢
    refine ⟨t4.1, fun {c row} hcr => ?_⟩
    obtain ⟨_, ts, g1, g2⟩ := t4.2 hcr
    exact ⟨_, ts, rfl, le_runningMax (List.mem_map.2 ⟨row, (List.of_mem_zip hcr).2, rfl⟩), g1, g2⟩

/-- The relative position of a stored neighbour. -/
theorem relD_close {X C X' C' : Vec ℝ} {M δ rcut rs ρ : ℝ} (hδ : 0 ≤ δ) (hδM : 2 * δ ≤ M)
    (hX : ∀ p, |X p| ≤ M) (hC : ∀ p, |C p| ≤ M)
    (hX' : ∀ p, |X' p - X p| ≤ δ + 9 * (uR * M)) (hC' : ∀ p, |C' p - C p| ≤ δ + 9 * (uR * M))
    (hlt : rs < rcut) (hρ : 0 < ρ) (hfar : ρ ≤ dist3 X C)
    (h1 : 64 * (2 * δ + 400 * (uR * M)) ≤ ρ) (h2 : 64 * (2 * δ + 400 * (uR * M)) ≤ rcut - rs) :
    CloseVec rcut rs (2 * δ + 400 * (uR * M)) ρ (fun q => flR (X' q - C' q)) (X - C) := by
  have hu := uR_pos
  have hu1 : uR ≤ 1 / 1000 := by rw [uR_eq]; norm_num
  have hM : 0 ≤ M := by linarith
  have huM : 0 ≤ uR * M := mul_nonneg hu.le hM
  have huM1 : uR * M ≤ 1 / 1000 * M := mul_le_mul_of_nonneg_right hu1 hM
  have e : dist3 X C = norm3 (X - C) := (norm3_eq_dist3 _ _).symm
  have hs : ∀ p, |(X - C) p| ≤ 2 * M := by
    intro p
    have := abs_sub (X p) (C p)
    rw [Pi.sub_apply]
    linarith [hX p, hC p]
  refine ⟨hlt, hρ, by rw [← e]; exact hfar, ?_, h1, h2, ?_⟩
  · intro p
    have a1 := flR_err (X' p - C' p)
    have a2 : |(X' p - C' p) - (X p - C p)| ≤ 2 * (δ + 9 * (uR * M)) := by
      have := abs_sub (X' p - X p) (C' p - C p)
      have e : (X' p - C' p) - (X p - C p) = (X' p - X p) - (C' p - C p) := by ring
      rw [e]
      linarith [hX' p, hC' p]
    have a3 := hs p
    rw [Pi.sub_apply] at a3 ⊢
    have a4 : |X' p - C' p| ≤ 4 * M := by
      have := abs_add_le ((X' p - C' p) - (X p - C p)) (X p - C p)
      rw [sub_add_cancel] at this
      linarith
    have a5 : |X' p - C' p| * uR ≤ 4 * M * uR := mul_le_mul_of_nonneg_right a4 hu.le
    have a7 := abs_add_le (flR (X' p - C' p) - (X' p - C' p)) ((X' p - C' p) - (X p - C p))
    rw [sub_add_sub_cancel] at a7
    linarith
  · have n : norm3 (X - C) ≤ 6 * M := by
      refine (norm3_le_sum1 _).trans ?_
      unfold sum1
      linarith [hs 0, hs 1, hs 2]
    have := mul_le_mul_of_nonneg_left n hu.le
    linarith

/-- The feature pair of a structure in doubles. -/
theorem pairD_sites (keep : Matrix (Fin 3) (Fin 3) ℝ → Vec ℝ → Vec ℝ) (A : ArgSort) (s S : Struct ℝ)
    (hne : s.sites ≠ []) (rcut rs : ℝ) (hr : 0 ≤ rcut) (hrs : rs < rcut)
    (sc : Fin 3 → ℤ) (m : Fin 3 → ℕ) (h : ∀ i, sc i = 2 * (m i : ℤ) + 1) (hm : ∀ i, m i ≤ 2 ^ 52)
    (hS : s.makeSupercell sc true = .ok S) (M δ ρ : ℝ) (hM : CoordsUpTo s m M) (hδ : 0 ≤ δ) (hδM : 2 * δ ≤ M)
    (hk : KeptWithin (keep (superLatticeD flR s.lattice sc)) (2 * M) δ)
    (hρ : 0 < ρ) (hsep : S.sites.Pairwise (fun t u => ρ ≤ dist3 t.pos u.pos))
    (h1 : 64 * (2 * δ + 400 * (uR * M)) ≤ ρ) (h2 : 64 * (2 * δ + 400 * (uR * M)) ≤ rcut - rs)
    (hgap : ∀ c ∈ s.sites, ∀ t ∈ S.sites,
      6 * (δ + 9 * (uR * M)) + 72 * (uR * M) < |dist3 t.pos c.pos - rcut|)
    (cz nz : ℕ) (hnz : 0 < nz) :
    ∃ table w rows, neighborTableD flR keep A s rcut sc = .ok table ∧
      extractFeaturePairD flR table cz nz = .ok (w, rows) ∧
      (w = 0 ∨ ∃ c ∈ s.sites, c.z = cz ∧ (nbrsOf S c.pos rcut nz).length = w) ∧
      List.Forall₂ (fun c row => ∃ (es : List NbrEntry) (ts : List (Site ℝ)),
        row = es ++ List.replicate (w - es.length) zeroEntry ∧ es.length ≤ w ∧
        ts.Perm (nbrsOf S c.pos rcut nz) ∧
        List.Forall₂ (fun e t => NbrD rcut rs (2 * δ + 400 * (uR * M)) ρ nz c t e) es ts)
        (s.reformat_.sites.filter (fun c => decide (c.z = cz))) rows := by
  have hu := uR_pos
  have hM0 : 0 ≤ M := by linarith
  have huM : 0 ≤ uR * M := mul_nonneg hu.le hM0
  have hu1 : uR ≤ 1 / 1000 := by rw [uR_eq]; norm_num
  have huM1 : uR * M ≤ 1 / 1000 * M := mul_le_mul_of_nonneg_right hu1 hM0
  have hnear := superSorted_near (keep := keep) (sc := sc) hM hk
  have hSe := superSorted_exact keep s h hS
  obtain ⟨table, g1, g2⟩ := tableD_of_rows keep A s S rcut hm h hS
    (fun c real => ∃ (a : Site ℝ × Site ℝ) (Q : List (Site ℝ × Site ℝ)), a ∈ superSorted keep s sc m ∧
      a.1.z = c.z ∧ a.1.pos = c.pos ∧
      real = entryD a.2.pos a.2 :: Q.map (fun b => entryD a.2.pos b.2) ∧
      Q.Perm ((superSorted keep s sc m).filter (fun b => 0 < dist3 b.1.pos a.1.pos ∧ dist3 b.1.pos a.1.pos ≤ rcut)) ∧
      ∀ b ∈ Q, b ∈ superSorted keep s sc m ∧ ρ ≤ dist3 b.1.pos a.1.pos ∧ (entryD a.2.pos b.2).2.1 < rcut) (by
    intro c hc k a ha hz hp real q1 q2
    have haP := List.mem_of_getElem? ha
    obtain ⟨Q, f1, f2, f3⟩ := rowD_split (E := entryD a.2.pos) (τ := 6 * (δ + 9 * (uR * M)) + 72 * (uR * M)) (ρ := ρ)
      haP hr (by linarith) hρ (by simp [entryD, lengthD, flR_zero])
      (by rw [hSe, List.pairwise_map] at hsep; exact hsep)
      (by
        intro b hb
        exact lengthD_near (by linarith) (by linarith) (fun p => ((hnear b hb).2 p).1)
          (fun p => ((hnear a haP).2 p).1) (fun p => ((hnear b hb).2 p).2) (fun p => ((hnear a haP).2 p).2))
      (by
        intro b hb
        rw [hp]
        exact hgap c hc b.1 (by rw [hSe]; exact List.mem_map_of_mem hb))
      q1 q2
    exact ⟨a, Q, haP, hz, hp, f1, f2, f3⟩)
  have g3 : List.Forall₂ (fun (c : Site ℝ) row => row.head?.map Prod.fst = some c.z ∧
      ∃ ts : List (Site ℝ), ts.Perm (nbrsOf S c.pos rcut nz) ∧
        List.Forall₂ (fun e t => NbrD rcut rs (2 * δ + 400 * (uR * M)) ρ nz c t e) (pairEntriesD flR row nz) ts)
      s.reformat_.sites table := by
    refine g2.imp ?_
    rintro c row ⟨real, k, rfl, a, Q, f0, f1, f2, rfl, f4, f5⟩
    have hz := (hnear a f0).1
    refine ⟨by simp [entryD, hz, f1], (Q.filter (fun b => b.1.z = nz)).map Prod.fst, ?_, ?_⟩
    · refine ((f4.filter _).map _).trans (List.Perm.of_eq ?_)
      unfold nbrsOf
      rw [hSe, List.filter_map, List.filter_filter, ← f2]
      congr 1
      refine List.filter_congr fun b _ => ?_
      rw [← Bool.decide_and]
      rfl
    · have hzero : (List.replicate k zeroEntry).filter (fun e => decide (e.1 = nz)) = [] := by
        rw [List.filter_eq_nil_iff]
        intro e he
        rw [List.eq_of_mem_replicate he]
        intro hc
        have : (0 : ℕ) = nz := of_decide_eq_true hc
        omega
      simp only [List.cons_append, pairEntriesD]
      rw [List.filter_append, hzero, List.append_nil, List.filter_map, List.map_map]
      have e3 : Q.filter ((fun e : NbrEntry => decide (e.1 = nz)) ∘ fun b => entryD a.2.pos b.2)
          = Q.filter (fun b => decide (b.1.z = nz)) := by
        refine List.filter_congr fun b hb => ?_
        simp only [Function.comp_apply, entryD, (hnear b (f5 b hb).1).1]
      rw [e3, List.forall₂_map_left_iff, List.forall₂_map_right_iff, List.forall₂_same]
      intro b hb
      obtain ⟨hb, hbz⟩ := List.mem_filter.1 hb
      obtain ⟨b1, b2, b3⟩ := f5 b hb
      refine ⟨?_, rfl, b3, ?_⟩
      · show b.2.z = nz
        rw [(hnear b b1).1]
        exact of_decide_eq_true hbz
      · rw [← f2]
        exact relD_close hδ hδM (fun p => ((hnear b b1).2 p).1) (fun p => ((hnear a f0).2 p).1)
          (fun p => ((hnear b b1).2 p).2) (fun p => ((hnear a f0).2 p).2) hrs hρ b2 h1 h2
  have hne' : s.reformat_.sites ≠ [] := by
    intro h0
    have := (sortByKey_perm Site.z s.sites).length_eq
    unfold Struct.reformat_ at h0
    simp only at h0
    rw [h0] at this
    exact hne (List.length_eq_zero_iff.1 this.symm)
  obtain ⟨w, rows, f1, f2, f3⟩ := extractD_of_rows (cz := cz) hne' g3
  refine ⟨table, w, rows, g1, f1, ?_, f3⟩
  rcases f2 with f2 | ⟨c, hc, f2⟩
  · exact .inl f2
  · exact .inr ⟨c, (sortByKey_perm _ _).mem_iff.1 hc, f2⟩


/-! ## An atom just below the cutoff -/

/-- A neighbour a little closer to the origin than 1. -/
noncomputable def jumpPos : Vec ℝ := ![((1 - 1 / 2 ^ 53 : ℚ) : ℝ), ((15 / 2 ^ 30 : ℚ) : ℝ), 0]

theorem jumpPos_double (p : Fin 3) : flR (jumpPos p) = jumpPos p := by
  fin_cases p
  · have : fl (1 - 1 / 2 ^ 53) = 1 - 1 / 2 ^ 53 := by decide +kernel
    show flR ((1 - 1 / 2 ^ 53 : ℚ) : ℝ) = _
    rw [flR_cast, this]
    rfl
  · have : fl (15 / 2 ^ 30) = 15 / 2 ^ 30 := by decide +kernel
    show flR ((15 / 2 ^ 30 : ℚ) : ℝ) = _
    rw [flR_cast, this]
    rfl
  · exact flR_zero

theorem jump_length : lengthD flR jumpPos = 1 := by
  have a : flR (jumpPos 0 ^ 2) = ((1 - 2 / 2 ^ 53 : ℚ) : ℝ) := by
    have : fl ((1 - 1 / 2 ^ 53) ^ 2) = 1 - 2 / 2 ^ 53 := by decide +kernel
    rw [← this, ← flR_cast, Rat.cast_pow]
    rfl
  have b : flR (jumpPos 1 ^ 2) = ((225 / 2 ^ 60 : ℚ) : ℝ) := by
    have : fl ((15 / 2 ^ 30) ^ 2) = 225 / 2 ^ 60 := by decide +kernel
    rw [← this, ← flR_cast, Rat.cast_pow]
    rfl
  have c : flR (jumpPos 2 ^ 2) = 0 := by
    have : jumpPos 2 = 0 := rfl
    rw [this, zero_pow two_ne_zero, flR_zero]
  have d : flR (((1 - 2 / 2 ^ 53 : ℚ) : ℝ) + ((225 / 2 ^ 60 : ℚ) : ℝ)) = 1 := by
    have : fl ((1 - 2 / 2 ^ 53) + 225 / 2 ^ 60) = 1 := by decide +kernel
    rw [← Rat.cast_add, flR_cast, this, Rat.cast_one]
  have h1 : flR 1 = 1 := by simpa using flR_int 1 (by norm_num)
  unfold lengthD
  rw [a, b, c, d, add_zero, h1, Real.sqrt_one, h1]

theorem jump_dist : 999 / 1000 ≤ dist3 jumpPos 0 ∧ dist3 jumpPos 0 < 1 ∧ 1 - dist3 jumpPos 0 ≤ 1 / 10 ^ 10 := by
  have e : ∑ i, (jumpPos i - (0 : Vec ℝ) i) ^ 2 = (1 - 1 / 2 ^ 53) ^ 2 + (15 / 2 ^ 30) ^ 2 := by
    rw [Fin.sum_univ_three]
    simp [jumpPos]
  have h0 : 1 - 1 / 10 ^ 10 ≤ dist3 jumpPos 0 := by
    unfold dist3
    rw [e]
    refine Real.le_sqrt_of_sq_le ?_
    norm_num
  refine ⟨by linarith, ?_, by linarith⟩
  unfold dist3
  rw [e]
  rw [Real.sqrt_lt' (by norm_num)]
  norm_num

theorem jump_weight : |envAt 1 (1 / 2) jumpPos 0 0| ≤ 1 / 10 ^ 9 := by
  obtain ⟨h1, h2, h3⟩ := jump_dist
  have e : envAt 1 (1 / 2) jumpPos 0 0 = smoothWeight 1 (1 / 2) (dist3 jumpPos 0) := rfl
  set d := dist3 jumpPos 0
  clear_value d
  have hl := cSwitch_lip (rcut := 1) (rs := 1 / 2) (by norm_num) d 1
  rw [cSwitch_hi (by norm_num) le_rfl, sub_zero] at hl
  rw [e, ← cSmooth_weight, cSmooth_eq, abs_mul]
  have hd : |d⁻¹| ≤ 2 := by
    rw [abs_of_pos (by positivity), inv_le_comm₀ (by linarith) (by norm_num)]
    linarith
  have h4 : |d - 1| ≤ 1 / 10 ^ 10 := abs_le.2 ⟨by linarith, by norm_num; linarith⟩
  calc |d⁻¹| * |cSwitch 1 (1 / 2) d| ≤ 2 * (2 / (1 - 1 / 2) * |d - 1|) :=
        mul_le_mul hd hl (abs_nonneg _) (by norm_num)
    _ ≤ 2 * (2 / (1 - 1 / 2) * (1 / 10 ^ 10)) := by
        refine mul_le_mul_of_nonneg_left (mul_le_mul_of_nonneg_left h4 (by norm_num)) (by norm_num)
    _ ≤ 1 / 10 ^ 9 := by norm_num

theorem argSort_two (A : ArgSort) : A.run [0, 1] = [0, 1] := by
  have h1 : (A.run [0, 1]).Perm [0, 1] := A.perm [0, 1]
  have h2 := A.sorted [0, 1]
  obtain ⟨a, b, hab⟩ := List.length_eq_two.1 h1.length_eq
  rw [hab] at h1 h2 ⊢
  have hnd : [a, b].Nodup := h1.nodup_iff.2 (by simp)
  have ha : a ∈ [0, 1] := h1.mem_iff.1 (by simp)
  have hb : b ∈ [0, 1] := h1.mem_iff.1 (by simp)
  simp only [List.mem_cons, List.not_mem_nil, or_false] at ha hb
  rcases ha with rfl | rfl <;> rcases hb with rfl | rfl
  · simp at hnd
  · rfl
  · norm_num at h2
  · simp at hnd

/-- The table of an atom at the origin and that neighbour, as computed. -/
theorem jump_table (A : ArgSort) :
    keyNeighsInfoD flR A [0, jumpPos] [8, 14] [0] 1 = .ok [[(8, 0, 0), (14, 1, jumpPos)]] := by
  have hd : distancesFromD flR [0, jumpPos] 0 = [0, 1] := by
    have e : (fun q => flR (jumpPos q - (0 : Vec ℝ) q)) = jumpPos := by
      funext q
      rw [Pi.zero_apply, sub_zero, jumpPos_double]
    simp only [distancesFromD, List.map_cons, List.map_nil]
    rw [e, jump_length]
    simp [lengthD, flR_zero]
  have hc : ([0, 1] : List ℝ).countP (fun d => d ≤ 1) = 2 := by simp
  have hrow : nbrEntriesD flR A [0, jumpPos] [8, 14] 1 0 = .ok [(8, 0, 0), (14, 1, jumpPos)] := by
    unfold nbrEntriesD
    rw [pyGet_eq_ok.2 (show ([0, jumpPos] : List (Vec ℝ))[0]? = some 0 from rfl), ok_bind]
    simp only [hd, hc, argSort_two]
    rfl
  unfold keyNeighsInfoD
  simp only [List.mapM_cons, List.mapM_nil, hrow, ok_bind]
  rfl

/-- The environment matrix from that table. -/
theorem jump_env : ∃ row, getTildeRD flR 1 (1 / 2) [[(8, 0, 0), (14, 1, jumpPos)]] 8 14 1 = .ok [[row]] ∧ row 0 = 1 := by
  have h1 : flR 1 = 1 := by simpa using flR_int 1 (by norm_num)
  have h : extractFeaturePairD flR [[(8, 0, 0), (14, 1, jumpPos)]] 8 14
      = .ok (1, [[(14, 1, fun q => flR (jumpPos q - (0 : Vec ℝ) q))]]) := by
    simp [extractFeaturePairD, centreIs, pairEntriesD, runningMax]
  refine ⟨envRowPyD flR 1 (1 / 2) (14, 1, fun q => flR (jumpPos q - (0 : Vec ℝ) q)), ?_, ?_⟩
  · unfold getTildeRD
    rw [h, ok_bind]
    show padWidth 0 (1, [[_]]) ((1 : ℕ) : ℤ) = _
    rw [padWidth_ok _ _ _ _ le_rfl]
    simp
  · simp [envRowPyD, getSD, recipD, h1]

/-! ## A cell with integer coordinates -/

/-- Two atoms in a cubic cell of edge 16. -/
noncomputable def pairCell : Struct ℝ :=
  ⟨Matrix.diagonal (fun _ => 16), [⟨8, 0, none⟩, ⟨14, ![1, 0, 0], none⟩]⟩

theorem pairCell_sites (S : Struct ℝ) (hS : pairCell.makeSupercell ![3, 3, 3] true = .ok S) :
    S.sites.Pairwise (fun t u => 1 ≤ dist3 t.pos u.pos) ∧
      ∀ t ∈ S.sites, ∃ n : Fin 3 → ℤ, (∀ i, |n i| ≤ 17) ∧ t.pos = fun i => (n i : ℝ) := by
  have hodd : ∀ i : Fin 3, (![3, 3, 3] : Fin 3 → ℤ) i = 2 * (((fun _ => 1 : Fin 3 → ℕ) i : ℕ) : ℤ) + 1 := by
    intro i; fin_cases i <;> rfl
  have hpos : ∀ t ∈ S.sites, ∃ n : Fin 3 → ℤ, (∀ i, |n i| ≤ 17) ∧ t.pos = fun i => (n i : ℝ) := by
    intro t ht
    rw [makeSupercell_odd pairCell (fun _ => 1) hodd] at hS
    cases hS
    simp only [if_true, Struct.reformat_] at ht
    have ht := (sortByKey_perm _ _).mem_iff.1 ht
    obtain ⟨n, hn, h⟩ := List.mem_flatMap.1 ht
    obtain ⟨u, hu, rfl⟩ := List.mem_map.1 h
    rw [mem_shiftsZ] at hn
    have hl : (fun i => (∑ k, (n k : ℝ) • pairCell.lattice k) i) = fun i => 16 * (n i : ℝ) := by
      funext i
      fin_cases i <;> simp [pairCell, Matrix.diagonal, mul_comm]
    have hb : ∀ i, -1 ≤ n i ∧ n i ≤ 1 := fun i => abs_le.1 (by simpa using hn i)
    simp only [pairCell, List.mem_cons, List.not_mem_nil, or_false] at hu
    rcases hu with rfl | rfl
    · refine ⟨fun i => 16 * n i, fun i => ?_, ?_⟩
      · show |16 * n i| ≤ 17
        exact abs_le.2 ⟨by have := hb i; omega, by have := hb i; omega⟩
      funext i
      have := congrFun hl i
      show (0 : ℝ) + (∑ k, (n k : ℝ) • pairCell.lattice k) i = _
      rw [this]
      push_cast
      ring
    · refine ⟨fun i => (![1, 0, 0] : Fin 3 → ℤ) i + 16 * n i, fun i => ?_, ?_⟩
      · have := hb i
        fin_cases i <;> simp only [Fin.zero_eta, Fin.mk_one, Fin.reduceFinMk, Matrix.cons_val_zero,
          Matrix.cons_val_one, Matrix.cons_val] <;> exact abs_le.2 ⟨by simp at this ⊢; omega, by simp at this ⊢; omega⟩
      · funext i
        have := congrFun hl i
        show (![1, 0, 0] : Vec ℝ) i + (∑ k, (n k : ℝ) • pairCell.lattice k) i = _
        rw [this]
        push_cast
        fin_cases i <;> simp
  refine ⟨?_, hpos⟩
  have hnd := supercell_nodup pairCell S (by simp [pairCell, Matrix.det_diagonal]) (by
    intro i j t u hij hi hj
    rintro ⟨n, e, he, h⟩
    have h0 := congrFun h 0
    have he0 := abs_le.1 (he 0)
    have hsum : (∑ k, ((n k : ℝ) + e k) • pairCell.lattice k) 0 = 16 * (n 0 + e 0) := by
      simp [pairCell, Matrix.diagonal, mul_comm]
    rw [Pi.add_apply, hsum] at h0
    have hcase : t.pos 0 - u.pos 0 = 1 ∨ t.pos 0 - u.pos 0 = -1 := by
      rcases i with _ | _ | i <;> rcases j with _ | _ | j <;> simp [pairCell] at hi hj hij
      · subst hi; subst hj; right; simp
      · subst hi; subst hj; left; simp
    rcases lt_trichotomy (n 0) 0 with h1 | h1 | h1
    · have : (n 0 : ℝ) ≤ -1 := by exact_mod_cast (by omega : n 0 ≤ -1)
      rcases hcase with hc | hc <;> norm_num at he0 <;> linarith [he0.1, he0.2]
    · rw [h1] at h0
      norm_num at he0
      rcases hcase with hc | hc <;> push_cast at h0 <;> linarith [he0.1, he0.2]
    · have : (1 : ℝ) ≤ n 0 := by exact_mod_cast (by omega : 1 ≤ n 0)
      rcases hcase with hc | hc <;> norm_num at he0 <;> linarith [he0.1, he0.2]) ![3, 3, 3] (fun _ => 1) hodd hS
  rw [List.Nodup, List.pairwise_map] at hnd
  refine hnd.imp_of_mem ?_
  intro t u ht hu hne
  obtain ⟨n, _, hn⟩ := hpos t ht
  obtain ⟨n', _, hn'⟩ := hpos u hu
  have hd : ∃ i, n i ≠ n' i := by
    by_contra hc
    push Not at hc
    exact hne (by rw [hn, hn']; funext i; rw [hc i])
  obtain ⟨i, hi⟩ := hd
  rw [hn, hn']
  unfold dist3
  rw [Real.one_le_sqrt]
  have h1 : (1 : ℝ) ≤ ((n i : ℝ) - n' i) ^ 2 := by
    have : (1 : ℤ) ≤ (n i - n' i) ^ 2 := by
      have := sq_pos_of_ne_zero (sub_ne_zero.2 hi)
      omega
    exact_mod_cast this
  exact h1.trans (Finset.single_le_sum (f := fun i => ((n i : ℝ) - n' i) ^ 2) (fun _ _ => sq_nonneg _)
    (Finset.mem_univ i))

end MaterSDK
