import Verif.Props.Infer

/-! # C119, C120: for which structures indices and counts describe the rows -/

namespace MaterSDK

open Classical

theorem isImage_unique (s : Struct ℝ) (hsep : Separated s) (p : Vec ℝ) (i j : ℕ) (t u : Site ℝ)
    (ht : s.sites[i]? = some t) (hu : s.sites[j]? = some u) (h : IsImage s p t) (h' : IsImage s p u) : i = j := by
  by_contra hij
  refine hsep i j t u hij ht hu ?_
  obtain ⟨n, hn⟩ := h
  obtain ⟨m, hm⟩ := h'
  refine ⟨fun a => m a - n a, 0, by simp, ?_⟩
  have : t.pos = u.pos + (∑ a, (m a : ℝ) • s.lattice a - ∑ a, (n a : ℝ) • s.lattice a) := by
    rw [hn] at hm
    rw [← add_sub_assoc, ← hm]
    abel
  rw [this, ← Finset.sum_sub_distrib]
  congr 1
  apply Finset.sum_congr rfl
  intro a _
  rw [← sub_smul]
  simp

/-- C119: for every structure, the entry `q + 1` of the neighbour list names the atom with index `q` of the
structure. It names the row of that atom, as claimed, exactly when the atom with index `q` is also the centre of
row `q`. -/
theorem C119_exact (A : ArgSort) (s S : Struct ℝ) (hL : s.lattice.det ≠ 0)
    (hsep : Separated s) (hne : s.sites ≠ [])
    (rcut rs : ℝ) (hr : 0 ≤ rcut) (hrs : rs ≠ rcut) (sc : Fin 3 → ℤ)
    (m : Fin 3 → ℕ) (h : ∀ i, sc i = 2 * (m i : ℤ) + 1) (hS : s.makeSupercell sc true = .ok S)
    (els ws : List ℕ) (davgs dstds : List (Fin 4 → ℝ)) (hels : els ≠ []) (hnd : els.Nodup)
    (hpos : ∀ e ∈ els, 0 < e) (hws : ws.length = els.length) (hw0 : ∀ w ∈ ws, 0 < w)
    (hda : davgs.length = els.length) (hds : dstds.length = els.length)
    (hwide : ∀ (k nz w : ℕ), els[k]? = some nz → ws[k]? = some w → ∀ c ∈ s.sites, c.z ∈ els →
      (nbrsOf S c.pos rcut nz).length ≤ w) :
    ∃ out, inferPreprocess A s rcut rs sc davgs dstds els els (ws.map (Nat.cast : ℕ → ℤ)) = .ok out ∧
      out.listNeigh.length = (centresOf s els).length ∧
      ∀ (a k nz : ℕ) (c : Site ℝ), (centresOf s els)[a]? = some c → els[k]? = some nz →
        ∃ ts : List (Site ℝ), ts.Perm (nbrsOf S c.pos rcut nz) ∧
          ∀ (b : ℕ) (t : Site ℝ), ts[b]? = some t →
            cellAt out.rc a ((ws.take k).sum + b) = some (t.pos - c.pos) ∧
            ∃ (q : ℕ) (u : Site ℝ), cellAt out.listNeigh a ((ws.take k).sum + b) = some (q + 1) ∧
              s.sites[q]? = some u ∧ u.z = nz ∧ IsImage s t.pos u ∧
              ((∃ v, (centresOf s els)[q]? = some v ∧ IsImage s t.pos v) ↔
                (centresOf s els)[q]? = s.sites[q]?) := by
  obtain ⟨out, pad, o1, _, _, o4, _, o6⟩ := infer_spec A s S hL hsep hne rcut rs hr hrs.symm sc m h hS
    els ws davgs dstds hels hnd hpos hws hw0 hda hds hwide
  refine ⟨out, o1, o4.2.2.2, ?_⟩
  intro a k nz c hc hk
  have hcm : c ∈ centresOf s els := List.mem_of_getElem? hc
  have hmem : ∀ v ∈ centresOf s els, v ∈ s.sites ∧ v.z ∈ els := by
    intro v hv
    unfold centresOf at hv
    obtain ⟨e, he, hv⟩ := List.mem_flatMap.1 hv
    obtain ⟨h1, h2⟩ := List.mem_filter.1 hv
    rw [decide_eq_true_eq] at h2
    exact ⟨h1, h2 ▸ he⟩
  obtain ⟨i, hi⟩ := List.mem_iff_getElem?.1 (hmem c hcm).2
  have hil := (List.getElem?_eq_some_iff.1 hi).1
  have hkl := (List.getElem?_eq_some_iff.1 hk).1
  obtain ⟨ts, M, t1, _, _, _, t5, _⟩ := o6 a i k nz _ c _ _ hc hi hk
    (List.getElem?_eq_getElem (by omega)) (List.getElem?_eq_getElem (by omega))
    (List.getElem?_eq_getElem (by omega))
  refine ⟨ts, t1, ?_⟩
  intro b t hb
  obtain ⟨g1, _, _, q, u, g4, g5, g6, g7⟩ := t5 b t hb
  refine ⟨g1, q, u, g4, g5, g6, g7, ?_⟩
  constructor
  · rintro ⟨v, hv, hvi⟩
    obtain ⟨j, hj⟩ := List.mem_iff_getElem?.1 (hmem v (List.mem_of_getElem? hv)).1
    have := isImage_unique s hsep t.pos q j u v g5 hj g7 hvi
    rw [hv, this, hj]
  · intro he
    rw [g5] at he
    exact ⟨u, he, g7⟩

/-- The unsorted structure: row 0 belongs to Li, atom 0 is Si. -/
example : centresOf mixedCell [3, 14] = [⟨3, ![2, 0, 0], none⟩, ⟨14, ![2, 1, 0], none⟩, ⟨14, ![6, 6, 6], none⟩] ∧
    (centresOf mixedCell [3, 14])[0]? ≠ mixedCell.sites[0]? := by
  constructor <;> simp [centresOf, mixedCell]

theorem counterKeys_first (l : List ℕ) :
    (counterKeys l).Pairwise (fun a b => l.idxOf a < l.idxOf b) := by
  have key : ∀ (l pre acc : List ℕ), (∀ a, a ∈ acc ↔ a ∈ pre) →
      acc.Pairwise (fun a b => (pre ++ l).idxOf a < (pre ++ l).idxOf b) →
      (l.foldl (fun acc a => if a ∈ acc then acc else acc ++ [a]) acc).Pairwise
        (fun a b => (pre ++ l).idxOf a < (pre ++ l).idxOf b) := by
    intro l
    induction l with
    | nil => intro pre acc _ h; exact h
    | cons b l ih =>
      intro pre acc hacc h
      rw [List.foldl_cons]
      have := ih (pre ++ [b]) (if b ∈ acc then acc else acc ++ [b]) (by
        intro a
        split
        · rename_i hb
          rw [hacc, List.mem_append, List.mem_singleton]
          exact ⟨Or.inl, fun h => h.elim id (fun h => h ▸ (hacc b).1 hb)⟩
        · rw [List.mem_append, List.mem_append, hacc]) (by
        rw [List.append_assoc, List.singleton_append]
        split
        · exact h
        · rename_i hb
          rw [List.pairwise_append]
          refine ⟨h, by simp, ?_⟩
          intro a ha c hc
          rw [List.mem_singleton] at hc
          subst hc
          rw [List.idxOf_append_of_mem ((hacc a).1 ha), List.idxOf_append_of_notMem (fun h => hb ((hacc c).2 h))]
          have := List.idxOf_lt_length_of_mem ((hacc a).1 ha)
          omega)
      rw [List.append_assoc, List.singleton_append] at this
      exact this
  exact key l [] [] (by simp) (by simp)

/-- C120: when the counts describe the rows. The counts are those of the elements in the order in which they
first occur in the structure. They describe the rows exactly when every atom is of a listed element and the two
lists of elements give the same counts. -/
theorem C120_exact (A : ArgSort) (s : Struct ℝ) (rcut rs : ℝ) (sc : Fin 3 → ℤ)
    (davgs dstds : List (Fin 4 → ℝ)) (els nbrs : List ℕ) (hnd : els.Nodup) (widths : List ℤ) (out : InferInput)
    (hout : inferPreprocess A s rcut rs sc davgs dstds els nbrs widths = .ok out) :
    ∃ order : List ℕ, (∀ z, z ∈ order ↔ ∃ t ∈ s.sites, t.z = z) ∧
      order.Pairwise (fun a b => (s.sites.map Site.z).idxOf a < (s.sites.map Site.z).idxOf b) ∧
      out.natoms = s.sites.length :: order.map (fun e => (s.sites.filter (fun t => t.z = e)).length) ∧
      (out.natoms = (centresOf s els).length :: els.map (fun e => (s.sites.filter (fun t => t.z = e)).length) ↔
        (∀ t ∈ s.sites, t.z ∈ els) ∧ order.map (fun e => (s.sites.filter (fun t => t.z = e)).length)
          = els.map (fun e => (s.sites.filter (fun t => t.z = e)).length)) := by
  have hn : out.natoms = s.getNatoms [] := by
    unfold inferPreprocess at hout
    obtain ⟨_, _, h⟩ := bind_eq_ok.1 hout
    obtain ⟨_, _, h⟩ := bind_eq_ok.1 h
    obtain ⟨_, _, h⟩ := bind_eq_ok.1 h
    obtain ⟨_, _, h⟩ := bind_eq_ok.1 h
    obtain ⟨_, _, h⟩ := bind_eq_ok.1 h
    rw [← Except.ok.inj h]
  have hnat : out.natoms = s.sites.length :: (counterKeys (s.sites.map Site.z)).map
      (fun e => (s.sites.filter (fun t => t.z = e)).length) := by
    rw [hn]
    simp only [Struct.getNatoms, List.isEmpty_nil, if_true, List.cons.injEq, true_and]
    apply List.map_congr_left
    intro z _
    rw [List.count_eq_length_filter, List.filter_map, List.length_map]
    rfl
  have hcl : (centresOf s els).length = (s.sites.filter (fun t => t.z ∈ els)).length := by
    unfold centresOf
    generalize s.sites = l
    clear hout hn hnat
    induction els with
    | nil => simp
    | cons e els ih =>
      rw [List.nodup_cons] at hnd
      rw [List.flatMap_cons, List.length_append, ih hnd.2]
      clear ih
      simp only [List.mem_cons]
      induction l with
      | nil => rfl
      | cons t l ih2 =>
        by_cases h1 : t.z = e
        · have h2 : t.z ∉ els := h1 ▸ hnd.1
          simp only [List.filter_cons, h1, decide_true, if_true, List.mem_cons, true_or, List.length_cons]
          rw [if_neg (by simpa [h1] using hnd.1)]
          omega
        · by_cases h2 : t.z ∈ els
          · simp only [List.filter_cons, h1, h2, decide_true, decide_false, if_true, List.mem_cons, or_true,
              List.length_cons, Bool.false_eq_true, if_false]
            omega
          · simp only [List.filter_cons, h1, h2, decide_false, List.mem_cons, or_self,
              Bool.false_eq_true, if_false]
            omega
  refine ⟨counterKeys (s.sites.map Site.z), ?_, counterKeys_first _, hnat, ?_⟩
  · intro z
    rw [mem_counterKeys]
    simp
  · rw [hnat, List.cons.injEq, hcl]
    refine and_congr_left (fun _ => ?_)
    constructor
    · intro h t ht
      have := List.length_filter_eq_length_iff.1 h.symm t ht
      simpa using this
    · intro h
      rw [List.filter_eq_self.2 (fun t ht => by simpa using h t ht)]

/-- The unsorted structure: the element that occurs first has two atoms, the element listed first has one. -/
example : (mixedCell.sites.map Site.z) = [14, 14, 3] ∧
    [14, 3].map (fun e => (mixedCell.sites.filter (fun t => t.z = e)).length)
      ≠ [3, 14].map (fun e => (mixedCell.sites.filter (fun t => t.z = e)).length) := by
  constructor <;> simp [mixedCell]

end MaterSDK
