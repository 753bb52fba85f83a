import Verif.Model.TildeRD
import Verif.Spec.TildeRD
import Verif.Lemmas.Se4pwDPairs

/-! # `TildeR` with the values mapped, and what holds for all values, for C221 -/

namespace MaterSDK

open Classical

theorem diffD_id (v : Vec ℝ) : diffD id v = v := by
  funext k
  fin_cases k <;> rfl

theorem pairGenerateLmpD_id (p : LmpIn) (cz nz w : ℤ) (rcut rs : ℝ) :
    pairGenerateLmpD id p cz nz w rcut rs = pairGenerateLmp p cz nz w rcut rs := by
  unfold pairGenerateLmpD pairGenerateLmp
  simp only [diffD_id, envRowD_id]

theorem pairDerivLmpD_id (p : LmpIn) (cz nz w : ℤ) (rcut rs : ℝ) :
    pairDerivLmpD id p cz nz w rcut rs = pairDerivLmp p cz nz w rcut rs := by
  unfold pairDerivLmpD pairDerivLmp
  simp only [diffD_id, se4pwDerivD_id]

theorem tildeGenerateLmpD_id (p : LmpIn) (cz nz nn : List ℤ) (rcut rs : ℝ) :
    tildeGenerateLmpD id p cz nz nn rcut rs = tildeGenerateLmp p cz nz nn rcut rs := by
  unfold tildeGenerateLmpD tildeGenerateLmp
  simp only [pairGenerateLmpD_id]

theorem tildeDerivLmpD_id (p : LmpIn) (cz nz nn : List ℤ) (rcut rs : ℝ) :
    tildeDerivLmpD id p cz nz nn rcut rs = tildeDerivLmp p cz nz nn rcut rs := by
  unfold tildeDerivLmpD tildeDerivLmp
  simp only [pairDerivLmpD_id]

section map

variable {α β α' β' : Type}

theorem cSet_mapped (φ : α → β) (l : List α) (i : ℤ) (a : α) :
    cSet (l.map φ) i (φ a) = (cSet l i a).map (List.map φ) := by
  unfold cSet
  rw [List.length_map]
  split_ifs
  · simp [Except.map, List.map_set]
  · rfl

theorem writeSlot_mapped (φ : α → β) (arr : List (List α)) (c k : ℤ) (a : α) :
    writeSlot (arr.map (List.map φ)) c k (φ a) = (writeSlot arr c k a).map (List.map (List.map φ)) := by
  unfold writeSlot
  rw [cGet_map]
  cases cGet arr c with
  | error e => rfl
  | ok row =>
    show (cSet (row.map φ) k (φ a) >>= _) = _
    rw [cSet_mapped, ok_bind]
    cases cSet row k a with
    | error e => rfl
    | ok row' => exact cSet_mapped (List.map φ) arr c row'

theorem pairNbrStep_mapped (φ : α → β) (S : PairSrc) (nz : ℤ) (val : Vec ℝ → α) (c : Vec ℝ) (cidx : ℕ)
    (st : List (List α) × ℕ) (nb : ℤ) :
    pairNbrStep S nz (fun v => φ (val v)) c cidx (st.1.map (List.map φ), st.2) nb
      = (pairNbrStep S nz val c cidx st nb).map (fun s => (s.1.map (List.map φ), s.2)) := by
  unfold pairNbrStep
  cases S.ty nb with
  | error e => rfl
  | ok t =>
    rw [ok_bind, ok_bind]
    split_ifs
    · rfl
    · cases S.pos nb with
      | error e => rfl
      | ok q =>
        rw [ok_bind, ok_bind, writeSlot_mapped]
        cases writeSlot st.1 cidx st.2 (val ![q 0 - c 0, q 1 - c 1, q 2 - c 2]) <;> rfl

theorem pairFill_mapped (φ : α → β) (S : PairSrc) (cz nz : ℤ) (val : Vec ℝ → α) (roomy : Bool)
    (arr : List (List α)) :
    pairFill S cz nz (fun v => φ (val v)) roomy (arr.map (List.map φ))
      = (pairFill S cz nz val roomy arr).map (fun s => (s.1.map (List.map φ), s.2)) := by
  unfold pairFill
  refine foldlM_map_state (fun s : List (List α) × ℕ => (s.1.map (List.map φ), s.2)) _ _ _ ?_ (arr, 0)
  intro ii _ st
  cases S.centre ii with
  | error e => rfl
  | ok i =>
    rw [ok_bind, ok_bind]
    cases S.pos i with
    | error e => rfl
    | ok c =>
      rw [ok_bind, ok_bind]
      cases S.ty i with
      | error e => rfl
      | ok t =>
        rw [ok_bind, ok_bind]
        split_ifs
        · rfl
        · rfl
        · cases S.nbrs ii with
          | error e => rfl
          | ok l =>
            rw [ok_bind, ok_bind]
            have := foldlM_map_state (fun s : List (List α) × ℕ => (s.1.map (List.map φ), s.2))
              (pairNbrStep S nz val c st.2) (pairNbrStep S nz (fun v => φ (val v)) c st.2) l
              (fun nb _ s => pairNbrStep_mapped φ S nz val c st.2 s nb) (st.1, 0)
            simp only at this
            rw [this]
            cases l.foldlM (pairNbrStep S nz val c st.2) (st.1, 0) <;> rfl

theorem allocRows_mapped (φ : α → β) (n w : ℤ) (a : α) :
    allocRows n w (φ a) = (allocRows n w a).map (List.map φ) := by
  unfold allocRows
  rw [List.map_replicate, List.map_replicate]

theorem pairLmp_mapped (φ : α → β) (p : LmpIn) (cz nz w : ℤ) (val : Vec ℝ → α) (zero : α) (atEnd : Bool) :
    pairLmp p cz nz w (fun v => φ (val v)) (φ zero) atEnd
      = (pairLmp p cz nz w val zero atEnd).map (List.map (List.map φ)) := by
  unfold pairLmp
  cases p.src.numCentres cz with
  | error e => rfl
  | ok n =>
    rw [ok_bind, ok_bind]
    cases p.src.maxNbrs cz nz with
    | error e => rfl
    | ok m =>
      rw [ok_bind, ok_bind, allocRows_mapped, pairFill_mapped]
      cases pairFill p.src cz nz val (decide ((m : ℤ) ≤ w)) (allocRows (n : ℤ) w zero) with
      | error e => rfl
      | ok r =>
        show (Except.ok (r.1.map (List.map φ), r.2) >>= _) = _
        rw [ok_bind, ok_bind]
        split_ifs <;> rfl

theorem copyPairBlock_mapped (φ : α → α') (ψ : β → β') (wrap : α → β) (wrap' : α' → β')
    (hw : ∀ a, wrap' (φ a) = ψ (wrap a)) (blk : List (List α)) (cs ns n w : ℤ) (arr : List (List β)) :
    copyPairBlock wrap' (blk.map (List.map φ)) cs ns n w (arr.map (List.map ψ))
      = (copyPairBlock wrap blk cs ns n w arr).map (List.map (List.map ψ)) := by
  unfold copyPairBlock
  refine foldlM_map_state (List.map (List.map ψ)) _ _ _ ?_ arr
  intro kk _ arr
  rw [cGet_map]
  cases cGet blk (kk : ℤ) with
  | error e => rfl
  | ok row =>
    show (Except.ok (row.map φ) >>= _) = _
    rw [ok_bind, ok_bind]
    refine foldlM_map_state (List.map (List.map ψ)) _ _ _ ?_ arr
    intro ll _ arr
    rw [cGet_map]
    cases cGet row (ll : ℤ) with
    | error e => rfl
    | ok a =>
      show (Except.ok (φ a) >>= _) = _
      rw [ok_bind, ok_bind, hw, writeSlot_mapped]

theorem stackPairs_mapped (φ : α → α') (ψ : β → β') (wrap : α → β) (wrap' : α' → β')
    (hw : ∀ a, wrap' (φ a) = ψ (wrap a)) (gen : ℤ → ℤ → ℕ → ℤ → Except CErr (List (List α)))
    (gen' : ℤ → ℤ → ℕ → ℤ → Except CErr (List (List α')))
    (hg : ∀ c z n w, gen' c z n w = (gen c z n w).map (List.map (List.map φ)))
    (cz nz : List ℤ) (nc : List ℕ) (nn : List ℤ) (arr : List (List β)) :
    stackPairs wrap' gen' cz nz nc nn (arr.map (List.map ψ))
      = (stackPairs wrap gen cz nz nc nn arr).map (List.map (List.map ψ)) := by
  unfold stackPairs
  refine foldlM_map_state (List.map (List.map ψ)) _ _ _ ?_ arr
  intro ci _ arr
  refine foldlM_map_state (List.map (List.map ψ)) _ _ _ ?_ arr
  intro nj _ arr
  cases cGet nc (ci.2 : ℤ) with
  | error e => rfl
  | ok n =>
    rw [ok_bind, ok_bind]
    cases cGet nn (nj.2 : ℤ) with
    | error e => rfl
    | ok w =>
      rw [ok_bind, ok_bind, hg]
      cases gen ci.1 nj.1 n w with
      | error e => rfl
      | ok blk =>
        show (Except.ok (blk.map (List.map φ)) >>= _) = _
        rw [ok_bind, ok_bind]
        cases cGet (nstartIdxs (nc.map (fun k : ℕ => (k : ℤ)))) (ci.2 : ℤ) with
        | error e => rfl
        | ok cs =>
          rw [ok_bind, ok_bind]
          cases cGet (nstartIdxs nn) (nj.2 : ℤ) with
          | error e => rfl
          | ok ns =>
            rw [ok_bind, ok_bind]
            exact copyPairBlock_mapped φ ψ wrap wrap' hw blk cs ns n w arr

/-- A whole table with the values mapped. -/
theorem table_mapped (φ : α → α') (ψ : β → β') (wrap : α → β) (wrap' : α' → β')
    (hw : ∀ a, wrap' (φ a) = ψ (wrap a)) (gen : ℤ → ℤ → ℕ → ℤ → Except CErr (List (List α)))
    (gen' : ℤ → ℤ → ℕ → ℤ → Except CErr (List (List α')))
    (hg : ∀ c z n w, gen' c z n w = (gen c z n w).map (List.map (List.map φ)))
    (cz nz : List ℤ) (count : Except CErr (List ℕ)) (slots : Except CErr (List ℤ)) (zero : β) :
    (do
      let nc ← count
      let nn ← slots
      stackPairs wrap' gen' cz nz nc nn (allocRows ((nc.sum : ℕ) : ℤ) nn.sum (ψ zero)))
      = (do
        let nc ← count
        let nn ← slots
        stackPairs wrap gen cz nz nc nn (allocRows ((nc.sum : ℕ) : ℤ) nn.sum zero)).map
          (List.map (List.map ψ)) := by
  cases count with
  | error e => rfl
  | ok nc =>
    rw [ok_bind, ok_bind]
    cases slots with
    | error e => rfl
    | ok nn =>
      rw [ok_bind, ok_bind, allocRows_mapped]
      exact stackPairs_mapped φ ψ wrap wrap' hw gen gen' hg cz nz nc nn _

theorem rows_back {γ δ : Type} (d : δ → γ) (ψ : γ → δ) (h : ∀ a, ψ (d a) = a) (arr : List (List δ)) :
    arr = (arr.map (List.map d)).map (List.map ψ) := by
  have e : ψ ∘ d = id := funext h
  rw [List.map_map]
  have : (List.map ψ ∘ List.map d) = id := by
    funext l
    rw [Function.comp_apply, List.map_map, e, List.map_id, id]
  rw [this, List.map_id]

theorem fill_mapped (φ : α → α') (ψ : β → β') (wrap : α → β) (wrap' : α' → β')
    (hw : ∀ a, wrap' (φ a) = ψ (wrap a)) (gen : ℤ → ℤ → ℕ → ℤ → Except CErr (List (List α)))
    (gen' : ℤ → ℤ → ℕ → ℤ → Except CErr (List (List α')))
    (hg : ∀ c z n w, gen' c z n w = (gen c z n w).map (List.map (List.map φ)))
    (cz nz : List ℤ) (count : Except CErr (List ℕ)) (slots : Except CErr (List ℤ)) (arr' : List (List β'))
    (arr : List (List β)) (harr : arr' = arr.map (List.map ψ)) :
    (do
      let nc ← count
      let nn ← slots
      stackPairs wrap' gen' cz nz nc nn arr')
      = (do
        let nc ← count
        let nn ← slots
        stackPairs wrap gen cz nz nc nn arr).map (List.map (List.map ψ)) := by
  cases count with
  | error e => rfl
  | ok nc =>
    rw [ok_bind, ok_bind]
    cases slots with
    | error e => rfl
    | ok nn =>
      rw [ok_bind, ok_bind, harr]
      exact stackPairs_mapped φ ψ wrap wrap' hw gen gen' hg cz nz nc nn _

end map

/-! ## What holds for all values -/

section all

variable {α β : Type}

/-- `P` holds for every entry. -/
def AllIn (P : α → Prop) (arr : List (List α)) : Prop := ∀ row ∈ arr, ∀ a ∈ row, P a

theorem cSet_mem {l l' : List α} {i : ℤ} {a : α} (h : cSet l i a = .ok l') : ∀ b ∈ l', b ∈ l ∨ b = a := by
  unfold cSet at h
  split_ifs at h
  cases h
  intro b hb
  exact List.mem_or_eq_of_mem_set hb

theorem writeSlot_allIn (P : α → Prop) (arr arr' : List (List α)) (c k : ℤ) (a : α) (ha : P a)
    (h0 : AllIn P arr) (h : writeSlot arr c k a = .ok arr') : AllIn P arr' := by
  unfold writeSlot at h
  rw [bind_eq_ok] at h
  obtain ⟨row, hrow, h⟩ := h
  rw [bind_eq_ok] at h
  obtain ⟨row', hrow', h⟩ := h
  have hm : row ∈ arr := List.mem_of_getElem? (cGet_ok.1 hrow).2
  intro r hr b hb
  rcases cSet_mem h r hr with hr | rfl
  · exact h0 r hr b hb
  · rcases cSet_mem hrow' b hb with hb | rfl
    · exact h0 row hm b hb
    · exact ha

theorem allocRows_allIn (P : α → Prop) (n w : ℤ) (a : α) (ha : P a) : AllIn P (allocRows n w a) := by
  intro row hrow b hb
  unfold allocRows at hrow
  rw [List.mem_replicate] at hrow
  rw [hrow.2, List.mem_replicate] at hb
  rw [hb.2]
  exact ha

theorem pairFill_allIn (P : α → Prop) (S : PairSrc) (cz nz : ℤ) (val : Vec ℝ → α) (roomy : Bool)
    (arr : List (List α)) (r : List (List α) × ℕ) (h0 : AllIn P arr)
    (hv : ∀ ii < S.num, ∀ i c l nb q, S.centre ii = .ok i → S.pos i = .ok c → S.nbrs ii = .ok l → nb ∈ l →
      S.pos nb = .ok q → P (val ![q 0 - c 0, q 1 - c 1, q 2 - c 2]))
    (h : pairFill S cz nz val roomy arr = .ok r) : AllIn P r.1 := by
  unfold pairFill at h
  refine foldlM_inv (fun s : List (List α) × ℕ => AllIn P s.1) _ _ ?_ _ _ ?_ h
  · intro ii hii s s' hs hstep
    rw [List.mem_range] at hii
    rw [bind_eq_ok] at hstep
    obtain ⟨i, hi, hstep⟩ := hstep
    rw [bind_eq_ok] at hstep
    obtain ⟨c, hc, hstep⟩ := hstep
    rw [bind_eq_ok] at hstep
    obtain ⟨t, _, hstep⟩ := hstep
    split_ifs at hstep
    · cases hstep
      exact hs
    · rw [bind_eq_ok] at hstep
      obtain ⟨l, hl, hstep⟩ := hstep
      rw [bind_eq_ok] at hstep
      obtain ⟨st, hst, hstep⟩ := hstep
      cases hstep
      refine foldlM_inv (fun s : List (List α) × ℕ => AllIn P s.1) _ _ ?_ _ st ?_ hst
      · intro nb hnb u u' hu hstep
        unfold pairNbrStep at hstep
        rw [bind_eq_ok] at hstep
        obtain ⟨t', _, hstep⟩ := hstep
        split_ifs at hstep
        · cases hstep
          exact hu
        · rw [bind_eq_ok] at hstep
          obtain ⟨q, hq, hstep⟩ := hstep
          rw [bind_eq_ok] at hstep
          obtain ⟨arr', harr, hstep⟩ := hstep
          cases hstep
          exact writeSlot_allIn P _ _ _ _ _ (hv ii hii i c l nb q hi hc hl hnb hq) hu harr
      · exact hs
  · exact h0

theorem pairLmp_allIn (P : α → Prop) (p : LmpIn) (cz nz w : ℤ) (val : Vec ℝ → α) (zero : α) (hz : P zero)
    (atEnd : Bool) (out : List (List α))
    (hv : ∀ ii < p.src.num, ∀ i c l nb q, p.src.centre ii = .ok i → p.src.pos i = .ok c → p.src.nbrs ii = .ok l →
      nb ∈ l → p.src.pos nb = .ok q → P (val ![q 0 - c 0, q 1 - c 1, q 2 - c 2]))
    (h : pairLmp p cz nz w val zero atEnd = .ok out) : AllIn P out := by
  unfold pairLmp at h
  rw [bind_eq_ok] at h
  obtain ⟨n, _, h⟩ := h
  rw [bind_eq_ok] at h
  obtain ⟨m, _, h⟩ := h
  rw [bind_eq_ok] at h
  obtain ⟨r, hr, h⟩ := h
  split_ifs at h
  cases h
  exact pairFill_allIn P p.src cz nz val _ _ r (allocRows_allIn P _ _ _ hz) hv hr

theorem copyPairBlock_allIn (P : α → Prop) (Q : β → Prop) (wrap : α → β) (hw : ∀ a, P a → Q (wrap a))
    (blk : List (List α)) (hb : AllIn P blk) (cs ns n w : ℤ) (arr arr' : List (List β)) (h0 : AllIn Q arr)
    (h : copyPairBlock wrap blk cs ns n w arr = .ok arr') : AllIn Q arr' := by
  unfold copyPairBlock at h
  refine foldlM_inv (AllIn Q) _ _ ?_ _ _ h0 h
  intro kk _ s s' hs hstep
  rw [bind_eq_ok] at hstep
  obtain ⟨row, hrow, hstep⟩ := hstep
  refine foldlM_inv (AllIn Q) _ _ ?_ _ _ hs hstep
  intro ll _ u u' hu hstep
  rw [bind_eq_ok] at hstep
  obtain ⟨a, ha, hstep⟩ := hstep
  exact writeSlot_allIn Q _ _ _ _ _ (hw a (hb row (List.mem_of_getElem? (cGet_ok.1 hrow).2) a
    (List.mem_of_getElem? (cGet_ok.1 ha).2))) hu hstep

theorem stackPairs_allIn (P : α → Prop) (Q : β → Prop) (wrap : α → β) (hw : ∀ a, P a → Q (wrap a))
    (gen : ℤ → ℤ → ℕ → ℤ → Except CErr (List (List α)))
    (hg : ∀ c z n w blk, gen c z n w = .ok blk → AllIn P blk)
    (cz nz : List ℤ) (nc : List ℕ) (nn : List ℤ) (arr arr' : List (List β)) (h0 : AllIn Q arr)
    (h : stackPairs wrap gen cz nz nc nn arr = .ok arr') : AllIn Q arr' := by
  unfold stackPairs at h
  refine foldlM_inv (AllIn Q) _ _ ?_ _ _ h0 h
  intro ci _ s s' hs hstep
  refine foldlM_inv (AllIn Q) _ _ ?_ _ _ hs hstep
  intro nj _ u u' hu hstep
  rw [bind_eq_ok] at hstep
  obtain ⟨n, _, hstep⟩ := hstep
  rw [bind_eq_ok] at hstep
  obtain ⟨w, _, hstep⟩ := hstep
  rw [bind_eq_ok] at hstep
  obtain ⟨blk, hblk, hstep⟩ := hstep
  rw [bind_eq_ok] at hstep
  obtain ⟨cs, _, hstep⟩ := hstep
  rw [bind_eq_ok] at hstep
  obtain ⟨ns, _, hstep⟩ := hstep
  exact copyPairBlock_allIn P Q wrap hw blk (hg _ _ _ _ _ hblk) cs ns n w u u' hu hstep

theorem table_allIn (P : α → Prop) (Q : β → Prop) (wrap : α → β) (hw : ∀ a, P a → Q (wrap a))
    (gen : ℤ → ℤ → ℕ → ℤ → Except CErr (List (List α)))
    (hg : ∀ c z n w blk, gen c z n w = .ok blk → AllIn P blk)
    (cz nz : List ℤ) (count : Except CErr (List ℕ)) (slots : Except CErr (List ℤ)) (zero : β) (hz : Q zero)
    (out : List (List β))
    (h : (do
      let nc ← count
      let nn ← slots
      stackPairs wrap gen cz nz nc nn (allocRows ((nc.sum : ℕ) : ℤ) nn.sum zero)) = .ok out) : AllIn Q out := by
  rw [bind_eq_ok] at h
  obtain ⟨nc, _, h⟩ := h
  rw [bind_eq_ok] at h
  obtain ⟨nn, _, h⟩ := h
  exact stackPairs_allIn P Q wrap hw gen hg cz nz nc nn _ out (allocRows_allIn Q _ _ _ hz) h

theorem fill_allIn (P : α → Prop) (Q : β → Prop) (wrap : α → β) (hw : ∀ a, P a → Q (wrap a))
    (gen : ℤ → ℤ → ℕ → ℤ → Except CErr (List (List α)))
    (hg : ∀ c z n w blk, gen c z n w = .ok blk → AllIn P blk)
    (cz nz : List ℤ) (count : Except CErr (List ℕ)) (slots : Except CErr (List ℤ)) (arr : List (List β))
    (harr : AllIn Q arr) (out : List (List β))
    (h : (do
      let nc ← count
      let nn ← slots
      stackPairs wrap gen cz nz nc nn arr) = .ok out) : AllIn Q out := by
  rw [bind_eq_ok] at h
  obtain ⟨nc, _, h⟩ := h
  rw [bind_eq_ok] at h
  obtain ⟨nn, _, h⟩ := h
  exact stackPairs_allIn P Q wrap hw gen hg cz nz nc nn _ out harr h

end all

/-! ## Doubles beside real numbers -/

section near

variable {p : LmpIn} {rcut rs ρ B : ℝ}

theorem mapM_mem {ι γ : Type} {f : ι → Except CErr γ} {l : List ι} {r : List γ} (h : l.mapM f = .ok r) {b : γ}
    (hb : b ∈ r) : ∃ a ∈ l, f a = .ok b := by
  induction l generalizing r with
  | nil => cases h; simp at hb
  | cons a l ih =>
    rw [List.mapM_cons, bind_eq_ok] at h
    obtain ⟨c, hc, h⟩ := h
    rw [bind_eq_ok] at h
    obtain ⟨r', hr', h⟩ := h
    cases h
    rcases List.mem_cons.1 hb with rfl | hb
    · exact ⟨a, by simp, hc⟩
    · obtain ⟨a', h1, h2⟩ := ih hr' hb
      exact ⟨a', by simp [h1], h2⟩

theorem lmpPairs_reads {P : Vec ℝ → Vec ℝ → Prop} (h : LmpPairs p P) :
    ∀ ii < p.src.num, ∀ i c l nb q, p.src.centre ii = .ok i → p.src.pos i = .ok c → p.src.nbrs ii = .ok l →
      nb ∈ l → p.src.pos nb = .ok q → P c q := by
  intro ii hii i c l nb q hi hc hl hnb hq
  have hii' : (ii : ℤ) < p.inum := by
    have : ii < p.inum.toNat := hii
    omega
  change cGet p.ilist (ii : ℤ) = .ok i at hi
  change cGet p.x i = .ok c at hc
  change cGet p.x nb = .ok q at hq
  change (cGet p.numneigh (ii : ℤ) >>= _) = _ at hl
  rw [bind_eq_ok] at hl
  obtain ⟨m, hm, hl⟩ := hl
  obtain ⟨jj, hjj, hg⟩ := mapM_mem hl hnb
  rw [List.mem_range] at hjj
  rw [bind_eq_ok] at hg
  obtain ⟨fl, hfl, hg⟩ := hg
  obtain ⟨_, hi⟩ := cGet_ok.1 hi
  obtain ⟨hi0, hc⟩ := cGet_ok.1 hc
  obtain ⟨hn0, hq⟩ := cGet_ok.1 hq
  obtain ⟨_, hm⟩ := cGet_ok.1 hm
  obtain ⟨_, hfl⟩ := cGet_ok.1 hfl
  obtain ⟨_, hg⟩ := cGet_ok.1 hg
  rw [Int.toNat_natCast] at hi hm hfl hg
  exact h ii hii' i.toNat c (by rw [Int.toNat_of_nonneg hi0]; exact hi) hc m hm fl hfl jj (by omega) nb.toNat q
    (by rw [Int.toNat_of_nonneg hn0]; exact hg) hq

theorem seTol_nonneg (hrs : rs < rcut) (hρ : 0 < ρ) (hB : 0 ≤ B) : 0 ≤ seTol rcut rs ρ B := by
  have : 0 < rcut - rs := sub_pos.2 hrs
  unfold seTol
  positivity

theorem seDerivTol_nonneg (hrs : rs < rcut) (hρ : 0 < ρ) (hB : 0 ≤ B) : 0 ≤ seDerivTol rcut rs ρ B := by
  have : 0 < rcut - rs := sub_pos.2 hrs
  unfold seDerivTol
  positivity

theorem diffD_sub (R : ℝ → ℝ) (q c : Vec ℝ) :
    diffD R ![q 0 - c 0, q 1 - c 1, q 2 - c 2] = fun k => R (q k - c k) := by
  funext k
  fin_cases k <;> rfl

theorem vec_sub (q c : Vec ℝ) : ![q 0 - c 0, q 1 - c 1, q 2 - c 2] = q - c := by
  funext k
  fin_cases k <;> rfl

/-- The rounded and the exact row. -/
def RowNear (rcut rs ρ B : ℝ) (u : (Fin 4 → ℝ) × (Fin 4 → ℝ)) : Prop :=
  ∀ a, |u.1 a - u.2 a| ≤ seTol rcut rs ρ B

/-- The rounded and the exact derivative block. -/
def BlockNear (rcut rs ρ B : ℝ) (u : Matrix (Fin 4) (Fin 3) ℝ × Matrix (Fin 4) (Fin 3) ℝ) : Prop :=
  ∀ a b, |u.1 a b - u.2 a b| ≤ seDerivTol rcut rs ρ B

/-- Rounded and exact rows, computed side by side. -/
noncomputable def pairBoth (p : LmpIn) (cz nz w : ℤ) (rcut rs : ℝ) :
    Except CErr (List (List ((Fin 4 → ℝ) × (Fin 4 → ℝ)))) :=
  pairLmp p cz nz w (fun v => (envRowD flR rcut rs (diffD flR v), cEnvRow rcut rs v)) (0, 0) false

/-- Rounded and exact derivative blocks, computed side by side. -/
noncomputable def pairBothD (p : LmpIn) (cz nz w : ℤ) (rcut rs : ℝ) :
    Except CErr (List (List (Matrix (Fin 4) (Fin 3) ℝ × Matrix (Fin 4) (Fin 3) ℝ))) :=
  pairLmp p cz nz w (fun v => (se4pwDerivD flR rcut rs (diffD flR v), cSe4pwDeriv rcut rs v)) (0, 0) true

theorem pairBoth_fst (cz nz w : ℤ) : pairGenerateLmpD flR p cz nz w rcut rs
    = (pairBoth p cz nz w rcut rs).map (List.map (List.map Prod.fst)) := by
  unfold pairGenerateLmpD pairBoth
  exact pairLmp_mapped (fun u : (Fin 4 → ℝ) × (Fin 4 → ℝ) => u.1) p cz nz w (fun v => (envRowD flR rcut rs (diffD flR v), cEnvRow rcut rs v)) (0, 0) false

theorem pairBoth_snd (cz nz w : ℤ) : pairGenerateLmp p cz nz w rcut rs
    = (pairBoth p cz nz w rcut rs).map (List.map (List.map Prod.snd)) := by
  unfold pairGenerateLmp pairBoth
  exact pairLmp_mapped (fun u : (Fin 4 → ℝ) × (Fin 4 → ℝ) => u.2) p cz nz w (fun v => (envRowD flR rcut rs (diffD flR v), cEnvRow rcut rs v)) (0, 0) false

theorem pairBothD_fst (cz nz w : ℤ) : pairDerivLmpD flR p cz nz w rcut rs
    = (pairBothD p cz nz w rcut rs).map (List.map (List.map Prod.fst)) := by
  unfold pairDerivLmpD pairBothD
  exact pairLmp_mapped (fun u : Matrix (Fin 4) (Fin 3) ℝ × Matrix (Fin 4) (Fin 3) ℝ => u.1) p cz nz w (fun v => (se4pwDerivD flR rcut rs (diffD flR v), cSe4pwDeriv rcut rs v)) (0, 0) true

theorem pairBothD_snd (cz nz w : ℤ) : pairDerivLmp p cz nz w rcut rs
    = (pairBothD p cz nz w rcut rs).map (List.map (List.map Prod.snd)) := by
  unfold pairDerivLmp pairBothD
  exact pairLmp_mapped (fun u : Matrix (Fin 4) (Fin 3) ℝ × Matrix (Fin 4) (Fin 3) ℝ => u.2) p cz nz w (fun v => (se4pwDerivD flR rcut rs (diffD flR v), cSe4pwDeriv rcut rs v)) (0, 0) true

theorem pairBoth_near (hrs : rs < rcut) (hρ : 0 < ρ) (hρB : ρ ≤ B) (hB : B ≤ 2 ^ 41 * ρ)
    (hB' : B ≤ 2 ^ 41 * (rcut - rs)) (hp : LmpPairs p (fun c q => ρ ≤ dist3 q c ∧ dist3 q c ≤ B)) (cz nz w : ℤ)
    (out : List (List ((Fin 4 → ℝ) × (Fin 4 → ℝ)))) (h : pairBoth p cz nz w rcut rs = .ok out) :
    AllIn (RowNear rcut rs ρ B) out := by
  refine pairLmp_allIn _ p cz nz w _ (0, 0) ?_ false out ?_ h
  · intro a
    simpa using seTol_nonneg hrs hρ (hρ.le.trans hρB)
  · intro ii hii i c l nb q hi hc hl hnb hq a
    obtain ⟨h1, h2⟩ := lmpPairs_reads hp ii hii i c l nb q hi hc hl hnb hq
    have := (slotNear_val hrs hρ hB hB' c q h1 h2).1 a
    rw [diffD_sub, vec_sub]
    exact this

theorem pairBothD_near (hrs : rs < rcut) (hρ : 0 < ρ) (hρB : ρ ≤ B) (hB : B ≤ 2 ^ 41 * ρ)
    (hB' : B ≤ 2 ^ 41 * (rcut - rs)) (hp : LmpPairs p (fun c q => ρ ≤ dist3 q c ∧ dist3 q c ≤ B)) (cz nz w : ℤ)
    (out : List (List (Matrix (Fin 4) (Fin 3) ℝ × Matrix (Fin 4) (Fin 3) ℝ)))
    (h : pairBothD p cz nz w rcut rs = .ok out) : AllIn (BlockNear rcut rs ρ B) out := by
  refine pairLmp_allIn _ p cz nz w _ (0, 0) ?_ true out ?_ h
  · intro a b
    simpa using seDerivTol_nonneg hrs hρ (hρ.le.trans hρB)
  · intro ii hii i c l nb q hi hc hl hnb hq a b
    obtain ⟨h1, h2⟩ := lmpPairs_reads hp ii hii i c l nb q hi hc hl hnb hq
    have := (slotNear_val hrs hρ hB hB' c q h1 h2).2.1 a b
    rw [diffD_sub, vec_sub]
    exact this

/-- Two results read off one computation. -/
theorem both_forall₂ {α β γ : Type} (f : γ → α) (g : γ → β) (r : α → β → Prop) (comb : Except CErr (List (List γ)))
    (h : ∀ out, comb = .ok out → AllIn (fun u => r (f u) (g u)) out) :
    (∀ e, comb.map (List.map (List.map f)) = .error e ↔ comb.map (List.map (List.map g)) = .error e) ∧
    ∀ out ex, comb.map (List.map (List.map f)) = .ok out → comb.map (List.map (List.map g)) = .ok ex →
      List.Forall₂ (List.Forall₂ r) out ex := by
  cases comb with
  | error e => exact ⟨fun _ => ⟨fun h => (by cases h; rfl), fun h => (by cases h; rfl)⟩, fun _ _ h => (by cases h)⟩
  | ok l =>
    refine ⟨fun e => ⟨fun h => (by cases h), fun h => (by cases h)⟩, ?_⟩
    intro out ex ho he
    cases ho
    cases he
    have h := h l rfl
    rw [List.forall₂_map_left_iff, List.forall₂_map_right_iff, List.forall₂_same]
    intro row hrow
    rw [List.forall₂_map_left_iff, List.forall₂_map_right_iff, List.forall₂_same]
    exact h row hrow

end near

end MaterSDK
