import Verif.Lemmas.EnvMatrixAux

/-! # Slot tables without room: what the loop over the neighbours writes where -/

namespace MaterSDK

/-- The places and values written for centre `ii`, in order: a neighbour goes to the first slot of its type, moved
by the number of earlier neighbours of the same type. -/
def slotWrites {α : Type} (umax : List ℕ) (ii : ℕ) (nbrs : List (ℤ × α)) : List (ℕ × α) :=
  nbrs.zipIdx.map (fun e => (ii * umax.sum + ((umax.take e.1.1.toNat).sum +
    (nbrs.take e.2).countP (fun q => q.1 = e.1.1)), e.1.2))

/-- What is at place `k` after the writes: the last value written there, or what was there before. -/
def lastSlotWrite {α : Type} (ws : List (ℕ × α)) (old : α) (k : ℕ) : α :=
  ((ws.reverse.find? (fun w => w.1 = k)).map Prod.snd).getD old

/-- Writing one after another. -/
def writeAll {α : Type} (l : List α) (ws : List (ℕ × α)) : Except CErr (List α) :=
  ws.foldlM (fun l w => cSet l (w.1 : ℤ) w.2) l

theorem writeAll_ok {α : Type} (ws : List (ℕ × α)) : ∀ (l : List α), (∀ w ∈ ws, w.1 < l.length) →
    ∃ l', writeAll l ws = .ok l' ∧ l'.length = l.length ∧
      ∀ (k : ℕ) (old : α), l[k]? = some old → l'[k]? = some (lastSlotWrite ws old k) := by
  induction ws using List.reverseRecOn with
  | nil => intro l _; exact ⟨l, rfl, rfl, fun k old h => h⟩
  | append_singleton ws w ih =>
    intro l h
    obtain ⟨l', h1, h2, h3⟩ := ih l (fun x hx => h x (by simp [hx]))
    have hw : w.1 < l'.length := by rw [h2]; exact h w (by simp)
    refine ⟨l'.set w.1 w.2, ?_, by rw [List.length_set, h2], ?_⟩
    · unfold writeAll at h1 ⊢
      rw [List.foldlM_append, h1, ok_bind, List.foldlM_cons, cSet_ok (by omega), ok_bind]
      rfl
    · intro k old hk
      unfold lastSlotWrite
      rw [List.reverse_append, List.reverse_singleton, List.singleton_append, List.find?_cons]
      by_cases hkw : w.1 = k
      · subst hkw
        rw [List.getElem?_set_self hw]
        simp
      · rw [List.getElem?_set_ne hkw, h3 k old hk]
        simp [hkw, lastSlotWrite]

theorem writeAll_oob {α : Type} (ws : List (ℕ × α)) (l : List α) (h : ∃ w ∈ ws, l.length ≤ w.1) :
    writeAll l ws = .error .outOfBounds := by
  induction ws generalizing l with
  | nil => obtain ⟨w, hw, _⟩ := h; exact absurd hw (by simp)
  | cons a ws ih =>
    unfold writeAll
    rw [List.foldlM_cons]
    by_cases ha : l.length ≤ a.1
    · rw [cSet_oob (Or.inr (by exact_mod_cast ha))]
      rfl
    · rw [cSet_ok (by omega), ok_bind]
      refine ih _ ?_
      obtain ⟨w, hw, hl⟩ := h
      rcases List.mem_cons.1 hw with rfl | hw
      · exact absurd hl ha
      · exact ⟨w, hw, by rwa [List.length_set]⟩

theorem writeAll_append {α : Type} (l : List α) (a b : List (ℕ × α)) :
    writeAll l (a ++ b) = (do let l' ← writeAll l a; writeAll l' b) := by
  unfold writeAll
  rw [List.foldlM_append]

theorem slotWrites_take {α : Type} (umax : List ℕ) (ii : ℕ) (nbrs : List (ℤ × α)) (k : ℕ) (hk : k < nbrs.length) :
    (slotWrites umax ii nbrs).take (k + 1) = (slotWrites umax ii nbrs).take k ++
      [(ii * umax.sum + ((umax.take nbrs[k].1.toNat).sum + (nbrs.take k).countP (fun q => q.1 = nbrs[k].1)),
        nbrs[k].2)] := by
  rw [List.take_add_one]
  unfold slotWrites
  rw [List.getElem?_map, List.getElem?_zipIdx, List.getElem?_eq_getElem hk]
  simp

theorem slotStep_write {α : Type} (p : SlotIn) (umax : List ℕ) (hu : p.umax = umax.map (fun m : ℕ => (m : ℤ)))
    (val : ℤ → ℤ → Except CErr α) (ii : ℕ) (out : List α) (nbrs : List (ℤ × α)) (jj : ℕ) (tz : ℤ) (a : α) (nb : ℤ)
    (hnb : cGet p.firstneigh (ii * p.width + jj) = .ok nb) (hty : cGet p.types nb = .ok tz)
    (hval : val (ii * p.width + jj) nb = .ok a) (h0 : 0 ≤ tz) (h1 : tz < umax.length) :
    slotStep p val ii (out, nloopOf umax.length nbrs) jj
      = (do
          let o ← cSet out ((ii * umax.sum + ((umax.take tz.toNat).sum +
            nbrs.countP (fun q => q.1 = tz)) : ℕ) : ℤ) a
          return (o, nloopOf umax.length (nbrs ++ [(tz, a)]))) := by
  obtain ⟨t, rfl⟩ := Int.eq_ofNat_of_zero_le h0
  have ht : t < umax.length := by exact_mod_cast h1
  have hw : p.width = ((umax.sum : ℕ) : ℤ) := by
    unfold SlotIn.width; rw [hu, map_cast_sum]
  unfold slotStep
  rw [hnb, ok_bind, hty, ok_bind, hval, ok_bind, hu, cGet_nat (nstartIdxs_get umax t ht), ok_bind,
    cGet_nat (nloopOf_get umax.length nbrs t ht), ok_bind]
  have hpos : (ii : ℤ) * p.width + ((((umax.take t).sum : ℕ) : ℤ)
      + ((nbrs.countP (fun q => q.1 = (t : ℤ)) : ℕ) : ℤ))
      = ((ii * umax.sum + ((umax.take t).sum + nbrs.countP (fun q => q.1 = (t : ℤ))) : ℕ) : ℤ) := by
    rw [hw]; push_cast; ring
  rw [hpos, Int.toNat_natCast]
  congr 1
  funext o
  rw [cSet_ok, ok_bind, Int.toNat_natCast, nloopOf_set]
  refine ⟨Int.natCast_nonneg _, ?_⟩
  unfold nloopOf
  simpa using ht

theorem slotRow_write {α : Type} (p : SlotIn) (umax : List ℕ) (hu : p.umax = umax.map (fun m : ℕ => (m : ℤ)))
    (val : ℤ → ℤ → Except CErr α) (ii : ℕ) (out : List α) (nbrs : List (ℤ × α))
    (hty : ∀ q ∈ nbrs, 0 ≤ q.1 ∧ q.1 < umax.length) (hr : Reads p val ii nbrs) (n : ℕ) (hn : n ≤ nbrs.length) :
    (List.range n).foldlM (slotStep p val ii) (out, List.replicate umax.length 0)
      = (do
          let o ← writeAll out ((slotWrites umax ii nbrs).take n)
          return (o, nloopOf umax.length (nbrs.take n))) := by
  induction n with
  | zero =>
    refine congrArg Except.ok (Prod.ext rfl ?_)
    unfold nloopOf
    simp
  | succ k ih =>
    have hk : k < nbrs.length := by omega
    obtain ⟨nb, e1, e2, e3⟩ := hr k nbrs[k] (List.getElem?_eq_getElem hk)
    obtain ⟨h0, h1⟩ := hty nbrs[k] (List.getElem_mem hk)
    have htk : nbrs.take (k + 1) = nbrs.take k ++ [(nbrs[k].1, nbrs[k].2)] := by
      rw [List.take_add_one, List.getElem?_eq_getElem hk]
      rfl
    rw [List.range_succ, List.foldlM_append, ih (by omega), slotWrites_take umax ii nbrs k hk, writeAll_append, htk]
    cases writeAll out ((slotWrites umax ii nbrs).take k) with
    | error e => rfl
    | ok o =>
      rw [ok_bind, ok_bind, pure_bind, List.foldlM_cons,
        slotStep_write p umax hu val ii o (nbrs.take k) k _ _ nb e1 e2 e3 h0 h1]
      unfold writeAll
      rw [List.foldlM_cons]
      cases cSet o _ nbrs[k].2 with
      | error e => rfl
      | ok o' => rfl

/-- The whole loop as a list of writes. -/
theorem slotFill_write {α β : Type} (p : SlotIn) (umax : List ℕ) (n : ℕ)
    (hu : p.umax = umax.map (fun m : ℕ => (m : ℤ))) (hn : p.inum = (n : ℤ)) (zero : α)
    (centre : ℕ → Except CErr β) (val : β → ℤ → ℤ → Except CErr α)
    (nbrs : ℕ → List (ℤ × α))
    (hc : ∀ ii < n, ∃ c, centre ii = .ok c ∧ Reads p (val c) ii (nbrs ii))
    (hnum : ∀ ii < n, p.numneigh[ii]? = some ((nbrs ii).length : ℤ))
    (hty : ∀ ii < n, ∀ q ∈ nbrs ii, 0 ≤ q.1 ∧ q.1 < umax.length) :
    slotFill p zero centre val
      = writeAll (List.replicate (n * umax.sum) zero)
          ((List.range n).flatMap (fun ii => slotWrites umax ii (nbrs ii))) := by
  have hw : p.width = ((umax.sum : ℕ) : ℤ) := by
    unfold SlotIn.width; rw [hu, map_cast_sum]
  unfold slotFill
  have hneg : ¬ (p.inum < 0 ∨ (p.umax.any fun m => decide (m < 0)) = true) := by
    rintro (h | h)
    · rw [hn] at h; omega
    · rw [hu, List.any_map, List.any_eq_true] at h
      obtain ⟨x, _, hx⟩ := h
      simp at hx
      omega
  rw [if_neg hneg, hn, Int.toNat_natCast, hw,
    show ((n : ℤ) * ((umax.sum : ℕ) : ℤ)).toNat = n * umax.sum by
      rw [← Int.natCast_mul, Int.toNat_natCast]]
  generalize List.replicate (n * umax.sum) zero = arr
  have key : ∀ m ≤ n, (List.range m).foldlM (fun (out : List α) (ii : ℕ) => do
      let c ← centre ii
      let n ← cGet p.numneigh (ii : ℤ)
      let st ← (List.range n.toNat).foldlM (slotStep p (val c) ii)
        (out, List.replicate p.umax.length 0)
      return st.1) arr = writeAll arr ((List.range m).flatMap (fun ii => slotWrites umax ii (nbrs ii))) := by
    intro m
    induction m with
    | zero => intro _; rfl
    | succ k ih =>
      intro hk
      rw [List.range_succ, List.foldlM_append, ih (by omega), List.flatMap_append, writeAll_append]
      congr 1
      funext out
      obtain ⟨c, hc1, hc2⟩ := hc k (by omega)
      have hlen : p.umax.length = umax.length := by rw [hu, List.length_map]
      rw [List.foldlM_cons, hc1, ok_bind, cGet_nat (hnum k (by omega)), ok_bind, Int.toNat_natCast, hlen,
        slotRow_write p umax hu (val c) k out (nbrs k) (hty k (by omega)) hc2 _ (le_refl _)]
      have : (slotWrites umax k (nbrs k)).take (nbrs k).length = slotWrites umax k (nbrs k) := by
        rw [List.take_of_length_le]
        simp [slotWrites]
      rw [this, List.flatMap_singleton]
      cases writeAll out (slotWrites umax k (nbrs k)) with
      | error e => rfl
      | ok o => rfl
  exact key n (le_refl _)

end MaterSDK
