import Verif.Lemmas.TildeR

/-! # Stacking the blocks of the pairs of elements -/

namespace MaterSDK

theorem copyPairBlock_row {α β : Type} (wrap : α → β) (A B : List (List β)) (pre rest : List β) (row : List α)
    (h : row.length ≤ rest.length) :
    (List.range row.length).foldlM (fun (arr : List (List β)) (ll : ℕ) => do
        let a ← cGet row (ll : ℤ)
        writeSlot arr (A.length : ℤ) ((pre.length : ℤ) + ll) (wrap a)) (A ++ (pre ++ rest) :: B)
      = .ok (A ++ (pre ++ (row.map wrap ++ rest.drop row.length)) :: B) := by
  have key := foldlM_range_ok (fun (arr : List (List β)) (ll : ℕ) => do
        let a ← cGet row (ll : ℤ)
        writeSlot arr (A.length : ℤ) ((pre.length : ℤ) + ll) (wrap a))
    (fun ll => A ++ (pre ++ ((row.take ll).map wrap ++ rest.drop ll)) :: B) row.length ?_
  · simpa using key
  · intro ll hll
    have hr : row[ll]? = some row[ll] := List.getElem?_eq_getElem hll
    have hq : rest.drop ll = rest[ll]'(by omega) :: rest.drop (ll + 1) := List.drop_eq_getElem_cons (by omega)
    show (cGet row (ll : ℤ) >>= _) = _
    rw [cGet_nat hr, ok_bind, hq]
    have hw := writeSlot_ok A B (pre ++ (row.take ll).map wrap) (rest.drop (ll + 1)) (rest[ll]'(by omega))
      (wrap row[ll])
    rw [List.length_append, List.length_map, List.length_take, Nat.min_eq_left (by omega)] at hw
    rw [Int.natCast_add] at hw
    simp only [List.append_assoc] at hw
    rw [hw, take_succ_get hr]
    simp only [List.map_cons, List.map_append, List.append_assoc, List.cons_append, List.map_nil,
      List.nil_append]

theorem copyPairBlock_ok {α β : Type} (wrap : α → β) (A C : List (List β))
    (M : List (List β × List α × List β)) (ns w : ℕ) (hd : ∀ m ∈ M, m.1.length = ns)
    (hw : ∀ m ∈ M, m.2.1.length = w ∧ w ≤ m.2.2.length) :
    copyPairBlock wrap (M.map (fun m => m.2.1)) (A.length : ℤ) (ns : ℤ) (M.length : ℤ) (w : ℤ)
        (A ++ M.map (fun m => m.1 ++ m.2.2) ++ C)
      = .ok (A ++ M.map (fun m => m.1 ++ (m.2.1.map wrap ++ m.2.2.drop w)) ++ C) := by
  unfold copyPairBlock
  rw [Int.toNat_natCast, Int.toNat_natCast]
  have key := foldlM_range_ok (fun (arr : List (List β)) (kk : ℕ) => do
      let row ← cGet (M.map (fun m => m.2.1)) (kk : ℤ)
      (List.range w).foldlM (fun (arr : List (List β)) (ll : ℕ) => do
        let a ← cGet row (ll : ℤ)
        writeSlot arr ((A.length : ℤ) + kk) ((ns : ℤ) + ll) (wrap a)) arr)
    (fun kk => A ++ ((M.take kk).map (fun m => m.1 ++ (m.2.1.map wrap ++ m.2.2.drop w))
      ++ (M.drop kk).map (fun m => m.1 ++ m.2.2)) ++ C) M.length ?_
  · simpa using key
  · intro kk hkk
    have hm : M[kk]? = some M[kk] := List.getElem?_eq_getElem hkk
    have hmem : M[kk] ∈ M := List.getElem_mem hkk
    have hdrop : M.drop kk = M[kk] :: M.drop (kk + 1) := List.drop_eq_getElem_cons hkk
    have hb : (M.map (fun m => m.2.1))[kk]? = some M[kk].2.1 := by rw [List.getElem?_map, hm]; rfl
    show (cGet (M.map (fun m => m.2.1)) (kk : ℤ) >>= _) = _
    rw [cGet_nat hb, ok_bind, hdrop, take_succ_get hm]
    have hrow := copyPairBlock_row wrap
      (A ++ (M.take kk).map (fun m => m.1 ++ (m.2.1.map wrap ++ m.2.2.drop w)))
      ((M.drop (kk + 1)).map (fun m => m.1 ++ m.2.2) ++ C) M[kk].1 M[kk].2.2 M[kk].2.1
      (by rw [(hw _ hmem).1]; exact (hw _ hmem).2)
    rw [(hw _ hmem).1, hd _ hmem, List.length_append, List.length_map, List.length_take,
      Nat.min_eq_left (by omega), Int.natCast_add] at hrow
    have e1 : A ++ ((M.take kk).map (fun m => m.1 ++ (m.2.1.map wrap ++ m.2.2.drop w))
        ++ (M[kk] :: M.drop (kk + 1)).map (fun m => m.1 ++ m.2.2)) ++ C
        = A ++ (M.take kk).map (fun m => m.1 ++ (m.2.1.map wrap ++ m.2.2.drop w))
          ++ (M[kk].1 ++ M[kk].2.2) :: ((M.drop (kk + 1)).map (fun m => m.1 ++ m.2.2) ++ C) := by
      simp only [List.map_cons, List.map_append, List.append_assoc, List.cons_append, List.map_nil,
        List.nil_append]
    rw [e1]
    refine hrow.trans ?_
    simp only [List.map_cons, List.map_append, List.append_assoc, List.cons_append, List.map_nil,
      List.nil_append]

/-- The body of the loop over the elements of the neighbours. -/
def stackStep {α β : Type} (wrap : α → β) (gen : ℤ → ℤ → ℕ → ℤ → Except CErr (List (List α)))
    (nc : List ℕ) (nn : List ℤ) (ci : ℤ × ℕ) (arr : List (List β)) (nj : ℤ × ℕ) :
    Except CErr (List (List β)) := do
  let n ← cGet nc (ci.2 : ℤ)
  let w ← cGet nn (nj.2 : ℤ)
  let blk ← gen ci.1 nj.1 n w
  let cs ← cGet (nstartIdxs (nc.map (fun k : ℕ => (k : ℤ)))) (ci.2 : ℤ)
  let ns ← cGet (nstartIdxs nn) (nj.2 : ℤ)
  copyPairBlock wrap blk cs ns (n : ℤ) w arr

theorem stackPairs_eq {α β : Type} (wrap : α → β) (gen : ℤ → ℤ → ℕ → ℤ → Except CErr (List (List α)))
    (cz nz : List ℤ) (nc : List ℕ) (nn : List ℤ) (arr : List (List β)) :
    stackPairs wrap gen cz nz nc nn arr
      = cz.zipIdx.foldlM (fun arr ci => nz.zipIdx.foldlM (stackStep wrap gen nc nn ci) arr) arr := rfl

theorem flatMap_length {α : Type} (l : List (ℤ × ℕ)) (f : ℤ × ℕ → List α)
    (h : ∀ e ∈ l, (f e).length = e.2) : (l.flatMap f).length = (l.map Prod.snd).sum := by
  rw [List.length_flatMap]
  exact congrArg List.sum (List.map_congr_left h)

/-- One block. -/
theorem stackStep_ok {α β γ : Type} (wrap : α → β) (gen : ℤ → ℤ → ℕ → ℤ → Except CErr (List (List α)))
    (nc : List ℕ) (nzw : List (ℤ × ℕ)) (c : ℤ) (i : ℕ) (R : List γ) (seg : ℤ × ℕ → γ → List α)
    (hn : nc[i]? = some R.length) (A C : List (List β)) (hA : (nc.take i).sum = A.length)
    (done : List (ℤ × ℕ)) (e : ℤ × ℕ) (hj : nzw[done.length]? = some e) (ht : nzw.take done.length = done)
    (hgen : gen c e.1 R.length (e.2 : ℤ) = .ok (R.map (seg e)))
    (hsege : ∀ r ∈ R, (seg e r).length = e.2) (hsegd : ∀ e ∈ done, ∀ r ∈ R, (seg e r).length = e.2)
    (M : List (γ × List β)) (hM : M.map Prod.fst = R) (hlen : ∀ m ∈ M, e.2 ≤ m.2.length) :
    stackStep wrap gen nc (nzw.map (fun e => (e.2 : ℤ))) (c, i)
        (A ++ M.map (fun m => (done.flatMap (fun e => seg e m.1)).map wrap ++ m.2) ++ C) (e.1, done.length)
      = .ok (A ++ (M.map (fun m => (m.1, m.2.drop e.2))).map
          (fun m => ((done ++ [e]).flatMap (fun e => seg e m.1)).map wrap ++ m.2) ++ C) := by
  unfold stackStep
  have hw : (nzw.map (fun e => (e.2 : ℤ)))[done.length]? = some (e.2 : ℤ) := by
    rw [List.getElem?_map, hj]; rfl
  have hi : i < nc.length := (List.getElem?_eq_some_iff.1 hn).1
  have hcs := nstartIdxs_get nc i hi
  have hjl : done.length < (nzw.map Prod.snd).length := by
    rw [List.length_map]; exact (List.getElem?_eq_some_iff.1 hj).1
  have hns := nstartIdxs_get (nzw.map Prod.snd) done.length hjl
  rw [List.map_map] at hns
  have hns' : (nstartIdxs (nzw.map (fun e => (e.2 : ℤ))))[done.length]?
      = some (((done.map Prod.snd).sum : ℕ) : ℤ) := by
    rw [← List.map_take, ht] at hns
    exact hns
  rw [cGet_nat hn, ok_bind, cGet_nat hw, ok_bind, hgen, ok_bind, cGet_nat hcs, ok_bind,
    cGet_nat hns', ok_bind, hA]
  have hcopy := copyPairBlock_ok wrap A C (M.map (fun m =>
    ((done.flatMap (fun e => seg e m.1)).map wrap, seg e m.1, m.2))) ((done.map Prod.snd).sum) e.2 ?_ ?_
  · simp only [List.map_map, List.length_map, Function.comp_def] at hcopy
    have hblk : R.map (seg e) = M.map (fun m => seg e m.1) := by rw [← hM, List.map_map]; rfl
    have hlenR : R.length = M.length := by rw [← hM, List.length_map]
    rw [hblk, hlenR, hcopy]
    refine congrArg Except.ok ?_
    rw [List.map_map]
    congr 2
    refine List.map_congr_left ?_
    intro m hm
    simp
  · intro m hm
    obtain ⟨m', hm', rfl⟩ := List.mem_map.1 hm
    rw [List.length_map]
    refine flatMap_length done _ ?_
    intro e' he'
    exact hsegd e' he' _ (by rw [← hM]; exact List.mem_map_of_mem hm')
  · intro m hm
    obtain ⟨m', hm', rfl⟩ := List.mem_map.1 hm
    exact ⟨hsege _ (by rw [← hM]; exact List.mem_map_of_mem hm'), hlen m' hm'⟩

/-- All the elements of the neighbours, for the centres `R` of one element. -/
theorem stackRow_ok {α β γ : Type} (wrap : α → β) (gen : ℤ → ℤ → ℕ → ℤ → Except CErr (List (List α)))
    (nc : List ℕ) (nzw : List (ℤ × ℕ)) (c : ℤ) (i : ℕ) (R : List γ) (seg : ℤ × ℕ → γ → List α)
    (hn : nc[i]? = some R.length) (A C : List (List β)) (hA : (nc.take i).sum = A.length)
    (hgen : ∀ e ∈ nzw, gen c e.1 R.length (e.2 : ℤ) = .ok (R.map (seg e)))
    (hseg : ∀ e ∈ nzw, ∀ r ∈ R, (seg e r).length = e.2) :
    ∀ (rest done : List (ℤ × ℕ)), nzw = done ++ rest → ∀ M : List (γ × List β), M.map Prod.fst = R →
      (∀ m ∈ M, m.2.length = (rest.map Prod.snd).sum) →
      ((rest.map Prod.fst).zipIdx done.length).foldlM
          (stackStep wrap gen nc (nzw.map (fun e => (e.2 : ℤ))) (c, i))
          (A ++ M.map (fun m => (done.flatMap (fun e => seg e m.1)).map wrap ++ m.2) ++ C)
        = .ok (A ++ R.map (fun r => (nzw.flatMap (fun e => seg e r)).map wrap) ++ C) := by
  intro rest
  induction rest with
  | nil =>
    intro done hdone M hM hlen
    rw [List.append_nil] at hdone
    show Except.ok _ = _
    refine congrArg Except.ok ?_
    rw [← hM, List.map_map, hdone]
    congr 2
    refine List.map_congr_left ?_
    intro m hm
    have h0 : m.2 = [] := List.eq_nil_of_length_eq_zero (by simpa using hlen m hm)
    simp [h0]
  | cons e rest ih =>
    intro done hdone M hM hlen
    have he : e ∈ nzw := by rw [hdone]; simp
    have hj : nzw[done.length]? = some e := by rw [hdone]; simp
    rw [List.map_cons, List.zipIdx_cons, List.foldlM_cons]
    rw [stackStep_ok wrap gen nc nzw c i R seg hn A C hA done e hj (by rw [hdone]; simp) (hgen e he)
      (hseg e he) (fun e' he' => hseg e' (by rw [hdone]; simp [he'])) M hM
      (by intro m hm; rw [hlen m hm]; simp), ok_bind]
    have := ih (done ++ [e]) (by rw [hdone]; simp) (M.map (fun m => (m.1, m.2.drop e.2)))
      (by rw [List.map_map]; exact hM) ?_
    · rw [List.length_append, List.length_singleton] at this
      exact this
    · intro m hm
      obtain ⟨m', hm', rfl⟩ := List.mem_map.1 hm
      rw [List.length_drop, hlen m' hm']
      simp

/-- All the blocks. -/
theorem stackPairs_ok {α β γ : Type} (wrap : α → β) (gen : ℤ → ℤ → ℕ → ℤ → Except CErr (List (List α)))
    (cz : List ℤ) (nzw : List (ℤ × ℕ)) (R : ℤ → List γ) (seg : ℤ × ℕ → γ → List α) (arr : List (List β))
    (hgen : ∀ c ∈ cz, ∀ e ∈ nzw, gen c e.1 (R c).length (e.2 : ℤ) = .ok ((R c).map (seg e)))
    (hseg : ∀ c ∈ cz, ∀ e ∈ nzw, ∀ r ∈ R c, (seg e r).length = e.2)
    (harr : arr.length = (cz.map (fun c => (R c).length)).sum)
    (hrow : ∀ row ∈ arr, row.length = (nzw.map Prod.snd).sum) :
    stackPairs wrap gen cz (nzw.map Prod.fst) (cz.map (fun c => (R c).length))
        (nzw.map (fun e => (e.2 : ℤ))) arr
      = .ok (cz.flatMap (fun c => (R c).map (fun r => (nzw.flatMap (fun e => seg e r)).map wrap))) := by
  rw [stackPairs_eq]
  have key : ∀ (rest done : List ℤ), cz = done ++ rest → ∀ (A arr : List (List β)),
      A.length = (done.map (fun c => (R c).length)).sum →
      arr.length = (rest.map (fun c => (R c).length)).sum →
      (∀ row ∈ arr, row.length = (nzw.map Prod.snd).sum) →
      (rest.zipIdx done.length).foldlM (fun arr ci => (nzw.map Prod.fst).zipIdx.foldlM
          (stackStep wrap gen (cz.map (fun c => (R c).length)) (nzw.map (fun e => (e.2 : ℤ))) ci) arr) (A ++ arr)
        = .ok (A ++ rest.flatMap (fun c => (R c).map (fun r => (nzw.flatMap (fun e => seg e r)).map wrap))) := by
    intro rest
    induction rest with
    | nil =>
      intro done _ A arr _ harr _
      have : arr = [] := List.eq_nil_of_length_eq_zero (by simpa using harr)
      subst this
      rfl
    | cons c rest ih =>
      intro done hdone A arr hA harr hrow
      have hc : c ∈ cz := by rw [hdone]; simp
      rw [List.map_cons, List.sum_cons] at harr
      rw [List.zipIdx_cons, List.foldlM_cons]
      have hstep := stackRow_ok wrap gen (cz.map (fun c => (R c).length)) nzw c done.length (R c) seg
        (by rw [hdone]; simp) A (arr.drop (R c).length)
        (by rw [hA, hdone, ← List.map_take]; simp)
        (hgen c hc) (hseg c hc) nzw [] rfl ((R c).zip (arr.take (R c).length))
        (by rw [List.map_fst_zip]; rw [List.length_take]; omega)
        (by
          intro m hm
          exact hrow _ (List.mem_of_mem_take (List.of_mem_zip hm).2))
      have he : A ++ ((R c).zip (arr.take (R c).length)).map
          (fun m => (([] : List (ℤ × ℕ)).flatMap (fun e => seg e m.1)).map wrap ++ m.2)
          ++ arr.drop (R c).length = A ++ arr := by
        have : ((R c).zip (arr.take (R c).length)).map
          (fun m => (([] : List (ℤ × ℕ)).flatMap (fun e => seg e m.1)).map wrap ++ m.2)
          = arr.take (R c).length := by
          have h2 : ((R c).zip (arr.take (R c).length)).map Prod.snd = arr.take (R c).length := by
            rw [List.map_snd_zip]; rw [List.length_take]; omega
          exact h2
        rw [this, List.append_assoc, List.take_append_drop]
      rw [he] at hstep
      refine (congrArg (· >>= _) hstep).trans ?_
      rw [ok_bind]
      have := ih (done ++ [c]) (by rw [hdone]; simp)
        (A ++ (R c).map (fun r => (nzw.flatMap (fun e => seg e r)).map wrap)) (arr.drop (R c).length)
        (by simp [hA]) (by rw [List.length_drop]; omega)
        (fun row hm => hrow row (List.mem_of_mem_drop hm))
      rw [List.length_append, List.length_singleton] at this
      rw [this]
      simp
  have := key cz [] rfl [] arr rfl harr hrow
  simpa using this

/-- A block which cannot be filled stops everything. -/
theorem stackRow_err {α β γ : Type} (wrap : α → β) (gen : ℤ → ℤ → ℕ → ℤ → Except CErr (List (List α)))
    (nc : List ℕ) (nzw : List (ℤ × ℕ)) (c : ℤ) (i : ℕ) (R : List γ) (seg : ℤ × ℕ → γ → List α) (er : CErr)
    (hn : nc[i]? = some R.length) (A C : List (List β)) (hA : (nc.take i).sum = A.length)
    (hgen : ∀ e ∈ nzw, (gen c e.1 R.length (e.2 : ℤ) = .ok (R.map (seg e)) ∧
      ∀ r ∈ R, (seg e r).length = e.2) ∨ gen c e.1 R.length (e.2 : ℤ) = .error er)
    (hbad : ∃ e ∈ nzw, gen c e.1 R.length (e.2 : ℤ) = .error er)
    (M : List (List β)) (hM : M.length = R.length) (hlen : ∀ m ∈ M, m.length = (nzw.map Prod.snd).sum) :
    (nzw.map Prod.fst).zipIdx.foldlM
        (stackStep wrap gen nc (nzw.map (fun e => (e.2 : ℤ))) (c, i)) (A ++ M ++ C) = .error er := by
  have hfail : ∀ (arr : List (List β)) (j : ℕ) (e : ℤ × ℕ), nzw[j]? = some e →
      gen c e.1 R.length (e.2 : ℤ) = .error er →
      stackStep wrap gen nc (nzw.map (fun e => (e.2 : ℤ))) (c, i) arr (e.1, j) = .error er := by
    intro arr j e hj he
    unfold stackStep
    have hw : (nzw.map (fun e => (e.2 : ℤ)))[j]? = some (e.2 : ℤ) := by
      rw [List.getElem?_map, hj]; rfl
    rw [cGet_nat hn, ok_bind, cGet_nat hw, ok_bind, he, error_bind]
  have key : ∀ (rest done : List (ℤ × ℕ)), nzw = done ++ rest →
      (∃ e ∈ rest, gen c e.1 R.length (e.2 : ℤ) = .error er) → ∀ M : List (γ × List β), M.map Prod.fst = R →
      (∀ e ∈ done, ∀ r ∈ R, (seg e r).length = e.2) →
      (∀ m ∈ M, m.2.length = (rest.map Prod.snd).sum) →
      ((rest.map Prod.fst).zipIdx done.length).foldlM
          (stackStep wrap gen nc (nzw.map (fun e => (e.2 : ℤ))) (c, i))
          (A ++ M.map (fun m => (done.flatMap (fun e => seg e m.1)).map wrap ++ m.2) ++ C)
        = .error er := by
    intro rest
    induction rest with
    | nil =>
      rintro done _ ⟨e, he, _⟩
      exact absurd he (by simp)
    | cons e rest ih =>
      intro done hdone hbad M hM hdl hlen
      have he : e ∈ nzw := by rw [hdone]; simp
      have hj : nzw[done.length]? = some e := by rw [hdone]; simp
      rw [List.map_cons, List.zipIdx_cons, List.foldlM_cons]
      rcases hgen e he with ⟨hok, hsl⟩ | her
      · rw [stackStep_ok wrap gen nc nzw c i R seg hn A C hA done e hj (by rw [hdone]; simp) hok hsl hdl M hM
          (by intro m hm; rw [hlen m hm]; simp), ok_bind]
        have := ih (done ++ [e]) (by rw [hdone]; simp) ?_ (M.map (fun m => (m.1, m.2.drop e.2)))
          (by rw [List.map_map]; exact hM) ?_ ?_
        · rw [List.length_append, List.length_singleton] at this
          exact this
        · obtain ⟨e', he', hb⟩ := hbad
          rcases List.mem_cons.1 he' with rfl | he'
          · rw [hok] at hb
            exact absurd hb (by simp)
          · exact ⟨e', he', hb⟩
        · intro e' he'
          rcases List.mem_append.1 he' with h | h
          · exact hdl e' h
          · rw [List.mem_singleton.1 h]
            exact hsl
        · intro m hm
          obtain ⟨m', hm', rfl⟩ := List.mem_map.1 hm
          rw [List.length_drop, hlen m' hm']
          simp
      · rw [hfail _ _ _ hj her, error_bind]
  have := key nzw [] rfl hbad (R.zip M) (by rw [List.map_fst_zip]; omega) (by simp)
    (fun m hm => hlen _ (List.of_mem_zip hm).2)
  have he : (R.zip M).map (fun m => (([] : List (ℤ × ℕ)).flatMap (fun e => seg e m.1)).map wrap ++ m.2) = M := by
    have h2 : (R.zip M).map Prod.snd = M := by
      rw [List.map_snd_zip]; omega
    exact h2
  rw [he] at this
  exact this

theorem stackPairs_err {α β γ : Type} (wrap : α → β) (gen : ℤ → ℤ → ℕ → ℤ → Except CErr (List (List α)))
    (cz : List ℤ) (nzw : List (ℤ × ℕ)) (R : ℤ → List γ) (seg : ℤ × ℕ → γ → List α) (er : CErr)
    (arr : List (List β))
    (hgen : ∀ c ∈ cz, ∀ e ∈ nzw, (gen c e.1 (R c).length (e.2 : ℤ) = .ok ((R c).map (seg e)) ∧
      ∀ r ∈ R c, (seg e r).length = e.2) ∨ gen c e.1 (R c).length (e.2 : ℤ) = .error er)
    (hbad : ∃ c ∈ cz, ∃ e ∈ nzw, gen c e.1 (R c).length (e.2 : ℤ) = .error er)
    (harr : arr.length = (cz.map (fun c => (R c).length)).sum)
    (hrow : ∀ row ∈ arr, row.length = (nzw.map Prod.snd).sum) :
    stackPairs wrap gen cz (nzw.map Prod.fst) (cz.map (fun c => (R c).length))
        (nzw.map (fun e => (e.2 : ℤ))) arr = .error er := by
  rw [stackPairs_eq]
  have key : ∀ (rest done : List ℤ), cz = done ++ rest →
      (∃ c ∈ rest, ∃ e ∈ nzw, gen c e.1 (R c).length (e.2 : ℤ) = .error er) → ∀ (A arr : List (List β)),
      A.length = (done.map (fun c => (R c).length)).sum →
      arr.length = (rest.map (fun c => (R c).length)).sum →
      (∀ row ∈ arr, row.length = (nzw.map Prod.snd).sum) →
      (rest.zipIdx done.length).foldlM (fun arr ci => (nzw.map Prod.fst).zipIdx.foldlM
          (stackStep wrap gen (cz.map (fun c => (R c).length)) (nzw.map (fun e => (e.2 : ℤ))) ci) arr) (A ++ arr)
        = .error er := by
    intro rest
    induction rest with
    | nil =>
      rintro done _ ⟨e, he, _⟩
      exact absurd he (by simp)
    | cons c rest ih =>
      intro done hdone hbad A arr hA harr hrow
      have hc : c ∈ cz := by rw [hdone]; simp
      rw [List.map_cons, List.sum_cons] at harr
      rw [List.zipIdx_cons, List.foldlM_cons]
      have hn : (cz.map (fun c => (R c).length))[done.length]? = some (R c).length := by rw [hdone]; simp
      have hAs : ((cz.map (fun c => (R c).length)).take done.length).sum = A.length := by
        rw [hA, hdone, ← List.map_take]; simp
      have hsplit : A ++ arr = A ++ arr.take (R c).length ++ arr.drop (R c).length := by
        rw [List.append_assoc, List.take_append_drop]
      have htake : (arr.take (R c).length).length = (R c).length := by rw [List.length_take]; omega
      by_cases hb : ∃ e ∈ nzw, gen c e.1 (R c).length (e.2 : ℤ) = .error er
      · have := stackRow_err wrap gen (cz.map (fun c => (R c).length)) nzw c done.length (R c) seg er hn A
          (arr.drop (R c).length) hAs (hgen c hc) hb (arr.take (R c).length) htake
          (fun m hm => hrow _ (List.mem_of_mem_take hm))
        rw [hsplit]
        exact (congrArg (· >>= _) this).trans rfl
      · have hall : ∀ e ∈ nzw, gen c e.1 (R c).length (e.2 : ℤ) = .ok ((R c).map (seg e)) ∧
            ∀ r ∈ R c, (seg e r).length = e.2 := by
          intro e he
          rcases hgen c hc e he with h | h
          · exact h
          · exact absurd ⟨e, he, h⟩ hb
        have hstep := stackRow_ok wrap gen (cz.map (fun c => (R c).length)) nzw c done.length (R c) seg
          hn A (arr.drop (R c).length) hAs
          (fun e he => (hall e he).1) (fun e he => (hall e he).2) nzw [] rfl ((R c).zip (arr.take (R c).length))
          (by rw [List.map_fst_zip]; omega)
          (by
            intro m hm
            exact hrow _ (List.mem_of_mem_take (List.of_mem_zip hm).2))
        have he : ((R c).zip (arr.take (R c).length)).map
            (fun m => (([] : List (ℤ × ℕ)).flatMap (fun e => seg e m.1)).map wrap ++ m.2)
            = arr.take (R c).length := by
          have h2 : ((R c).zip (arr.take (R c).length)).map Prod.snd = arr.take (R c).length := by
            rw [List.map_snd_zip]; omega
          exact h2
        rw [he, ← hsplit] at hstep
        refine (congrArg (· >>= _) hstep).trans ?_
        rw [ok_bind]
        have := ih (done ++ [c]) (by rw [hdone]; simp) ?_
          (A ++ (R c).map (fun r => (nzw.flatMap (fun e => seg e r)).map wrap)) (arr.drop (R c).length)
          (by simp [hA]) (by rw [List.length_drop]; omega)
          (fun row hm => hrow row (List.mem_of_mem_drop hm))
        · rw [List.length_append, List.length_singleton] at this
          exact this
        · obtain ⟨c', hc', hbc⟩ := hbad
          rcases List.mem_cons.1 hc' with rfl | hc'
          · exact absurd hbc hb
          · exact ⟨c', hc', hbc⟩
  have := key cz [] rfl hbad [] arr rfl harr hrow
  simpa using this

end MaterSDK
