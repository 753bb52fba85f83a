import Verif.Lemmas.MtpLevel
import Verif.Lemmas.Except

/-! # `std::sort` and the missing `return` -/

namespace MaterSDK

theorem flatMap_pairs {α : Type} (l m : List ℕ) (f : ℕ × ℕ → List α) :
    (l.flatMap (fun a => m.map (fun b => (a, b)))).flatMap f
      = l.flatMap (fun a => m.flatMap (fun b => f (a, b))) := by
  rw [List.flatMap_assoc]
  refine List.flatMap_congr ?_
  intro a _
  rw [List.flatMap_map]

theorem forall₂_flatten {α β : Type} {r : α → List β → Prop} {g : α → List β} {l : List α} {ps : List (List β)}
    (h : List.Forall₂ r l ps) (hg : ∀ a p, r a p → p = g a) : ps.flatten = l.flatMap g := by
  induction h with
  | nil => rfl
  | cons h _ ih => rw [List.flatten_cons, List.flatMap_cons, ih, hg _ _ h]

theorem forall₂_eq_map {α β : Type} {r : α → β → Prop} {g : α → β} {l : List α} {ps : List β}
    (h : List.Forall₂ r l ps) (hg : ∀ a p, r a p → p = g a) : ps = l.map g := by
  induction h with
  | nil => rfl
  | cons h _ ih => rw [List.map_cons, ih, hg _ _ h]

/-- When `get_all_schemes4lev` comes back, the result is that of the first part. -/
theorem schemesRun_ok (S : PairSort) (depth aim mu0 nu0 : ℕ) (r : List (List (ℕ × ℕ)))
    (h : schemesRun S depth aim mu0 nu0 = .ok r) : r = schemesAux S.toNuSort depth aim mu0 nu0 := by
  induction depth generalizing aim mu0 nu0 r with
  | zero => exact (Except.ok.inj h).symm
  | succ d ih =>
    unfold schemesRun at h
    unfold schemesAux
    split
    · rename_i h0
      rw [if_pos h0] at h
      exact (Except.ok.inj h).symm
    · rename_i h0
      rw [if_neg h0] at h
      obtain ⟨parts, hp, h⟩ := bind_eq_ok.1 h
      rw [← Except.ok.inj h]
      rw [mapM_eq_ok] at hp
      rw [forall₂_flatten hp (g := fun p => if mtpLevel p < mtpLevel (mu0, nu0) then []
          else if mtpLevel p ≤ aim then
            (schemesAux S.toNuSort d (aim - mtpLevel p) p.1 p.2).map (fun c => S.sort (c ++ [p]))
          else []) ?_, flatMap_pairs]
      intro p q hq
      split at hq
      · rename_i h1
        rw [if_pos h1]; exact (Except.ok.inj hq).symm
      · rename_i h1
        rw [if_neg h1]
        split at hq
        · rename_i h2
          rw [if_pos h2]
          obtain ⟨b, hb, hq⟩ := bind_eq_ok.1 hq
          rw [← ih _ _ _ _ hb]
          rw [mapM_eq_ok] at hq
          refine forall₂_eq_map hq ?_
          intro c q hc
          unfold PairSort.run at hc
          split at hc
          · exact (Except.ok.inj hc).symm
          · cases hc
        · rename_i h2
          rw [if_neg h2]; exact (Except.ok.inj hq).symm

theorem schemesRun_err (S : PairSort) (depth aim mu0 nu0 : ℕ) (e : CErr)
    (h : schemesRun S depth aim mu0 nu0 = .error e) : e = .undefined := by
  induction depth generalizing aim mu0 nu0 with
  | zero => cases h
  | succ d ih =>
    unfold schemesRun at h
    split at h
    · cases h
    · cases hp : (((List.range aim).flatMap (fun mu => (List.range aim).map (fun nu => (mu, nu)))).mapM
        (fun p =>
          if mtpLevel p < mtpLevel (mu0, nu0) then .ok []
          else if mtpLevel p ≤ aim then do
            let before ← schemesRun S d (aim - mtpLevel p) p.1 p.2
            before.mapM (fun c => S.run (c ++ [p]))
          else .ok []) : Except CErr (List (List (List (ℕ × ℕ))))) with
      | ok ps => rw [hp] at h; cases h
      | error e' =>
        rw [hp] at h
        cases h
        obtain ⟨p, _, hp⟩ := mapM_eq_error hp
        split at hp
        · cases hp
        · split at hp
          · cases hb : schemesRun S d (aim - mtpLevel p) p.1 p.2 with
            | error e' => rw [hb] at hp; cases hp; exact ih _ _ _ hb
            | ok b =>
              rw [hb] at hp
              obtain ⟨c, _, hc⟩ := mapM_eq_error hp
              unfold PairSort.run at hc
              split at hc
              · cases hc
              · cases hc; rfl
          · cases hp

/-- One sort that assigns makes the level undefined. -/
theorem schemesRun_undefined (S : PairSort) (d aim mu0 nu0 : ℕ) (p : ℕ × ℕ) (c : List (ℕ × ℕ))
    (h1 : p.1 < aim) (h2 : p.2 < aim) (h3 : mtpLevel (mu0, nu0) ≤ mtpLevel p) (h4 : mtpLevel p ≤ aim)
    (hc : c ∈ schemesAux S.toNuSort d (aim - mtpLevel p) p.1 p.2) (ha : S.assigns (c ++ [p]) ≠ 0) :
    schemesRun S (d + 1) aim mu0 nu0 = .error .undefined := by
  cases h : schemesRun S (d + 1) aim mu0 nu0 with
  | error e => rw [schemesRun_err S _ _ _ _ _ h]
  | ok r =>
    exfalso
    unfold schemesRun at h
    rw [if_neg (by omega)] at h
    obtain ⟨parts, hp, _⟩ := bind_eq_ok.1 h
    rw [mapM_eq_ok] at hp
    have hm : p ∈ (List.range aim).flatMap (fun mu => (List.range aim).map (fun nu => (mu, nu))) := by
      rw [List.mem_flatMap]
      exact ⟨p.1, by simpa using h1, List.mem_map.2 ⟨p.2, by simpa using h2, rfl⟩⟩
    obtain ⟨j, hj⟩ := List.mem_iff_getElem?.1 hm
    obtain ⟨q, _, hq⟩ := forall₂_get hp hj
    rw [if_neg (by omega), if_pos h4] at hq
    obtain ⟨b, hb, hq⟩ := bind_eq_ok.1 hq
    rw [schemesRun_ok S _ _ _ _ _ hb] at hq
    rw [mapM_eq_ok] at hq
    obtain ⟨k, hk⟩ := List.mem_iff_getElem?.1 hc
    obtain ⟨c', _, hc'⟩ := forall₂_get hq hk
    unfold PairSort.run at hc'
    rw [if_neg ha] at hc'
    cases hc'

theorem combsMake_undefined (S : PairSort) (maxLevel : ℤ) (ii : ℕ) (h : (ii : ℤ) ≤ maxLevel)
    (hu : schemesRun S (ii + 1) ii 0 0 = .error .undefined) : combsMake S maxLevel = .error .undefined := by
  unfold combsMake
  have := mapM_isError (f := fun ii => do
      let tmp ← schemesRun S (ii + 1) ii 0 0
      return contractedCombs tmp) (l := List.range (maxLevel + 1).toNat)
    ⟨ii, by rw [List.mem_range]; omega, .undefined, by rw [hu]; rfl⟩
  obtain ⟨e, he⟩ := this
  rw [he]
  obtain ⟨k, _, hk⟩ := mapM_eq_error he
  cases hs : schemesRun S (k + 1) k 0 0 with
  | ok r => rw [hs] at hk; cases hk
  | error e' =>
    rw [hs] at hk
    cases hk
    rw [schemesRun_err S _ _ _ _ _ hs]
    rfl

theorem NuSort.single (S : NuSort) (p : ℕ × ℕ) : S.sort [p] = [p] := List.perm_singleton.1 (S.perm [p])

/-- An insertion sort that assigns only when something moves. -/
def exPairSort : PairSort where
  toNuSort := NuSort.insertion
  assigns := fun l => if NuSort.insertion.sort l = l then 0 else l.length
  moves := fun l h => by
    rw [if_neg h]
    intro h0
    rw [List.length_eq_zero_iff] at h0
    subst h0
    exact h rfl
  short := fun l h => by
    rw [if_pos]
    match l, h with
    | [], _ => rfl
    | [p], _ => exact NuSort.insertion.single p

/-- One that assigns as often as libstdc++ if nothing moves. -/
def exPairSort2 : PairSort where
  toNuSort := NuSort.insertion
  assigns := fun l => l.length - 1
  moves := fun l h => by
    intro h0
    match l, h0 with
    | [], _ => exact h rfl
    | [p], _ => exact h (NuSort.insertion.single p)
  short := fun l h => by omega

end MaterSDK
