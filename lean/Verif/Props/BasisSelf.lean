import Verif.Lemmas.BasisSelf
import Verif.Props.BasisHeap

/-! # C148, C149: what every program shows, `x = x` included -/

namespace MaterSDK

variable {α γ δ : Type}

/-- C148: what every program with `ChebyshevPoly` objects shows. They behave like values, except that `x = x`
makes an object with rows an empty one with the cutoffs `z` of a default constructed object. -/
theorem C148_exact (z : α) (zero : γ) (F : BasisFill α γ δ) (ops : List (BasisOp α δ)) :
    (basisRun (chebClass z zero F) ops).map (BasisState.view (chebClass z zero F)) =
      (basisValRunSelf (fun v => if v.rows = [] then v else ⟨z, []⟩) z zero F.poly ops).map
        (fun pool => pool.map (Option.map .ok)) := by
  refine ClassOK.view_self (cheb_self z zero F) ops fun op _ => ?_
  cases op with
  | assign x y =>
    by_cases h : x = y
    · exact Or.inl ⟨x, by rw [h]⟩
    · exact Or.inr fun pool => by simp [basisAllowed, anyGuard, h]
  | _ => exact Or.inr fun pool => by simp [basisAllowed, anyGuard]

/-- C149: what every program with `MtpQ` objects shows which makes none without arguments. They behave like
values, except that `x = x` takes the rows of the object away. -/
theorem C149_exact (z : α) (zero : γ) (F : BasisFill α γ δ) (hF : ∀ a d, F.dom a d = true)
    (ops : List (BasisOp α δ)) (hd : .dflt ∉ ops) :
    (basisRun (mtpqClass z zero F) ops).map (BasisState.view (mtpqClass z zero F)) =
      (basisValRunSelf (fun v => ⟨v.par, []⟩) z zero F.full ops).map
        (fun pool => pool.map (Option.map .ok)) := by
  refine ClassOK.view_self (mtpq_self z zero F hF) ops fun op hop => ?_
  cases op with
  | dflt => exact absurd hop hd
  | assign x y =>
    by_cases h : x = y
    · exact Or.inl ⟨x, by rw [h]⟩
    · exact Or.inr fun pool => by simp [basisAllowed, mtpqGuard, h]
  | _ => exact Or.inr fun pool => by simp [basisAllowed, mtpqGuard]

/-- An object is assigned to itself between two others being built; it alone loses its rows, and a copy of it
can still be made and assigned to. -/
example : (basisRun (mtpqClass 0 0 ⟨fun _ _ => true, fun a _ d i => a + d + i, fun _ d e => d * e⟩)
    [.make 9 2, .make 7 1, .build 0 3, .build 1 5, .assign 0 0, .copy 0, .assign 2 1]).map
      (BasisState.view (mtpqClass 0 0 ⟨fun _ _ => true, fun a _ d i => a + d + i, fun _ d e => d * e⟩)) =
    .ok [some (.ok ⟨9, []⟩), some (.ok ⟨7, [60]⟩), some (.ok ⟨7, [60]⟩)] := by rfl

end MaterSDK
