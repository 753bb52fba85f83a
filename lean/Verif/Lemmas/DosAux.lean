import Verif.Lemmas.Dos
import Verif.Lemmas.Num

/-! # Helper lemmas for `Props/Dos.lean` -/



namespace MaterSDK
theorem toList_two (O : SetOrder) (a b : Str) (h : a ≠ b) :
    O.toList [a, b] = [a, b] ∨ O.toList [a, b] = [b, a] := by
  have hn := O.nodup [a, b]
  have hm := O.mem [a, b]
  have hp : (O.toList [a, b]).Perm [a, b] := by
    refine (List.perm_ext_iff_of_nodup hn ?_).2 (fun x => hm x)
    simp [h]
  have hlen := hp.length_eq
  match hl : O.toList [a, b] with
  | [] => rw [hl] at hlen; simp at hlen
  | [_] => rw [hl] at hlen; simp at hlen
  | [x, y] =>
    rw [hl] at hm hn
    have hx := (hm x).1 (by simp)
    have hy := (hm y).1 (by simp)
    have hxy : x ≠ y := by simpa using hn
    simp only [List.mem_cons, List.not_mem_nil, or_false] at hx hy
    rcases hx with rfl | rfl <;> rcases hy with rfl | rfl
    · exact absurd rfl hxy
    · exact .inl rfl
    · exact .inr rfl
    · exact absurd rfl hxy
  | _ :: _ :: _ :: _ => rw [hl] at hlen; simp at hlen

theorem toList_one (O : SetOrder) (a : Str) : O.toList [a] = [a] := by
  have hp : (O.toList [a]).Perm [a] :=
    (List.perm_ext_iff_of_nodup (O.nodup [a]) (by simp)).2 (fun x => O.mem [a] x)
  exact List.perm_singleton.1 hp

theorem showNat_no_newline (n : ℕ) : '\n' ∉ showNat n := by
  intro h
  have := (showNat_spec n).2.1 _ h
  revert this
  decide

theorem showOptInt_no_newline (z : Option ℤ) : '\n' ∉ showOpt showInt z := by
  cases z with
  | none => decide
  | some z =>
    change '\n' ∉ showInt z
    unfold showInt
    split
    · intro h
      rcases List.mem_cons.1 h with h | h
      · exact absurd h (by decide)
      · exact showNat_no_newline _ h
    · exact showNat_no_newline _

end MaterSDK
