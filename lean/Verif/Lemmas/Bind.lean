import Verif.Model.Bind
import Verif.Lemmas.Except
import Verif.Lemmas.DeepMDNorm
import Mathlib.Tactic.FinCases
import Mathlib.Tactic.Ring

/-! # Helper lemmas for the Python entry point of the neighbour list -/

namespace MaterSDK

theorem npGet_ok {α : Type} {l : List α} {k : ℕ} {a : α} (h : l[k]? = some a) :
    cGet l (k : ℤ) = .ok a := by
  unfold cGet
  rw [if_neg (by omega), Int.toNat_natCast, h]

theorem vec_eta (v : Vec ℝ) : ![v 0, v 1, v 2] = v := by
  funext i
  fin_cases i <;> rfl

theorem npRow_ok {a : NpMat} {k : ℕ} {v : Vec ℝ} (h : ∀ j : Fin 3, a.raw (k * 3 + j) = .ok (v j)) :
    a.row k = .ok v := by
  unfold NpMat.row
  have h0 := h 0
  have h1 := h 1
  have h2 := h 2
  simp only [Fin.val_zero, Fin.val_one, Fin.val_two] at h0 h1 h2
  rw [h0, h1, h2]
  simp only [ok_bind]
  rw [vec_eta]
  rfl

theorem range_mapM_ok {β : Type} {f : ℕ → Except CErr β} {l : List β}
    (h : ∀ (i : ℕ) (b : β), l[i]? = some b → f i = .ok b) :
    (List.range l.length).mapM f = .ok l := by
  rw [mapM_eq_ok, List.forall₂_iff_get]
  refine ⟨by simp, fun i h1 h2 => ?_⟩
  have := h i l[i] (List.getElem?_eq_getElem (by simpa using h2))
  simpa using this

theorem npRows_ok {a : NpMat} {vs : List (Vec ℝ)}
    (h : ∀ (i : ℕ) (v : Vec ℝ), vs[i]? = some v → ∀ j : Fin 3, a.raw (i * 3 + j) = .ok (v j)) :
    a.rows vs.length = .ok vs :=
  range_mapM_ok fun i v hv => npRow_ok (h i v hv)

theorem bytesFree_append (h l : ByteHeap) (k : ℕ) :
    bytesFree (h ++ l) (h.length + k) = (bytesFree l k).map (h ++ ·) := by
  unfold bytesFree
  rw [List.getElem?_append_right (by omega), Nat.add_sub_cancel_left]
  cases hk : l[k]? with
  | none => rfl
  | some o =>
    cases o with
    | none => rfl
    | some n => simp [Except.map]

theorem bytesFree_at (h l : ByteHeap) (k : ℕ) {l' : ByteHeap} (e : bytesFree l k = .ok l') :
    bytesFree (h ++ l) (h.length + k) = .ok (h ++ l') := by
  rw [bytesFree_append, e]; rfl

theorem bindMemory_eq (h : ByteHeap) (n u : ℕ) :
    bindMemory h n u = .ok (h ++ [some (4 * n), some (4 * n), some (4 * n * u), some (8 * n * u * 3),
        some (4 * n), none, none, none, none, none],
      [⟨h.length + 0, true⟩, ⟨h.length + 1, true⟩, ⟨h.length + 2, false⟩, ⟨h.length + 3, true⟩,
        ⟨h.length + 4, true⟩]) := by
  unfold bindMemory
  simp only [bytesAlloc, List.append_assoc, List.length_append, List.length_cons, List.length_nil,
    List.cons_append, List.nil_append]
  iterate 5 rw [bytesFree_at h _ _ rfl, ok_bind]
  rfl

theorem dropResult_eq (h : ByteHeap) (n u : ℕ) :
    dropResult (h ++ [some (4 * n), some (4 * n), some (4 * n * u), some (8 * n * u * 3),
        some (4 * n), none, none, none, none, none])
      [⟨h.length + 0, true⟩, ⟨h.length + 1, true⟩, ⟨h.length + 2, false⟩, ⟨h.length + 3, true⟩,
        ⟨h.length + 4, true⟩] =
      .ok (h ++ [none, none, some (4 * n * u), none, none, none, none, none, none, none]) := by
  unfold dropResult
  simp only [List.foldlM_cons, List.foldlM_nil, if_true, Bool.false_eq_true, if_false]
  rw [bytesFree_at h _ 0 rfl, ok_bind, bytesFree_at h _ 1 rfl, ok_bind, ok_bind,
    bytesFree_at h _ 3 rfl, ok_bind, bytesFree_at h _ 4 rfl, ok_bind]
  rfl

end MaterSDK
