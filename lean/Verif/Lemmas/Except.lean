import Mathlib.Data.List.Forall2
import Verif.Py.Basic

/-! # `mapM` and `bind` for results that may raise -/

namespace MaterSDK

variable {ε : Type}

theorem bind_eq_ok {α β : Type} {x : Except ε α} {f : α → Except ε β} {b : β} :
    (x >>= f) = .ok b ↔ ∃ a, x = .ok a ∧ f a = .ok b := by
  cases x with
  | error e => exact ⟨fun h => by (cases h), fun ⟨a, h, _⟩ => by (cases h)⟩
  | ok a => exact ⟨fun h => ⟨a, rfl, h⟩, fun ⟨a', h, h'⟩ => by cases h; exact h'⟩

theorem ok_bind {α β : Type} (a : α) (f : α → Except ε β) : (Except.ok a >>= f) = f a := rfl

theorem error_bind {α β : Type} (e : ε) (f : α → Except ε β) :
    ((Except.error e : Except ε α) >>= f) = .error e := rfl

theorem bind_isError {α β : Type} {x : Except ε α} {f : α → Except ε β}
    (h : ∃ e, x = .error e) : ∃ e, (x >>= f) = .error e := by
  obtain ⟨e, rfl⟩ := h; exact ⟨e, rfl⟩

theorem mapM_nil' {α β : Type} (f : α → Except ε β) : [].mapM f = .ok [] := rfl

theorem mapM_eq_ok {α β : Type} {f : α → Except ε β} {l : List α} {l' : List β} :
    l.mapM f = .ok l' ↔ List.Forall₂ (fun a b => f a = .ok b) l l' := by
  induction l generalizing l' with
  | nil =>
    rw [mapM_nil', List.forall₂_nil_left_iff]
    exact ⟨fun h => by cases h; rfl, fun h => by rw [h]⟩
  | cons a as ih =>
    rw [List.mapM_cons, bind_eq_ok]
    constructor
    · rintro ⟨b, hb, h⟩
      rw [bind_eq_ok] at h
      obtain ⟨bs, hbs, h⟩ := h
      cases h
      exact List.Forall₂.cons hb (ih.1 hbs)
    · intro h
      cases h with
      | cons hb h =>
        refine ⟨_, hb, ?_⟩
        rw [bind_eq_ok]
        exact ⟨_, ih.2 h, rfl⟩

theorem mapM_eq_error {α β : Type} {f : α → Except ε β} {l : List α} {e : ε}
    (h : l.mapM f = .error e) : ∃ a ∈ l, f a = .error e := by
  induction l with
  | nil => cases h
  | cons a as ih =>
    rw [List.mapM_cons] at h
    cases ha : f a with
    | error e' => rw [ha] at h; cases h; exact ⟨a, by simp, ha⟩
    | ok b =>
      rw [ha, ok_bind] at h
      cases hs : as.mapM f with
      | error e' =>
        rw [hs] at h
        have : e' = e := by cases h; rfl
        subst this
        obtain ⟨x, hx, hx'⟩ := ih hs
        exact ⟨x, by simp [hx], hx'⟩
      | ok bs => rw [hs] at h; cases h

/-- `mapM` fails when some element fails. -/
theorem mapM_isError {α β : Type} {f : α → Except ε β} {l : List α}
    (h : ∃ a ∈ l, ∃ e, f a = .error e) : ∃ e, l.mapM f = .error e := by
  cases hm : l.mapM f with
  | error e => exact ⟨e, rfl⟩
  | ok l' =>
    exfalso
    rw [mapM_eq_ok] at hm
    obtain ⟨a, ha, e, he⟩ := h
    induction hm with
    | nil => simp at ha
    | cons h1 _ ih =>
      rcases List.mem_cons.1 ha with rfl | ha
      · rw [he] at h1; cases h1
      · exact ih ha

theorem mapM_map_ok {α β : Type} {f : α → Except ε β} {g : α → β} {l : List α}
    (h : ∀ a ∈ l, f a = .ok (g a)) : l.mapM f = .ok (l.map g) := by
  rw [mapM_eq_ok]
  induction l with
  | nil => exact List.Forall₂.nil
  | cons a as ih =>
    exact List.Forall₂.cons (h a (by simp)) (ih (fun x hx => h x (by simp [hx])))

theorem forall₂_get {α β : Type} {R : α → β → Prop} {l : List α} {l' : List β}
    (h : List.Forall₂ R l l') {i : Nat} {a : α} (ha : l[i]? = some a) :
    ∃ b, l'[i]? = some b ∧ R a b := by
  induction h generalizing i with
  | nil => simp at ha
  | cons h1 _ ih =>
    cases i with
    | zero => simp at ha; subst ha; exact ⟨_, by simp, h1⟩
    | succ i => simpa using ih (by simpa using ha)

theorem forall₂_get' {α β : Type} {R : α → β → Prop} {l : List α} {l' : List β}
    (h : List.Forall₂ R l l') {i : Nat} {b : β} (hb : l'[i]? = some b) :
    ∃ a, l[i]? = some a ∧ R a b := by
  induction h generalizing i with
  | nil => simp at hb
  | cons h1 _ ih =>
    cases i with
    | zero => simp at hb; subst hb; exact ⟨_, by simp, h1⟩
    | succ i => simpa using ih (by simpa using hb)

end MaterSDK
