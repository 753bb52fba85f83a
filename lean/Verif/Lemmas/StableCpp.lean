import Verif.Spec.StableCpp
import Verif.Lemmas.Stable
import Verif.Lemmas.CrystalCpp
import Verif.Lemmas.EnvMatrixDAux

/-! # Helper lemmas for `Props/StableCpp.lean` -/

namespace MaterSDK

open Classical

/-- Images within the cutoff of a wrapped atom have small cell indices. -/
theorem near_small {L : Fin 3 → Vec ℝ} (hL : (Matrix.of L).det ≠ 0) {p c : Vec ℝ} (hp : InCell L p) (hc : InCell L c)
    {rcut : ℝ} {m : Fin 3 → ℕ} (hbig : ∀ i, rcut ≤ (m i : ℝ) * planeDist (Matrix.of L) i) {n : Fin 3 → ℤ}
    (h : dist3 (imagePos L p n) c ≤ rcut) (i : Fin 3) : |n i| ≤ (m i : ℤ) := by
  obtain ⟨f, f1, rfl⟩ := hp
  obtain ⟨g, g1, rfl⟩ := hc
  obtain ⟨h0, h1⟩ := coeff_bound (Matrix.of L) hL (fun k => f k + n k - g k) i
  have e : ∑ k, (f k + n k - g k) • (Matrix.of L) k = imagePos L (cartOf L f) n - cartOf L g := by
    unfold imagePos cartOf
    rw [← Finset.sum_add_distrib, ← Finset.sum_sub_distrib]
    refine Finset.sum_congr rfl fun k _ => ?_
    rw [sub_smul, add_smul]
    rfl
  rw [e, ← dist3_rel] at h1
  have h2 : |f i + n i - g i| ≤ m i := le_of_mul_le_mul_right ((h1.trans h).trans (hbig i)) h0
  rw [abs_le] at h2
  have h3 : (n i : ℝ) < m i + 1 := by linarith [(f1 i).1, (g1 i).2]
  have h4 : -((m i : ℝ) + 1) < n i := by linarith [(f1 i).2, (g1 i).1]
  have h5 : n i < m i + 1 := by exact_mod_cast h3
  have h6 : -((m i : ℤ) + 1) < n i := by exact_mod_cast h4
  rw [abs_le]
  constructor <;> linarith

/-- Two decreasing lists whose entries can be matched within `τ` are within `τ` of each other entry by entry. -/
theorem decreasing_close {τ : ℝ} {l l' k : List ℝ} (hl : l.Pairwise (fun a b => b ≤ a)) (hl' : l'.Pairwise (fun a b => b ≤ a))
    (hp : k.Perm l') (hk : List.Forall₂ (fun a b => |a - b| ≤ τ) l k) :
    List.Forall₂ (fun a b => |a - b| ≤ τ) l l' := by
  have hcount : ∀ {P Q : ℝ → Prop} {x y : List ℝ}, List.Forall₂ (fun a b => P a → Q b) x y →
      x.countP (fun a => decide (P a)) ≤ y.countP (fun a => decide (Q a)) := by
    intro P Q x y h
    induction h with
    | nil => simp
    | cons h _ ih =>
      rw [List.countP_cons, List.countP_cons]
      split_ifs with h1 h2
      · omega
      · simp only [decide_eq_true_eq] at h1 h2
        exact absurd (h h1) h2
      · omega
      · omega
  have hhead : ∀ {x : List ℝ}, x.Pairwise (fun a b => b ≤ a) → ∀ {i : ℕ} (hi : i < x.length),
      i + 1 ≤ x.countP (fun a => decide (x[i] ≤ a)) := by
    intro x hx i hi
    have h1 : (x.take (i + 1)).countP (fun a => decide (x[i] ≤ a)) = (x.take (i + 1)).length := by
      rw [List.countP_eq_length]
      intro a ha
      obtain ⟨j, hj, rfl⟩ := List.mem_iff_getElem.1 ha
      rw [List.length_take] at hj
      rw [List.getElem_take, decide_eq_true_eq]
      rcases Nat.lt_or_ge j i with h | h
      · exact List.pairwise_iff_getElem.1 hx j i (by omega) hi h
      · have : j = i := by omega
        subst this
        exact le_refl _
    have h2 : (x.take (i + 1)).countP (fun a => decide (x[i] ≤ a)) ≤ x.countP (fun a => decide (x[i] ≤ a)) :=
      (List.take_sublist _ _).countP_le
    rw [h1, List.length_take] at h2
    omega
  have htail : ∀ {x : List ℝ}, x.Pairwise (fun a b => b ≤ a) → ∀ {i : ℕ} (hi : i < x.length),
      x.countP (fun a => decide (x[i] < a)) ≤ i := by
    intro x hx i hi
    have h1 : (x.drop i).countP (fun a => decide (x[i] < a)) = 0 := by
      rw [List.countP_eq_zero]
      intro a ha
      obtain ⟨j, hj, rfl⟩ := List.mem_iff_getElem.1 ha
      rw [List.length_drop] at hj
      rw [List.getElem_drop, decide_eq_true_eq, not_lt]
      rcases Nat.eq_zero_or_pos j with h | h
      · subst h
        exact le_refl _
      · exact List.pairwise_iff_getElem.1 hx i (i + j) hi (by omega) (by omega)
    have h2 : x.countP (fun a => decide (x[i] < a)) = (x.take i).countP (fun a => decide (x[i] < a))
        + (x.drop i).countP (fun a => decide (x[i] < a)) := by
      rw [← List.countP_append, List.take_append_drop]
    rw [h1, Nat.add_zero] at h2
    rw [h2]
    exact (List.countP_le_length).trans (by rw [List.length_take]; omega)
  rw [List.forall₂_iff_get]
  refine ⟨hk.length_eq.trans hp.length_eq, ?_⟩
  intro i hi hi'
  simp only [List.get_eq_getElem]
  rw [abs_le]
  constructor
  · by_contra hcon
    rw [not_le] at hcon
    have c1 := hhead hl' hi'
    rw [← hp.countP_eq] at c1
    have c2 : k.countP (fun a => decide (l'[i] ≤ a)) ≤ l.countP (fun a => decide (l[i] < a)) := by
      refine hcount (hk.flip.imp ?_)
      intro a b hab h
      rw [abs_le] at hab
      linarith [hab.1]
    have c3 := htail hl hi
    omega
  · by_contra hcon
    rw [not_le] at hcon
    have c1 := hhead hl hi
    have c2 : l.countP (fun a => decide (l[i] ≤ a)) ≤ k.countP (fun a => decide (l'[i] < a)) := by
      refine hcount (hk.imp ?_)
      intro a b hab h
      rw [abs_le] at hab
      linarith [hab.2]
    have c3 := htail hl' hi'
    rw [hp.countP_eq] at c2
    omega

section

variable {L L' : Fin 3 → Vec ℝ} {atoms atoms' : List (ℤ × Vec ℝ)} {m : Fin 3 → ℕ} {rcut d ε : ℝ}

theorem SmallMove.atom (h : SmallMove L L' atoms atoms' m rcut d ε) {i : ℕ} {a a' : ℤ × Vec ℝ}
    (ha : atoms[i]? = some a) (ha' : atoms'[i]? = some a') : a'.1 = a.1 ∧ ∀ n : Fin 3 → ℤ,
      (∀ i, |n i| ≤ (m i : ℤ)) → ∀ p, |imagePos L' a'.2 n p - imagePos L a.2 n p| ≤ ε := by
  obtain ⟨h1, rfl⟩ := List.getElem?_eq_some_iff.1 ha
  obtain ⟨h2, rfl⟩ := List.getElem?_eq_some_iff.1 ha'
  exact (List.forall₂_iff_get.1 h.moved).2 i h1 h2

theorem SmallMove.eps (h : SmallMove L L' atoms atoms' m rcut d ε) : 0 ≤ ε := by
  obtain ⟨a, ha⟩ := List.exists_mem_of_ne_nil _ h.ok.nonempty
  obtain ⟨i, hi, rfl⟩ := List.mem_iff_getElem.1 ha
  have := (h.atom (List.getElem?_eq_getElem hi)
    (List.getElem?_eq_getElem (by rw [← h.moved.length_eq]; exact hi))).2 0 (by simp) 0
  exact (abs_nonneg _).trans this

theorem SmallMove.dist (h : SmallMove L L' atoms atoms' m rcut d ε) {i j : ℕ} {a a' c c' : ℤ × Vec ℝ}
    (ha : atoms[j]? = some a) (ha' : atoms'[j]? = some a') (hc : atoms[i]? = some c) (hc' : atoms'[i]? = some c')
    {n : Fin 3 → ℤ} (hn : ∀ i, |n i| ≤ (m i : ℤ)) :
    |dist3 (imagePos L' a'.2 n) c'.2 - dist3 (imagePos L a.2 n) c.2| ≤ 6 * ε := by
  refine dist3_move ((h.atom ha ha').2 n hn) ?_
  have := (h.atom hc hc').2 0 (by simp)
  intro p
  have hp := this p
  rwa [imagePos_zero, imagePos_zero] at hp

theorem SmallMove.small (h : SmallMove L L' atoms atoms' m rcut d ε) {a c : ℤ × Vec ℝ} (ha : a ∈ atoms)
    (hc : c ∈ atoms) {n : Fin 3 → ℤ} (hd : dist3 (imagePos L a.2 n) c.2 ≤ rcut) (i : Fin 3) : |n i| ≤ (m i : ℤ) :=
  near_small h.ok.nonsing (h.ok.inCell a ha) (h.ok.inCell c hc) h.big hd i

theorem SmallMove.small' (h : SmallMove L L' atoms atoms' m rcut d ε) {a c : ℤ × Vec ℝ} (ha : a ∈ atoms')
    (hc : c ∈ atoms') {n : Fin 3 → ℤ} (hd : dist3 (imagePos L' a.2 n) c.2 ≤ rcut) (i : Fin 3) : |n i| ≤ (m i : ℤ) :=
  near_small h.ok'.nonsing (h.ok'.inCell a ha) (h.ok'.inCell c hc) h.big' hd i

/-- The same images are within the cutoff. -/
theorem SmallMove.near (h : SmallMove L L' atoms atoms' m rcut d ε) {i j : ℕ} {a a' c c' : ℤ × Vec ℝ}
    (ha : atoms[j]? = some a) (ha' : atoms'[j]? = some a') (hc : atoms[i]? = some c) (hc' : atoms'[i]? = some c')
    (n : Fin 3 → ℤ) : dist3 (imagePos L' a'.2 n) c'.2 < rcut ↔ dist3 (imagePos L a.2 n) c.2 < rcut := by
  have hg := h.gap c (List.mem_of_getElem? hc) a (List.mem_of_getElem? ha) n
  have hε := h.eps
  constructor
  · intro hd
    have := h.dist ha ha' hc hc' (h.small' (List.mem_of_getElem? ha') (List.mem_of_getElem? hc') hd.le)
    rw [abs_le] at this
    by_contra hcon
    rw [not_lt] at hcon
    rw [abs_of_nonneg (by linarith)] at hg
    linarith [this.1]
  · intro hd
    have := h.dist ha ha' hc hc' (h.small (List.mem_of_getElem? ha) (List.mem_of_getElem? hc) hd.le)
    rw [abs_le] at this
    rw [abs_of_neg (by linarith)] at hg
    linarith [this.2]

theorem SmallMove.get' (h : SmallMove L L' atoms atoms' m rcut d ε) {i : ℕ} {a : ℤ × Vec ℝ}
    (ha : atoms[i]? = some a) : ∃ a', atoms'[i]? = some a' := by
  have := (List.getElem?_eq_some_iff.1 ha).1
  rw [h.moved.length_eq] at this
  exact ⟨_, List.getElem?_eq_getElem this⟩

theorem SmallMove.get (h : SmallMove L L' atoms atoms' m rcut d ε) {i : ℕ} {a : ℤ × Vec ℝ}
    (ha : atoms'[i]? = some a) : ∃ a', atoms[i]? = some a' := by
  have := (List.getElem?_eq_some_iff.1 ha).1
  rw [← h.moved.length_eq] at this
  exact ⟨_, List.getElem?_eq_getElem this⟩

theorem SmallMove.nearBy (h : SmallMove L L' atoms atoms' m rcut d ε) {i : ℕ} {c c' : ℤ × Vec ℝ}
    (hc : atoms[i]? = some c) (hc' : atoms'[i]? = some c') (e : ℕ × (Fin 3 → ℤ)) :
    NearBy L' (fun _ => true) (atoms'.map Prod.snd) rcut c'.2 e ↔
      NearBy L (fun _ => true) (atoms.map Prod.snd) rcut c.2 e := by
  constructor
  · rintro ⟨_, p, hp, hd⟩
    rw [List.getElem?_map] at hp
    obtain ⟨a', ha', rfl⟩ := Option.map_eq_some_iff.1 hp
    obtain ⟨a, ha⟩ := h.get ha'
    exact ⟨by simp, a.2, by rw [List.getElem?_map, ha]; rfl, (h.near ha ha' hc hc' e.2).1 hd⟩
  · rintro ⟨_, p, hp, hd⟩
    rw [List.getElem?_map] at hp
    obtain ⟨a, ha, rfl⟩ := Option.map_eq_some_iff.1 hp
    obtain ⟨a', ha'⟩ := h.get' ha
    exact ⟨by simp, a'.2, by rw [List.getElem?_map, ha']; rfl, (h.near ha ha' hc hc' e.2).2 hd⟩

theorem SmallMove.apart (h : SmallMove L L' atoms atoms' m rcut d ε) : ApartImages L (atoms.map Prod.snd) := by
  intro i j p q t hi hj hne
  have h1 := h.far i j p q t hi hj hne
  have h2 := h.d_ge
  nlinarith

theorem SmallMove.far' (h : SmallMove L L' atoms atoms' m rcut d ε) {i j : ℕ} {a c : ℤ × Vec ℝ}
    (hc : atoms'[i]? = some c) (ha : atoms'[j]? = some a) (n : Fin 3 → ℤ) (hne : (j, n) ≠ (i, 0)) :
    min (d - 6 * ε) rcut ≤ dist3 (imagePos L' a.2 n) c.2 := by
  by_contra hcon
  rw [not_le] at hcon
  have h1 := hcon.trans_le (min_le_left _ _)
  have h2 := hcon.trans_le (min_le_right _ _)
  obtain ⟨a0, ha0⟩ := h.get ha
  obtain ⟨c0, hc0⟩ := h.get hc
  have h3 := h.dist ha0 ha hc0 hc (h.small' (List.mem_of_getElem? ha) (List.mem_of_getElem? hc) h2.le)
  have h4 := h.far i j c0.2 a0.2 n (by rw [List.getElem?_map, hc0]; rfl) (by rw [List.getElem?_map, ha0]; rfl) hne
  rw [abs_le] at h3
  linarith [h3.1]

theorem SmallMove.apart' (h : SmallMove L L' atoms atoms' m rcut d ε) : ApartImages L' (atoms'.map Prod.snd) := by
  intro i j p q t hi hj hne
  rw [List.getElem?_map] at hi hj
  obtain ⟨c, hc, rfl⟩ := Option.map_eq_some_iff.1 hi
  obtain ⟨a, ha, rfl⟩ := Option.map_eq_some_iff.1 hj
  have h1 := h.far' hc ha t hne
  have h2 : 250 / 256 * (1 / 30) ≤ min (d - 6 * ε) rcut :=
    le_min (by linarith [h.d_ge, h.eps_le]) (by linarith [h.d_ge, h.d_le])
  nlinarith

/-- One slot before and after. -/
theorem SmallMove.slot (h : SmallMove L L' atoms atoms' m rcut d ε) {rs : ℝ} (hrs : rs < rcut)
    (h2 : 128 * ε ≤ rcut - rs) (h3 : rcut * 2 ^ (-48 : ℤ) ≤ ε) {i : ℕ} {c c' : ℤ × Vec ℝ}
    (hc : atoms[i]? = some c) (hc' : atoms'[i]? = some c') {e : ℕ × (Fin 3 → ℤ)} (hne : e ≠ (i, 0))
    (he : NearBy L (fun _ => true) (atoms.map Prod.snd) rcut c.2 e) :
    (imageRel L' atoms' c'.2 e).1 = (imageRel L atoms c.2 e).1 ∧
    (∀ a, |(relBoth rcut rs (imageRel L atoms c.2 e).2).1 a - (relBoth rcut rs (imageRel L' atoms' c'.2 e).2).1 a|
      ≤ envMoveTol ε rcut rs d) ∧
    ∀ a b, |(relBoth rcut rs (imageRel L atoms c.2 e).2).2 a b - (relBoth rcut rs (imageRel L' atoms' c'.2 e).2).2 a b|
      ≤ derivMoveTol ε rcut rs d := by
  obtain ⟨_, p, hp, hd⟩ := id he
  rw [List.getElem?_map] at hp
  obtain ⟨a, ha, rfl⟩ := Option.map_eq_some_iff.1 hp
  obtain ⟨a', ha'⟩ := h.get' ha
  have hd' := (h.near ha ha' hc hc' e.2).2 hd
  have hsm := h.small (List.mem_of_getElem? ha) (List.mem_of_getElem? hc) hd.le
  have hdpos : 0 < d := by linarith [h.d_ge]
  have f1 := h.far i e.1 c.2 a.2 e.2 (by rw [List.getElem?_map, hc]; rfl) (by rw [List.getElem?_map, ha]; rfl) hne
  have f2 := h.far' hc' ha' e.2 hne
  have f3 : d / 2 ≤ min (d - 6 * ε) rcut := le_min (by linarith [h.eps_le]) (by linarith [h.d_le])
  have hcc : ∀ p, |c'.2 p - c.2 p| ≤ ε := by
    intro p
    have := (h.atom hc hc').2 0 (by simp) p
    rwa [imagePos_zero, imagePos_zero] at this
  simp only [imageRel, ha, ha']
  refine ⟨(h.atom ha ha').1, ?_⟩
  exact env_move (v := imagePos L a.2 e.2 - c.2) (w := imagePos L' a'.2 e.2 - c'.2) (ε := ε) (d := d) hrs hdpos
    (by rw [norm3_eq_dist3]; linarith) (by rw [norm3_eq_dist3]; linarith) (by rw [norm3_eq_dist3]; exact hd.le)
    (by rw [norm3_eq_dist3]; exact hd'.le)
    (by
      intro p
      have a1 := (h.atom ha ha').2 e.2 hsm p
      have a2 := hcc p
      simp only [Pi.sub_apply]
      rw [abs_le] at a1 a2 ⊢
      constructor <;> linarith [a1.1, a1.2, a2.1, a2.2]) h.eps_le h2 h3

end

theorem both_rel (L : Fin 3 → Vec ℝ) (atoms : List (ℤ × Vec ℝ)) (rcut rs : ℝ) (imgs : List (ℕ × (Fin 3 → ℤ))) (i : ℕ)
    (c : ℤ × Vec ℝ)
    (g2 : ∀ e, e ∈ imgs ↔ NearBy L (fun _ => true) (atoms.map Prod.snd) rcut c.2 e ∧ e ≠ (i, 0)) :
    imgs.map (imageBoth L atoms rcut rs c.2)
      = (imgs.map (imageRel L atoms c.2)).map (fun x => (x.1, relBoth rcut rs x.2)) := by
  rw [List.map_map]
  refine List.map_congr_left ?_
  intro e he
  obtain ⟨⟨_, p, hp, _⟩, _⟩ := (g2 e).1 he
  rw [List.getElem?_map] at hp
  obtain ⟨a, ha, _⟩ := Option.map_eq_some_iff.1 hp
  simp only [Function.comp, imageBoth, imageRel, ha, relBoth]

theorem rel_sorted (L : Fin 3 → Vec ℝ) (atoms : List (ℤ × Vec ℝ)) (rcut : ℝ) (imgs : List (ℕ × (Fin 3 → ℤ))) (i : ℕ)
    (c : ℤ × Vec ℝ)
    (g2 : ∀ e, e ∈ imgs ↔ NearBy L (fun _ => true) (atoms.map Prod.snd) rcut c.2 e ∧ e ≠ (i, 0))
    (hs : imgs.Pairwise (fun e e' => ∀ p p', (atoms.map Prod.snd)[e.1]? = some p →
          (atoms.map Prod.snd)[e'.1]? = some p' →
          dist3 (imagePos L p e.2) c.2 ≤ dist3 (imagePos L p' e'.2) c.2)) :
    (imgs.map (imageRel L atoms c.2)).Pairwise (fun a b => dist3 a.2 0 ≤ dist3 b.2 0) := by
  rw [List.pairwise_map]
  refine hs.imp_of_mem ?_
  intro e e' he he' h
  obtain ⟨⟨_, p, hp, _⟩, _⟩ := (g2 e).1 he
  obtain ⟨⟨_, p', hp', _⟩, _⟩ := (g2 e').1 he'
  have hh := h p p' hp hp'
  rw [List.getElem?_map] at hp hp'
  obtain ⟨a, ha, rfl⟩ := Option.map_eq_some_iff.1 hp
  obtain ⟨a', ha', rfl⟩ := Option.map_eq_some_iff.1 hp'
  simp only [imageRel, ha, ha']
  rw [← dist3_rel, ← dist3_rel]
  exact hh

/-- The weights of the slots of one type of a list of neighbours sorted by distance decrease. -/
theorem weights_decrease {rcut rs : ℝ} (hrs : rs < rcut) (rels : List (ℤ × Vec ℝ)) (w k : ℕ)
    (hpos : ∀ x ∈ rels, 0 < dist3 x.2 0) (hs : rels.Pairwise (fun a b => dist3 a.2 0 ≤ dist3 b.2 0)) :
    ((typeBlock (0 : (Fin 4 → ℝ) × Matrix (Fin 4) (Fin 3) ℝ) (rels.map (fun x => (x.1, relBoth rcut rs x.2)))
      (w, k)).map (fun x => x.1 0)).Pairwise (fun a b => b ≤ a) := by
  have hw : ∀ v : Vec ℝ, (relBoth rcut rs v).1 0 = smoothWeight rcut rs (dist3 v 0) := by
    intro v
    rw [← cSmooth_weight]
    have : dist3 v 0 = Real.sqrt (v 0 ^ 2 + v 1 ^ 2 + v 2 ^ 2) := by simp [dist3, Fin.sum_univ_three]
    rw [this]
    rfl
  rw [typeBlock_rel, List.map_append, List.map_replicate, List.map_map, List.map_map, List.pairwise_append]
  refine ⟨?_, List.pairwise_replicate.2 (Or.inr (le_refl _)), ?_⟩
  · rw [List.pairwise_map]
    refine (hs.filter _).imp_of_mem ?_
    intro a b ha hb hab
    simp only [Function.comp, hw]
    exact (smoothWeight_anti hrs (hpos a (List.mem_filter.1 ha).1) hab).2
  · intro a ha b hb
    obtain ⟨x, hx, rfl⟩ := List.mem_map.1 ha
    obtain ⟨_, rfl⟩ := List.mem_replicate.1 hb
    simp only [Function.comp, hw]
    exact (smoothWeight_anti hrs (hpos x (List.mem_filter.1 hx).1) (le_refl _)).1

end MaterSDK
