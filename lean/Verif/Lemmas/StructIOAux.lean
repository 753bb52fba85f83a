import Verif.Lemmas.StructIO
import Verif.Lemmas.NumIdem

/-! # Helper lemmas for `Props/StructIO.lean` -/

namespace MaterSDK

/-- Every site carries the symbol of a real element (number 1..118). -/
def RealElements (s : QStruct) : Prop :=
  ∀ t ∈ s.sites, ∃ z, 1 ≤ z ∧ periodicTable[z]? = some t.specie

/-- The structure obtained by reading back a written structure. -/
def readBack (s : QStruct) : QStruct :=
  { a := ⟨sciValue 6 s.a.x, sciValue 6 s.a.y, sciValue 6 s.a.z⟩
    b := ⟨sciValue 6 s.b.x, sciValue 6 s.b.y, sciValue 6 s.b.z⟩
    c := ⟨sciValue 6 s.c.x, sciValue 6 s.c.y, sciValue 6 s.c.z⟩
    sites := s.sites.map (fun t => ⟨t.specie,
      ⟨fixedValue 6 t.frac.x, fixedValue 6 t.frac.y, fixedValue 6 t.frac.z⟩⟩)
    magmom := none }

theorem realElements_numbers {sites : List QSite}
    (h : ∀ t ∈ sites, ∃ z, 1 ≤ z ∧ periodicTable[z]? = some t.specie) :
    ∃ zs : List Nat, List.Forall₂ (fun s z => numberOf s.specie = .ok z) sites zs ∧
      (zs.map (fun (z : Nat) => (z : Int))).mapM elementOf = .ok (sites.map QSite.specie) := by
  induction sites with
  | nil => exact ⟨[], .nil, rfl⟩
  | cons t ts ih =>
    obtain ⟨zs, h1, h2⟩ := ih (fun x hx => h x (by simp [hx]))
    obtain ⟨z, hz1, hz2⟩ := h t (by simp)
    refine ⟨z :: zs, .cons ((C05_numberOf t.specie).1 z |>.2 hz2) h1, ?_⟩
    have hlt : z < 119 := by
      have := (List.getElem?_eq_some_iff.1 hz2).1
      have hl : periodicTable.length = 119 := by decide +kernel
      omega
    have he : elementOf (z : Int) = .ok t.specie := by
      unfold elementOf
      rw [if_pos (by omega)]
      exact ((C05_specieOf z).1 _).2 ⟨by omega, by simpa using hz2⟩
    simp only [List.map_cons, List.mapM_cons, he, h2, ok_bind]
    rfl

theorem buildStruct_written (s : QStruct) {zs : List Nat} (n : Int)
    (h : (zs.map (fun (z : Nat) => (z : Int))).mapM elementOf = .ok (s.sites.map QSite.specie)) :
    buildStruct ⟨n, sci3 s.a ++ sci3 s.b ++ sci3 s.c, zs.map (fun (z : Nat) => (z : Int)),
      (s.sites.map (fun t => fixed3 t.frac)).flatten⟩ = .ok (readBack s) := by
  unfold buildStruct
  simp only [sci3, List.cons_append, List.nil_append]
  rw [reshape3_flatten, h]
  simp only [ok_bind, List.length_map, if_true]
  show Except.ok _ = _
  congr 1
  unfold readBack
  congr 1
  rw [List.zipWith_map, List.zipWith_self]

theorem write_read (s : QStruct) (h : RealElements s) :
    ∃ text, toPwmat s false = (text, none) ∧
      fromFile (fileLines text) (fileLines text) = .ok (readBack s) := by
  obtain ⟨zs, h1, h2⟩ := realElements_numbers h
  refine ⟨_, toPwmat_ok h1, ?_⟩
  have hx := acExtractor_written s zs [] h1.length_eq.symm
  simp only [List.append_nil] at hx
  rw [fileLines_fileRows]
  unfold fromFile
  rw [hx, ok_bind, buildStruct_written s _ h2]

theorem magRows_ok {sites : List QSite} {zs : List Nat} (ms : List ℚ)
    (h : List.Forall₂ (fun s z => numberOf s.specie = .ok z) sites zs) (i : Nat)
    (hl : i + sites.length = ms.length) :
    (sites.zipIdx i).map (fun p => magRow (some ms) p.2 p.1)
      = ((zs.zip (ms.drop i)).map (fun p => magText p.1 p.2)).map .ok := by
  induction h generalizing i with
  | nil => simp
  | @cons s z ss zs h1 _ ih =>
    simp only [List.length_cons] at hl
    have hi : i < ms.length := by omega
    rw [List.drop_eq_getElem_cons hi]
    simp only [List.zipIdx_cons, List.map_cons, List.zip_cons_cons]
    rw [ih (i + 1) (by omega)]
    congr 1
    simp only [magRow, h1, ok_bind, pyGet, List.getElem?_eq_getElem hi]
    rfl

end MaterSDK
