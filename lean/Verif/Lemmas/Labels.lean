import Verif.Spec.Labels
import Verif.Lemmas.CellListD
import Verif.Lemmas.TildeRStruct
import Verif.Lemmas.MtpMomentAux

/-! # Helper lemmas for `Props/Labels.lean` -/

namespace MaterSDK

open Classical

variable (R : ℝ → ℝ)

/-- A structure under other element numbers. -/
def CStruct.relabel (f : ℤ → ℤ) (s : CStruct) : CStruct := { s with atoms := MaterSDK.relabel f s.atoms }

/-- A bin list under other element numbers. -/
def BinList.relabel (f : ℤ → ℤ) (B : BinList) : BinList :=
  { B with supercell := { B.supercell with struct := B.supercell.struct.relabel f } }

/-- A neighbour list under other element numbers. -/
def NbrLists.relabel (f : ℤ → ℤ) (N : NbrLists) : NbrLists := ⟨N.bins.relabel f, N.lists⟩

theorem makeD_relabel (f : ℤ → ℤ) (L : Fin 3 → Vec ℝ) (atoms : List (ℤ × Vec ℝ)) (c : Bool) :
    CStruct.makeD R L (relabel f atoms) c = (CStruct.makeD R L atoms c).relabel f := by
  unfold CStruct.makeD CStruct.relabel relabel
  cases c <;> simp [Function.comp_def]

theorem makeSupercellD_relabel (f : ℤ → ℤ) (s : CStruct) (sc : Fin 3 → ℤ) :
    (s.relabel f).makeSupercellD R sc = (s.makeSupercellD R sc).relabel f := by
  unfold CStruct.makeSupercellD CStruct.relabel relabel
  simp [List.map_flatMap, Function.comp_def]

theorem cGet_relabel (f : ℤ → ℤ) (l : List (ℤ × Vec ℝ)) (i : ℤ) :
    cGet (relabel f l) i = (cGet l i >>= fun a => .ok (f a.1, a.2)) := cGet_map _ _ _

theorem binsD_relabel (f : ℤ → ℤ) (s : CStruct) (rcut : ℝ) (size : Vec ℝ) (pbc : Fin 3 → Bool) :
    BinList.makeD R (s.relabel f) rcut size pbc
      = (BinList.makeD R s rcut size pbc >>= fun B => .ok (B.relabel f)) := by
  unfold BinList.makeD
  have e1 : (s.relabel f).atoms = [] ↔ s.atoms = [] := by simp [CStruct.relabel, relabel]
  have e2 : (s.relabel f).interplanarD R = s.interplanarD R := rfl
  have e3 : CSupercell.makeD R (s.relabel f) (binScalingD R (s.relabel f) rcut pbc)
      = { CSupercell.makeD R s (binScalingD R s rcut pbc) with
          struct := (CSupercell.makeD R s (binScalingD R s rcut pbc)).struct.relabel f } := by
    have es : binScalingD R (s.relabel f) rcut pbc = binScalingD R s rcut pbc := rfl
    have el : (s.relabel f).atoms.length = s.atoms.length := by simp [CStruct.relabel, relabel]
    rw [es]
    unfold CSupercell.makeD
    rw [makeSupercellD_relabel, el]
  simp only [e1, e2, e3]
  split_ifs
  · rfl
  · generalize CSupercell.makeD R s (binScalingD R s rcut pbc) = S
    have e4 : (S.struct.relabel f).atoms.length = S.struct.atoms.length := by simp [CStruct.relabel, relabel]
    have e5 : ∀ g : Vec ℝ → ℤ, (S.struct.relabel f).atoms.map (fun a => g a.2)
        = S.struct.atoms.map (fun a => g a.2) := by
      intro g; simp [CStruct.relabel, relabel, Function.comp_def]
    have e6 : (S.struct.relabel f).projectedD R = S.struct.projectedD R := rfl
    have e7 : (S.struct.relabel f).minLimitD R = S.struct.minLimitD R := rfl
    simp only [e4, e6, e7]
    rw [e5 (fun x => linIdx _ (binIdxD R _ size x))]
    rw [bind_assoc]
    rfl
  · rfl

theorem centre_relabel (f : ℤ → ℤ) (B : BinList) (i : ℕ) : (B.relabel f).centre i = B.centre i := by
  unfold BinList.centre BinList.relabel CStruct.relabel
  simp only
  rw [cGet_relabel, bind_assoc]
  rfl

theorem neighBinsD_relabel (f : ℤ → ℤ) (B : BinList) (i : ℕ) :
    (B.relabel f).neighBinsD R i = B.neighBinsD R i := by
  unfold BinList.neighBinsD
  rw [centre_relabel]
  rfl

theorem fromBinD_relabel (f : ℤ → ℤ) (B : BinList) (c : Vec ℝ) (b : ℤ) :
    (B.relabel f).fromBinD R c b = B.fromBinD R c b := by
  unfold BinList.fromBinD
  have e : ∀ idxs : List ℤ, (idxs.mapM fun k => do
        let a ← cGet (B.relabel f).supercell.struct.atoms k
        return (k, (B.relabel f).closeD R c a.2))
      = (idxs.mapM fun k => do
        let a ← cGet B.supercell.struct.atoms k
        return (k, B.closeD R c a.2) : Except CErr (List (ℤ × Bool))) := by
    intro idxs
    refine mapM_congr_mem (fun k _ => ?_)
    show (cGet (relabel f _) k >>= _) = _
    rw [cGet_relabel, bind_assoc]
    rfl
  simp only [e]
  rfl

theorem neighAtomsD_relabel (f : ℤ → ℤ) (B : BinList) (i : ℕ) :
    (B.relabel f).neighAtomsD R i = B.neighAtomsD R i := by
  unfold BinList.neighAtomsD
  rw [centre_relabel, neighBinsD_relabel]
  simp only [show (B.relabel f).fromBinD R = B.fromBinD R from funext fun c => funext fun b =>
    fromBinD_relabel R f B c b]

theorem sortByDistanceD_relabel (A : ArgSort) (f : ℤ → ℤ) (atoms : List (ℤ × Vec ℝ)) (c : Vec ℝ) (l : List ℤ) :
    sortByDistanceD R A (relabel f atoms) c l = sortByDistanceD R A atoms c l := by
  unfold sortByDistanceD
  have e : (l.mapM fun k => do
        let a ← cGet (relabel f atoms) k
        return R (Real.sqrt (dDist2 R a.2 c)))
      = (l.mapM fun k => do
        let a ← cGet atoms k
        return R (Real.sqrt (dDist2 R a.2 c)) : Except CErr (List ℝ)) := by
    refine mapM_congr_mem (fun k _ => ?_)
    rw [cGet_relabel, bind_assoc]
    rfl
  rw [e]

theorem buildD_relabel (A : ArgSort) (f : ℤ → ℤ) (B : BinList) (sort : Bool) :
    NbrLists.buildD R A (B.relabel f) sort = (NbrLists.buildD R A B sort >>= fun N => .ok (N.relabel f)) := by
  unfold NbrLists.buildD
  have e1 : (B.relabel f).supercell.primNum = B.supercell.primNum := rfl
  rw [e1, show (B.relabel f).neighAtomsD R = B.neighAtomsD R from funext (neighAtomsD_relabel R f B), bind_assoc]
  congr 1
  funext lists
  have e2 : (lists.zipIdx.mapM fun e => do
        let c ← (B.relabel f).centre e.2
        sortByDistanceD R A (B.relabel f).supercell.struct.atoms c e.1)
      = (lists.zipIdx.mapM fun e => do
        let c ← B.centre e.2
        sortByDistanceD R A B.supercell.struct.atoms c e.1) := by
    refine mapM_congr_mem (fun e _ => ?_)
    rw [centre_relabel]
    congr 1
    funext c
    exact sortByDistanceD_relabel R A f _ c e.1
  rw [e2]
  cases sort
  · rfl
  · simp only [if_true, bind_assoc]
    rfl

/-- The neighbour lists do not depend on the element numbers. -/
theorem nbrD_relabel (A : ArgSort) (f : ℤ → ℤ) (L : Fin 3 → Vec ℝ) (atoms : List (ℤ × Vec ℝ)) (cart : Bool)
    (rcut : ℝ) (pbc : Fin 3 → Bool) (sort : Bool) :
    NbrLists.makeD R A (CStruct.makeD R L (relabel f atoms) cart) rcut pbc sort
      = (NbrLists.makeD R A (CStruct.makeD R L atoms cart) rcut pbc sort >>= fun N => .ok (N.relabel f)) := by
  unfold NbrLists.makeD
  rw [makeD_relabel, binsD_relabel, bind_assoc, bind_assoc]
  congr 1
  funext B
  exact buildD_relabel R A f B sort

theorem findInfoD_relabel (f : ℤ → ℤ) (N : NbrLists) (umax : ℕ) :
    (N.relabel f).findInfoD R umax
      = (N.findInfoD R umax >>= fun i => .ok { i with types := i.types.map f }) := by
  unfold NbrLists.findInfoD
  have e0 : (N.relabel f).lists = N.lists := rfl
  have e1 : (N.relabel f).bins.supercell.primNum = N.bins.supercell.primNum := rfl
  have e2 : (N.relabel f).bins.supercell.struct.atoms = relabel f N.bins.supercell.struct.atoms := rfl
  simp only [e0, e1, e2]
  have e3 : ∀ l : List ℕ, (l.mapM fun ii : ℕ => do
        let a ← cGet (relabel f N.bins.supercell.struct.atoms) (ii : ℤ)
        return a.1)
      = ((l.mapM fun ii : ℕ => do
        let a ← cGet N.bins.supercell.struct.atoms (ii : ℤ)
        return a.1) >>= fun t => .ok (t.map f) : Except CErr (List ℤ)) := by
    intro l
    induction l with
    | nil => rfl
    | cons k l ih =>
      rw [List.mapM_cons, List.mapM_cons, ih, cGet_relabel]
      cases cGet N.bins.supercell.struct.atoms (k : ℤ) with
      | error e => rfl
      | ok a =>
        simp only [ok_bind, bind_assoc, pure_bind]
        rfl
  have e4 : (N.lists.zipIdx.mapM fun e => do
        let c ← (N.relabel f).bins.centre e.2
        let xs ← e.1.mapM (fun k => do
          let a ← cGet (relabel f N.bins.supercell.struct.atoms) k
          return [R (a.2 0 - c 0), R (a.2 1 - c 1), R (a.2 2 - c 2)])
        return xs.flatten)
      = (N.lists.zipIdx.mapM fun e => do
        let c ← N.bins.centre e.2
        let xs ← e.1.mapM (fun k => do
          let a ← cGet N.bins.supercell.struct.atoms k
          return [R (a.2 0 - c 0), R (a.2 1 - c 1), R (a.2 2 - c 2)])
        return xs.flatten : Except CErr (List (List ℝ))) := by
    refine mapM_congr_mem (fun e _ => ?_)
    rw [show (N.relabel f).bins.centre = N.bins.centre from funext (centre_relabel f N.bins)]
    congr 1
    funext c
    congr 1
    refine mapM_congr_mem (fun k _ => ?_)
    rw [cGet_relabel, bind_assoc]
    rfl
  rw [e3, e4]
  simp only [bind_assoc]
  rfl

end MaterSDK
