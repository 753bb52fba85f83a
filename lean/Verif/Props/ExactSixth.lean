import Verif.Props.StructObj
import Verif.Props.TildeRHeap

/-! # C128, C130, C138: what every program shows, `x = x` included -/

namespace MaterSDK

variable {α β : Type}

/-- C128, every program: structures behave like values with one exception, which is always the same. A
structure assigned to itself becomes the empty structure. -/
theorem C128_exact (ops : List (ObjOp Unit CStruct)) :
    (objRun structureClass ops).map ObjState.view = valRun structureClass (wrecked () false) ops :=
  objRun_view structureClass ops

example (v : Unit × Option (Block CStruct)) : wrecked () false [v] = [((), none)] := rfl

/-- A program with `x = x`: the copy made before keeps its data, the copy made afterwards is empty. -/
example : (objRun structureClass [.make [((), oneAtom)], .copy 0, .assign 0 0, .copy 0]).map ObjState.view
    = .ok [some [((), none)], some [((), some (.val oneAtom))], some [((), none)]] := by
  rw [C128_exact]
  rfl

/-- C130, every program: objects of `Supercell`, `BinLinkedList` and `NeighborList` behave like values with one
exception, which is always the same: what `x = x` leaves is `wrecked`. -/
theorem C130_exact (d : α) (ops : List (ObjOp α β)) :
    ((objRun (supercellClass d) ops).map ObjState.view = valRun (supercellClass d) (wrecked d false) ops) ∧
    ((objRun (binListClass d) ops).map ObjState.view = valRun (binListClass d) (wrecked d false) ops) ∧
    ((objRun (neighborListClass d) ops).map ObjState.view = valRun (neighborListClass d) (wrecked d true) ops) :=
  ⟨objRun_view _ ops, objRun_view _ ops, objRun_view _ ops⟩

example (d a b : α) (p q : Block β) :
    wrecked d true [(a, some p), (b, some q)] = [(a, some .emptied), (d, none)] := rfl

/-- C138, every program on objects with types of both kinds or none: objects behave like values with two
exceptions, which are always the same: `x = x` leaves an object without types, and a copy of an object with two
or more types of one kind writes behind its block. -/
theorem C138_exact (d : α) (wreck : α → α) (ops : List (TildeOp α)) (hb : ∀ op ∈ ops, op.balanced) :
    (tildeRun d wreck ops).map TildeState.view =
      (tildeValRun d (tildeWrecked wreck) oneType ops).map (fun pool => pool.map (Option.map some)) :=
  tildeRun_view d wreck ops hb

example (wreck : α → α) (a : α) :
    tildeWrecked wreck (⟨a, [29], [0], [8, 29], [0, 0]⟩ : TildeVal α) = ⟨wreck a, [], [], [], []⟩ := rfl
example (a : α) : oneType (⟨a, [29], [0], [8, 29], [0, 0]⟩ : TildeVal α) = false := rfl

end MaterSDK
