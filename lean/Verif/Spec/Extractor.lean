import Verif.Model.Extractor

/-! # Words of the specification: force field files -/

namespace MaterSDK

/-- The name of a parameter: net, number of the net, group, item and number of the layer. -/
def paramName (net : Str) (i : ℕ) (group item : Str) (j : ℕ) : Str :=
  net ++ (chars% ".") ++ showNat i ++ (chars% ".") ++ group ++ (chars% ".") ++ item ++ showNat j

/-- The three groups of parameters of a layer and their items. -/
def paramGroups : List (Str × Str) :=
  [(chars% "weights", chars% "weight"), (chars% "bias", chars% "bias"), (chars% "resnet_dt", chars% "resnet_dt")]

/-- A checkpoint holds the weights and biases of all layers of all nets of one kind, none of them
without axes. -/
def NetsComplete (sd : List (Str × Tensor)) (net : Str) (nets layers : ℕ) : Prop :=
  ∀ i < nets, ∀ j < layers, ∀ g ∈ paramGroups.take 2,
    ∃ t, pyDictGet sd (paramName net i g.1 g.2 j) = .ok t ∧ t.shape ≠ []

/-- The data sets a file should hold for the nets of one kind: every parameter of the checkpoint with
the number of a net and of a layer. -/
def IsParam (sd : List (Str × Tensor)) (net : Str) (nets layers : ℕ) (name : Str) (v : H5Val) : Prop :=
  ∃ (i j : ℕ) (g : Str × Str) (t : Tensor), i < nets ∧ j < layers ∧ g ∈ paramGroups ∧
    name = paramName net i g.1 g.2 j ∧ pyDictGet sd name = .ok t ∧ v = .tensor t

/-- `sizes` lists the last extents of the weights of the layers of net 0. -/
def SizesOf (sd : List (Str × Tensor)) (net : Str) (layers : ℕ) (sizes : List ℕ) : Prop :=
  sizes.length = layers ∧ ∀ j < layers, ∃ t,
    pyDictGet sd (paramName net 0 (chars% "weights") (chars% "weight") j) = .ok t ∧ t.shape.getLast? = sizes[j]?

/-- What the file of a checkpoint should hold: all parameters of all nets, each once and under its own
name, the two extents of the descriptor and the sizes of the layers, and nothing else. -/
def FFFile (sd : List (Str × Tensor)) (e le f lf : ℕ) (file : H5File) : Prop :=
  (file.map Prod.fst).Nodup ∧ ∃ (m1 m2 d : ℕ) (es fs : List ℕ) (b w : Tensor),
    pyDictGet sd (paramName (chars% "embedding_net") (e - 1) (chars% "bias") (chars% "bias") (le - 1)) = .ok b ∧
    b.shape.getLast? = some m1 ∧
    pyDictGet sd (paramName (chars% "fitting_net") 0 (chars% "weights") (chars% "weight") 0) = .ok w ∧
    w.shape.head? = some d ∧ m2 * m1 ≤ d ∧ d < (m2 + 1) * m1 ∧
    SizesOf sd (chars% "embedding_net") le es ∧ SizesOf sd (chars% "fitting_net") lf fs ∧
    ∀ name v, (name, v) ∈ file ↔ IsParam sd (chars% "embedding_net") e le name v ∨
      IsParam sd (chars% "fitting_net") f lf name v ∨
      (name = (chars% "M1") ∧ v = .int m1) ∨ (name = (chars% "M2") ∧ v = .int m2) ∨
      (name = (chars% "embedding_sizes") ∧ v = .ints es) ∨ (name = (chars% "fitting_sizes") ∧ v = .ints fs)

end MaterSDK
