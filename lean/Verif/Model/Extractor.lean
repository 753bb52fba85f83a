import Verif.Model.Dataset
import Verif.Model.Dos

/-!
# Extraction of force field parameters

Model of `FFExtractor`, `/repo/matersdk/infer/pwmatmlff/deepmd/extractor.py` 44-170.

Simplifications.
* The checkpoint is a dictionary from names to tensors; a tensor is a shape and a list of numbers.
* An hdf5 file is the list of its data sets in the order of creation. `create_dataset` refuses a name
  that exists (`ValueError`). What remains on disk after an exception is not modelled.
* `int(dim / M1)` is the quotient rounded down (exact for dimensions below 2^53).
-/

namespace MaterSDK

/-- A tensor. -/
structure Tensor where
  shape : List ℕ
  data : List ℚ
  deriving DecidableEq

/-- What a data set of the file holds. -/
inductive H5Val where
  | tensor (t : Tensor)
  | int (n : ℕ)
  | ints (l : List ℕ)
  deriving DecidableEq

/-- An hdf5 file without groups. -/
abbrev H5File := List (Str × H5Val)

/-- `hdf5_file.create_dataset(name, data=v)`. -/
def H5File.create (f : H5File) (name : Str) (v : H5Val) : Except PyErr H5File :=
  if name ∈ f.map Prod.fst then .error .valueError else .ok (f ++ [(name, v)])

/-- `"<net>.{0}.weights.weight{1}".format(i, j)` and the like. -/
def weightName (net : Str) (i j : ℤ) : Str :=
  net ++ (chars% ".") ++ showInt i ++ (chars% ".weights.weight") ++ showInt j

def biasName (net : Str) (i j : ℤ) : Str :=
  net ++ (chars% ".") ++ showInt i ++ (chars% ".bias.bias") ++ showInt j

def resnetName (net : Str) (i j : ℤ) : Str :=
  net ++ (chars% ".") ++ showInt i ++ (chars% ".resnet_dt.resnet_dt") ++ showInt j

/-- One pass of the inner loops, extractor.py 65-81 and 86-102. -/
def saveLayer (sd : List (Str × Tensor)) (net : Str) (f : H5File) (i j : ℕ) : Except PyErr H5File := do
  let w ← pyDictGet sd (weightName net i j)
  let f ← f.create (weightName net i j) (.tensor w)
  let b ← pyDictGet sd (biasName net i j)
  let f ← f.create (biasName net i j) (.tensor b)
  match pyDictGet sd (resnetName net i j) with
  | .ok r => f.create (resnetName net i j) (.tensor r)
  | .error _ => .ok f

/-- The double loops. -/
def saveNets (sd : List (Str × Tensor)) (net : Str) (nets layers : ℤ) (f : H5File) : Except PyErr H5File :=
  (List.range nets.toNat).foldlM (fun f i =>
    (List.range layers.toNat).foldlM (fun f j => saveLayer sd net f i j) f) f

/-- `t.size()[-1]`. -/
def lastDim (t : Tensor) : Except PyErr ℕ :=
  match t.shape.getLast? with
  | some n => .ok n
  | none => .error .indexError

/-- `t.size()[0]`. -/
def firstDim (t : Tensor) : Except PyErr ℕ :=
  match t.shape.head? with
  | some n => .ok n
  | none => .error .indexError

/-- `int(a / b)`. -/
def intDiv (a b : ℕ) : Except PyErr ℕ := if b = 0 then .error .zeroDivision else .ok (a / b)

/-- The loops over `..._net.0.weights.weight{j}`, extractor.py 130-142. -/
def layerSizes (sd : List (Str × Tensor)) (net : Str) (layers : ℤ) : Except PyErr (List ℕ) :=
  (List.range layers.toNat).mapM (fun (j : ℕ) => do
    let t ← pyDictGet sd (weightName net 0 j)
    lastDim t)

/-- `save_hdf5_file`, extractor.py 44-147. Note that the embedding nets are walked with the number of
fitting layers (line 64). -/
def saveHdf5 (sd : List (Str × Tensor)) (numEmb embLayers numFit fitLayers : ℤ) : Except PyErr H5File := do
  let f ← saveNets sd (chars% "embedding_net") numEmb fitLayers []
  let f ← saveNets sd (chars% "fitting_net") numFit fitLayers f
  let b ← pyDictGet sd (biasName (chars% "embedding_net") (numEmb - 1) (embLayers - 1))
  let m1 ← lastDim b
  let w ← pyDictGet sd (weightName (chars% "fitting_net") 0 0)
  let dim ← firstDim w
  let m2 ← intDiv dim m1
  let f ← f.create (chars% "M1") (.int m1)
  let f ← f.create (chars% "M2") (.int m2)
  let es ← layerSizes sd (chars% "embedding_net") embLayers
  let f ← f.create (chars% "embedding_sizes") (.ints es)
  let fs ← layerSizes sd (chars% "fitting_net") fitLayers
  f.create (chars% "fitting_sizes") (.ints fs)

/-- `get_hdf5_dict`, extractor.py 150-170: the file lists its data sets by name. -/
def hdf5Dict (f : H5File) : List (Str × H5Val) :=
  (f.insertionSort (fun a b => a.1 ≤ b.1)).foldl (fun d p => dictSet d p.1 p.2) []

end MaterSDK
