import Verif.Model.Integrals

/-! Model of `numpy.einsum` in its explicit form (`"xmi,xnj->mnij"`), used all over `/repo/ccpy`.

Not modelled: the broadcasting of axes of length one against a longer axis with the same label, which
no caller in the modelled code uses, and the order of floating-point additions. -/

namespace Ccpy.Integrals
open Ccpy.Operators

variable {K : Type*}

/-- Labels with the lengths of the axes they stand on, in order of appearance. -/
def labelDims (ins : List Name) (shapes : List (List ℕ)) : List (Char × ℕ) :=
  (List.zipWith List.zip ins shapes).flatten

/-- Every axis with the same label has the same length. -/
def consistentDims (dims : List (Char × ℕ)) : Bool :=
  dims.all fun e => dims.lookup e.1 == some e.2

/-- The labels that are summed over, once each. -/
def summedLabels : List (Char × ℕ) → Name → List (Char × ℕ)
  | [], _ => []
  | (c, d) :: rest, seen => if seen.contains c then summedLabels rest seen
    else (c, d) :: summedLabels rest (c :: seen)

/-- Sum over all values of the labels. -/
def sumLabels [AddCommMonoid K] : List (Char × ℕ) → List (Char × ℕ) → (List (Char × ℕ) → K) → K
  | [], env, f => f env
  | (c, d) :: rest, env, f => ∑ i ∈ Finset.range d, sumLabels rest ((c, i) :: env) f

/-- `np.einsum("<ins>-><out>", *ops)`; `none` is the `ValueError` of numpy: wrong number of labels for an
operand, or one label on two axes of different lengths. -/
def einsum [CommSemiring K] (ins : List Name) (out : Name) (ops : List (Tensor K)) : Option (Tensor K) :=
  let dims := labelDims ins (ops.map Tensor.shape)
  if ins.map List.length = ops.map (fun t => t.shape.length) ∧ consistentDims dims = true then
    some ⟨out.map fun c => (dims.lookup c).getD 0, fun idx =>
      sumLabels (summedLabels dims out) (out.zip idx) fun env =>
        (List.zipWith (fun t labels => t.entry (labels.map fun c => (env.lookup c).getD 0)) ops ins).prod⟩
  else none

/-- Difference of two arrays of the same shape. -/
def subTensor [Sub K] (x y : Option (Tensor K)) : Option (Tensor K) :=
  match x, y with
  | some x, some y => if x.shape = y.shape then some ⟨x.shape, fun i => x.entry i - y.entry i⟩ else none
  | _, _ => none

end Ccpy.Integrals
