import Mathlib.Algebra.BigOperators.Group.List.Basic

/-! Column-major storage of tensors. -/

namespace Ccpy.Spec

/-- Offset (from 0) of the element with the given indices (from 0) in a tensor with the given
extents; the first index runs fastest. -/
def flat : List ℕ → List ℕ → ℕ
  | extent :: extents, i :: is => i + extent * flat extents is
  | _, _ => 0

/-- A multi-index of a tensor: position `p` of the index list is below extent `p`. -/
def InShape (shape : List ℕ) (idx : ℕ → ℕ) : Prop := ∀ p, p < shape.length → idx p < shape.getD p 1

end Ccpy.Spec
