import Mathlib.Data.List.Perm.Basic
import Mathlib.Algebra.Order.Group.Abs
import Mathlib.Algebra.Order.Ring.Rat

/-! Selecting the largest contributions. -/

namespace Ccpy.Spec

/-- `idx` sorts the values in nondecreasing order; nothing is said about ties. -/
def SortsUp (values : List ℚ) (idx : List ℕ) : Prop :=
  idx.Perm (List.range values.length) ∧ idx.Pairwise fun i j => values.getD i 0 ≤ values.getD j 0

/-- Nothing of `pool` that was left out is larger in absolute value than something chosen. -/
def Largest {R : Type} (chosen pool : List (R × ℚ)) : Prop :=
  ∀ x ∈ pool, x ∈ chosen ∨ ∀ y ∈ chosen, |x.2| ≤ |y.2|

end Ccpy.Spec
