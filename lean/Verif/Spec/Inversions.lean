import Mathlib.Data.List.Count
import Mathlib.Algebra.Group.Int.Defs

/-! Specification: the sign of an arrangement of numbers, by counting inversions. -/

namespace Ccpy.Spec

/-- Number of pairs that stand in the wrong (descending) order. -/
def inversions : List ℕ → ℕ
  | [] => 0
  | x :: xs => xs.countP (fun y => y < x) + inversions xs

/-- `+1` for an even and `-1` for an odd number of inversions. -/
def signOf (l : List ℕ) : ℤ := (-1) ^ inversions l

end Ccpy.Spec
