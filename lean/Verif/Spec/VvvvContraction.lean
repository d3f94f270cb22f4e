import Mathlib.Algebra.BigOperators.Group.Finset.Basic
import Mathlib.Algebra.Field.Defs
import Mathlib.Order.Interval.Finset.Nat

/-! Integrals of four particles from Cholesky vectors. -/

namespace Ccpy.Vvvv

variable {K : Type*} [Field K]

/-- `<pq|rs>` of Cholesky vectors: the sum over `x` of `<x|pr><x|qs>`. -/
def plain (nx : ℕ) (c c' : ℕ → ℕ → ℕ → K) (p q r s : ℕ) : K :=
  ∑ x ∈ Finset.range nx, c x p r * c' x q s

/-- `<pq||rs>`. -/
def anti (nx : ℕ) (c : ℕ → ℕ → ℕ → K) (p q r s : ℕ) : K :=
  plain nx c c p q r s - plain nx c c p q s r

/-- Every one of the iterations `1..n` is done once, by one of the threads. -/
def Distributes (schedule : List (List ℕ)) (n : ℕ) : Prop :=
  schedule.flatten.Perm (List.range' 1 n)

end Ccpy.Vvvv
