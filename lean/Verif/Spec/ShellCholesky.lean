import Mathlib.Data.Real.Basic
import Mathlib.Algebra.BigOperators.Group.Finset.Basic
import Mathlib.Algebra.Order.Group.Unbundled.Abs

/-! Specification: repulsion integrals `(pq|rs)` over `n` basis functions, as a matrix over pairs. -/

namespace Ccpy.ShellCholesky

/-- The integrals form a symmetric, positive semidefinite matrix over pairs of basis functions. -/
structure Repulsion (n : ℕ) (eri : ℕ → ℕ → ℕ → ℕ → ℝ) : Prop where
  symmetric : ∀ p q r s, p < n → q < n → r < n → s < n → eri p q r s = eri r s p q
  positive : ∀ x : ℕ → ℕ → ℝ, 0 ≤ ∑ p ∈ Finset.range n, ∑ q ∈ Finset.range n, ∑ r ∈ Finset.range n, ∑ s ∈ Finset.range n,
    x p q * eri p q r s * x r s

/-- The integrals do not change when the two functions of a pair are exchanged, `(pq|rs) = (qp|rs)`. -/
def Exchange (n : ℕ) (eri : ℕ → ℕ → ℕ → ℕ → ℝ) : Prop :=
  ∀ p q r s, p < n → q < n → eri p q r s = eri q p r s

/-- Vectors `L x p q` that give every integral to within `tol`. -/
def Approximates (n : ℕ) (eri : ℕ → ℕ → ℕ → ℕ → ℝ) (tol : ℝ) (count : ℕ) (L : ℕ → ℕ → ℕ → ℝ) : Prop :=
  ∀ p q r s, p < n → q < n → r < n → s < n → |eri p q r s - ∑ x ∈ Finset.range count, L x p q * L x r s| ≤ tol

end Ccpy.ShellCholesky
