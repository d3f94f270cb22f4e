import Mathlib.Algebra.BigOperators.Ring.Finset
import Mathlib.Algebra.Order.Field.Basic

/-! Specification for C22: the affine combination of smallest Euclidean norm. -/

namespace Ccpy.Spec

variable {K : Type} [Field K]

/-- The combination `∑ i, w i • v i` of the first `n` vectors. -/
def combination (n : ℕ) (w : ℕ → K) (v : ℕ → ℕ → K) (p : ℕ) : K :=
  ∑ i ∈ Finset.range n, w i * v i p

/-- The square of the Euclidean length of a vector with `dim` components. -/
def normSq (dim : ℕ) (u : ℕ → K) : K := ∑ p ∈ Finset.range dim, u p ^ 2

/-- Weights with sum one. -/
def Affine (n : ℕ) (w : ℕ → K) : Prop := ∑ i ∈ Finset.range n, w i = 1

/-- The weights `w` minimise the norm of the combination of the `v i` among the weights with sum one,
and no other weights attain the minimum. -/
def Minimises [LinearOrder K] (n dim : ℕ) (v : ℕ → ℕ → K) (w : ℕ → K) : Prop :=
  Affine n w ∧ ∀ u, Affine n u →
    normSq dim (combination n w v) ≤ normSq dim (combination n u v) ∧
    (normSq dim (combination n u v) ≤ normSq dim (combination n w v) → ∀ i, i < n → u i = w i)

/-- Linear independence of the first `n` vectors. -/
def Independent (n dim : ℕ) (v : ℕ → ℕ → K) : Prop :=
  ∀ w : ℕ → K, (∀ p, p < dim → combination n w v p = 0) → ∀ i, i < n → w i = 0

end Ccpy.Spec
