import Verif.Model.NaturalOrbitals

/-! What the library routines return, and what natural orbitals are. -/

namespace Ccpy.NatOrbs
open Finset (range)

variable {K : Type*} [Field K]

/-- The columns of `R` are right eigenvectors of `A`, with the eigenvalues `vals`. -/
def RightVectors (n : ℕ) (A : Mat K) (vals : ℕ → K) (R : Mat K) : Prop :=
  ∀ c < n, ∀ i < n, ∑ j ∈ range n, A i j * R j c = vals c * R i c

/-- The columns of `L` are left eigenvectors of `A`. -/
def LeftVectors (n : ℕ) (A : Mat K) (vals : ℕ → K) (L : Mat K) : Prop :=
  ∀ c < n, ∀ j < n, ∑ i ∈ range n, L i c * A i j = vals c * L j c

/-- `eig` returns left and right eigenvectors, normalised to one, when it has real eigenvalues to return. -/
def Returns (n : ℕ) (A : Mat K) (out : Eig K) : Prop :=
  RightVectors n A out.vals out.right ∧ LeftVectors n A out.vals out.left ∧
    (∀ c < n, ∑ i ∈ range n, out.right i c * out.right i c = 1) ∧ ∀ c < n, ∑ i ∈ range n, out.left i c * out.left i c = 1

/-- `argsort` returns the numbers `0..n-1` in an order in which the values do not decrease. -/
def Sorts [LinearOrder K] (n : ℕ) (x : ℕ → K) (σ : ℕ → ℕ) : Prop :=
  (∀ k < n, σ k < n) ∧ (∀ k < n, ∀ l < n, σ k = σ l → k = l) ∧ ∀ k l, k ≤ l → l < n → x (σ k) ≤ x (σ l)

/-- The left and right vectors are biorthonormal. -/
def Biorthonormal (n : ℕ) (L R : Mat K) : Prop :=
  ∀ p < n, ∀ q < n, ∑ i ∈ range n, L i p * R i q = if p = q then 1 else 0

/-- `A` has no elements between orbitals of different symmetry. -/
def SymmetryAdapted (n : ℕ) (irr : ℕ → ℕ) (A : Mat K) : Prop :=
  ∀ p < n, ∀ q < n, irr p ≠ irr q → A p q = 0

end Ccpy.NatOrbs
