import Mathlib.Algebra.BigOperators.Ring.Finset
import Mathlib.Algebra.Field.Basic
import Mathlib.Data.Finset.Prod

/-! Specification: a two-body Hamiltonian in a basis of spin orbitals.

A spin orbital is a spatial orbital number with a spin, `false` for alpha and `true` for beta. -/

namespace Ccpy.Spec

/-- Integrals over spatial orbitals: `h σ p q = ⟨pσ|h|qσ⟩` and, for an electron of spin `σ` and one of
spin `τ`, `g σ τ p q r s = ⟨pσ qτ|rσ sτ⟩`. -/
structure Integrals (K : Type*) where
  h : Bool → ℕ → ℕ → K
  g : Bool → Bool → ℕ → ℕ → ℕ → ℕ → K

namespace Integrals

variable {K : Type*} [Field K] (I : Integrals K)

/-- `⟨P|h|Q⟩` -/
def onebody (P Q : ℕ × Bool) : K := if P.2 = Q.2 then I.h P.2 P.1 Q.1 else 0

/-- The antisymmetrised `⟨PQ|v|RS⟩ - ⟨PQ|v|SR⟩`. -/
def twobody (P Q R S : ℕ × Bool) : K :=
  (if P.2 = R.2 ∧ Q.2 = S.2 then I.g P.2 Q.2 P.1 Q.1 R.1 S.1 else 0) -
    (if P.2 = S.2 ∧ Q.2 = R.2 then I.g P.2 Q.2 P.1 Q.1 S.1 R.1 else 0)

/-- Fock matrix for a determinant. -/
def fock (occ : Finset (ℕ × Bool)) (P Q : ℕ × Bool) : K :=
  I.onebody P Q + ∑ i ∈ occ, I.twobody P i Q i

/-- Energy of a determinant. -/
def energy (occ : Finset (ℕ × Bool)) : K :=
  ∑ i ∈ occ, I.onebody i i + (1 / 2) * ∑ i ∈ occ, ∑ j ∈ occ, I.twobody i j i j

/-- Relabelling the electrons does not change an integral. -/
def ElectronExchange : Prop := ∀ σ τ p q r s, I.g σ τ p q r s = I.g τ σ q p s r

end Integrals

/-- The lowestOrbitals `na` alpha and `nb` beta orbitals. -/
def lowestOrbitals (na nb : ℕ) : Finset (ℕ × Bool) :=
  Finset.range na ×ˢ {false} ∪ Finset.range nb ×ˢ {true}

/-- The same spatial integrals for both spins. -/
def restricted {K : Type*} (e1 : ℕ → ℕ → K) (e2 : ℕ → ℕ → ℕ → ℕ → K) : Integrals K where
  h _ := e1
  g _ _ := e2

end Ccpy.Spec
