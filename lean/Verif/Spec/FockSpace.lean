import Mathlib.LinearAlgebra.Finsupp.LinearCombination
import Mathlib.Data.Finset.Card
import Mathlib.Data.Rat.Defs
import Mathlib.Algebra.Field.Rat

/-! Specification: electrons in spin orbitals.  Determinants are finite sets of occupied spin orbitals, and
creation and annihilation operators carry the sign of the number of occupied spin orbitals in front. -/

namespace Ccpy.Fock

variable {ι : Type*} [LinearOrder ι]

/-- Vectors of the Fock space: combinations of determinants. -/
abbrev Vec (ι : Type*) := Finset ι →₀ ℚ

/-- `(-1)` to the number of occupied spin orbitals before `x`. -/
def sgn (x : ι) (D : Finset ι) : ℚ := (-1) ^ (D.filter (· < x)).card

/-- A determinant. -/
noncomputable def det (D : Finset ι) : Vec ι := Finsupp.single D 1

/-- Annihilation operator. -/
noncomputable def ann (x : ι) : Vec ι →ₗ[ℚ] Vec ι :=
  Finsupp.linearCombination ℚ fun D => if x ∈ D then sgn x D • det (D.erase x) else 0

/-- Creation operator. -/
noncomputable def cre (x : ι) : Vec ι →ₗ[ℚ] Vec ι :=
  Finsupp.linearCombination ℚ fun D => if x ∈ D then 0 else sgn x D • det (insert x D)

/-- Inner product in which determinants are orthonormal. -/
noncomputable def inner (v w : Vec ι) : ℚ := v.sum fun D c => c * w D

/-- Spin raising, lowering and projection operators for `n` orbitals with spin orbitals `up p`, `down p`. -/
noncomputable def raising (n : ℕ) (up down : ℕ → ι) : Vec ι →ₗ[ℚ] Vec ι :=
  ∑ p ∈ Finset.range n, cre (up p) ∘ₗ ann (down p)
noncomputable def lowering (n : ℕ) (up down : ℕ → ι) : Vec ι →ₗ[ℚ] Vec ι :=
  ∑ p ∈ Finset.range n, cre (down p) ∘ₗ ann (up p)
noncomputable def projection (n : ℕ) (up down : ℕ → ι) : Vec ι →ₗ[ℚ] Vec ι :=
  (1 / 2 : ℚ) • ∑ p ∈ Finset.range n, (cre (up p) ∘ₗ ann (up p) - cre (down p) ∘ₗ ann (down p))

/-- The square of the total spin, `S² = S₋ S₊ + S_z (S_z + 1)`. -/
noncomputable def spinSquared (n : ℕ) (up down : ℕ → ι) : Vec ι →ₗ[ℚ] Vec ι :=
  lowering n up down ∘ₗ raising n up down +
    projection n up down ∘ₗ (projection n up down + LinearMap.id)

/-- The reference determinant: the lowest `na` orbitals with spin up and the lowest `nb` with spin down. -/
noncomputable def reference (up down : ℕ → ι) (na nb : ℕ) : Vec ι :=
  det ((Finset.range na).image up ∪ (Finset.range nb).image down)

end Ccpy.Fock
