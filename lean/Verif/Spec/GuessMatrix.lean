import Verif.Spec.EquationOfMotion
import Verif.Spec.LeftStates

/-! Matrix elements of the operator whose eigenvalues are excitation, attachment and ionisation energies. -/

namespace Ccpy.Fock

variable {ι : Type*} [LinearOrder ι]

/-- `⟨K| [e^{-T} H e^{T}, τ] |Φ⟩`: the row of the determinant `K` and the column of the determinant `τ |Φ⟩`. -/
noncomputable def energyElement (S : Orbitals ι) (Z : Integrals) (T : Cluster) (K : Vec ι) (τ : Operator ι) : ℚ :=
  S.element K (transformed S Z T * τ - τ * transformed S Z T)

end Ccpy.Fock
