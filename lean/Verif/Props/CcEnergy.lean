import Verif.Lemmas.CcEnergy
import Verif.Props.Ccsd

/-! **C63** The correlation energy computed from cluster amplitudes is `⟨Φ| e^{-T} H e^{T} |Φ⟩ - ⟨Φ| H |Φ⟩`, and the one computed
from CI coefficients in intermediate normalisation is `⟨Φ| H (1 + C) |Φ⟩ - ⟨Φ| H |Φ⟩`. -/

namespace Ccpy.CcEnergy
open Ccpy.Fock Ccpy.Tensor Ccpy.Ccsd

variable {ι : Type*} [LinearOrder ι] {S : Orbitals ι} {Z : Fock.Integrals} {T : Cluster}

/-- `get_cc_energy(T, H0)` -/
theorem C63_cc_energy (h : S.Proper) (hZ : Z.Antisym) (hT : T.Antisym) (shift : ℚ) :
    (setup S Z shift).eval T.amp (ccEnergy amplitudes stored) []
      = S.element S.ref (transformed S Z T) - S.element S.ref (hamiltonian S Z) := by
  rw [← value_energy h hZ hT, ← value_ref h hZ hT]
  exact (add_sub_cancel_left (value S Z T.amp refEnergy []) (value S Z T.amp (ccEnergy amplitudes stored) [])).symm

/-- If `e^{T} |Φ⟩` is an eigenvector of the Hamiltonian, the energy of the reference plus the correlation energy is the
eigenvalue. -/
theorem C63_eigenvalue (h : S.Proper) (hZ : Z.Antisym) (hT : T.Antisym) (shift E : ℚ)
    (hE : hamiltonian S Z (IsNilpotent.exp (clusterOperator S T) S.ref) = E • IsNilpotent.exp (clusterOperator S T) S.ref) :
    S.element S.ref (hamiltonian S Z) + (setup S Z shift).eval T.amp (ccEnergy amplitudes stored) [] = E := by
  rw [C63_cc_energy h hZ hT, add_sub_cancel]
  have h1 : inner S.ref S.ref = 1 := (Engine.fock_vacuum h).one
  have h2 : IsNilpotent.exp (-(clusterOperator S T)) * IsNilpotent.exp (clusterOperator S T) = 1 :=
    IsNilpotent.exp_neg_mul_exp_self (Engine.cluster_nilpotent h T)
  unfold Orbitals.element transformed
  rw [Module.End.mul_apply, Module.End.mul_apply, hE, map_smul, ← Module.End.mul_apply, h2, inner_smul_right]
  rw [Module.End.one_apply, h1, mul_one]

/-- `get_ci_energy(C, H0)` -/
theorem C63_ci_energy (h : S.Proper) (hZ : Z.Antisym) (hT : T.Antisym) (shift : ℚ) :
    (setup S Z shift).eval T.amp (ciEnergy amplitudes stored) []
      = S.element S.ref (hamiltonian S Z * (1 + clusterOperator S T)) - S.element S.ref (hamiltonian S Z) := by
  rw [← value_ci h hZ hT, ← value_ref h hZ hT]
  exact (add_sub_cancel_left (value S Z T.amp refEnergy []) (value S Z T.amp (ciEnergy amplitudes stored) [])).symm

/-- The hypotheses hold for the example of C61, and the two energies differ. -/
example : exampleOrbitals.element exampleOrbitals.ref (transformed exampleOrbitals exampleIntegrals exampleCluster)
    ≠ exampleOrbitals.element exampleOrbitals.ref (hamiltonian exampleOrbitals exampleIntegrals * (1 + clusterOperator exampleOrbitals exampleCluster)) := by
  have h₁ := C63_cc_energy exampleOrbitals_proper exampleIntegrals_antisym exampleCluster_antisym 0
  have h₂ := C63_ci_energy exampleOrbitals_proper exampleIntegrals_antisym exampleCluster_antisym 0
  intro h
  rw [h, ← h₂] at h₁
  revert h₁
  decide +kernel

end Ccpy.CcEnergy
