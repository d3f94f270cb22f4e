import Verif.Spec.CrCc
import Verif.Spec.ApproximateCC

/-! Specification: the CCSD(T) correction.  It is a sum over triply excited determinants `K` of
`⟨K| [H, T] |Φ⟩ ⟨Φ| T† H |K⟩ / D(K)` with Møller–Plesset energy differences `D`. -/

namespace Ccpy.Fock

variable {ι : Type*} [LinearOrder ι]

/-- The interaction is symmetric: the integrals belong to real orbitals. -/
structure Integrals.Real (Z : Integrals) : Prop where
  aa : ∀ p q r s, Z.vAA p q r s = Z.vAA r s p q
  ab : ∀ p q r s, Z.vAB p q r s = Z.vAB r s p q
  bb : ∀ p q r s, Z.vBB p q r s = Z.vBB r s p q

noncomputable section

/-- What the determinant `τ Φ` contributes, with the energy difference `D`.  `V` is the interaction that couples it to `T† Φ`. -/
def ptTerm (S : Orbitals ι) (Z : Integrals) (T : Cluster) (V τ : Operator ι) (D : ℚ) : ℚ :=
  S.element (τ S.ref) (hamiltonian S Z * clusterOperator S T - clusterOperator S T * hamiltonian S Z)
    * S.element S.ref (deexcitation S T * V * τ) / D

open Finset in
/-- The correction: the sum over all triply excited determinants, of each spin case in turn. -/
def ccsdpt (S : Orbitals ι) (Z : Integrals) (T : Cluster) (V : Operator ι) : ℚ :=
  ∑ i ∈ range S.na, ∑ j ∈ Ico (i + 1) S.na, ∑ k ∈ Ico (j + 1) S.na,
    ∑ a ∈ range S.ua, ∑ b ∈ Ico (a + 1) S.ua, ∑ c ∈ Ico (b + 1) S.ua,
      ptTerm S Z T V (S.exciteAAA a b c i j k) ((gapsA S Z).aaa a b c i j k)
  + ∑ i ∈ range S.na, ∑ j ∈ Ico (i + 1) S.na, ∑ k ∈ range S.nb,
    ∑ a ∈ range S.ua, ∑ b ∈ Ico (a + 1) S.ua, ∑ c ∈ range S.ub,
      ptTerm S Z T V (S.exciteAAB a b c i j k) ((gapsA S Z).aab a b c i j k)
  + ∑ i ∈ range S.na, ∑ j ∈ range S.nb, ∑ k ∈ Ico (j + 1) S.nb,
    ∑ a ∈ range S.ua, ∑ b ∈ range S.ub, ∑ c ∈ Ico (b + 1) S.ub,
      ptTerm S Z T V (S.exciteABB a b c i j k) ((gapsA S Z).abb a b c i j k)
  + ∑ i ∈ range S.nb, ∑ j ∈ Ico (i + 1) S.nb, ∑ k ∈ Ico (j + 1) S.nb,
    ∑ a ∈ range S.ub, ∑ b ∈ Ico (a + 1) S.ub, ∑ c ∈ Ico (b + 1) S.ub,
      ptTerm S Z T V (S.exciteBBB a b c i j k) ((gapsA S Z).bbb a b c i j k)

end

end Ccpy.Fock
