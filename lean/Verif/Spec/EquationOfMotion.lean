import Verif.Spec.StoredArrays

/-! Specification: the equation-of-motion method.  An excitation operator `R` has the form of a cluster operator; the matrix
that the method diagonalises acts on it by the commutator with `e^{-T} H e^{T}`. -/

namespace Ccpy.Fock

variable {ι : Type*} [LinearOrder ι]

/-- The commutator `[e^{-T} H e^{T}, R]`. -/
noncomputable def commutatorR (S : Orbitals ι) (Z : Integrals) (T R : Cluster) : Operator ι :=
  transformed S Z T * clusterOperator S R - clusterOperator S R * transformed S Z T

def Cluster.zero : Cluster := ⟨fun _ _ => 0, fun _ _ => 0, fun _ _ _ _ => 0, fun _ _ _ _ => 0, fun _ _ _ _ => 0⟩

/-- The arrays of several sets of amplitudes: `6, …, 10` for the first, `11, …, 15` for the second, and so on. -/
def Cluster.store (l : List Cluster) (name : ℕ) (idx : List ℕ) : ℚ :=
  (l.getD ((name - 6) / 5) Cluster.zero).amp (6 + (name - 6) % 5) idx

end Ccpy.Fock
