import Verif.Spec.EquationOfMotion

/-! Specification: linear response of the coupled-cluster wave function to a one-body perturbation `W`.  The response amplitudes `R`
are determined by the projections of `[e^{-T} H e^{T}, R] + e^{-T} W e^{T}` on the excited determinants; the projection on the
reference determinant is the first-order property. -/

namespace Ccpy.Fock

variable {ι : Type*} [LinearOrder ι]

/-- The matrix elements `w p q = ⟨p| w |q⟩` of a one-electron property for the two spins. -/
structure OneElectron where
  (a b : ℕ → ℕ → ℚ)

noncomputable section

/-- The operator `Σ w_pq p† q`. -/
def oneElectron (S : Orbitals ι) (W : OneElectron) : Operator ι :=
  ∑ p ∈ Finset.range S.n, ∑ q ∈ Finset.range S.n, W.a p q • (cre (S.up p) * ann (S.up q))
  + ∑ p ∈ Finset.range S.n, ∑ q ∈ Finset.range S.n, W.b p q • (cre (S.down p) * ann (S.down q))

/-- `[e^{-T} H e^{T}, R] + e^{-T} W e^{T}` -/
def response (S : Orbitals ι) (Z : Integrals) (T R : Cluster) (W : OneElectron) : Operator ι :=
  (transformed S Z T * clusterOperator S R - clusterOperator S R * transformed S Z T)
  + IsNilpotent.exp (-(clusterOperator S T)) * oneElectron S W * IsNilpotent.exp (clusterOperator S T)

end

/-- The arrays of a response calculation: 6 to 10 are the cluster amplitudes, 11 to 15 the response amplitudes, 26 to 33 the blocks of
the property. -/
def responseStore (S : Orbitals ι) (T R : Cluster) (W : OneElectron) (name : ℕ) (idx : List ℕ) : ℚ :=
  match name, idx with
  | 26, [p, q] => W.a p q
  | 27, [p, q] => W.a p (S.na + q)
  | 28, [p, q] => W.a (S.na + p) q
  | 29, [p, q] => W.a (S.na + p) (S.na + q)
  | 30, [p, q] => W.b p q
  | 31, [p, q] => W.b p (S.nb + q)
  | 32, [p, q] => W.b (S.nb + p) q
  | 33, [p, q] => W.b (S.nb + p) (S.nb + q)
  | name, idx => Cluster.store [T, R] name idx

end Ccpy.Fock
