import Verif.Spec.ApproximateCC
import Verif.Spec.LeftStates

/-! Specification: Møller–Plesset perturbation theory through third order, by sums over doubly excited determinants `K`. -/

namespace Ccpy.Fock

variable {ι : Type*} [LinearOrder ι]

noncomputable section

/-- Differences of orbital energies. -/
def gapAA (S : Orbitals ι) (Z : Integrals) (a b i j : ℕ) : ℚ :=
  fockA S Z i i + fockA S Z j j - fockA S Z (S.na + a) (S.na + a) - fockA S Z (S.na + b) (S.na + b)
def gapAB (S : Orbitals ι) (Z : Integrals) (a b i j : ℕ) : ℚ :=
  fockA S Z i i + fockB S Z j j - fockA S Z (S.na + a) (S.na + a) - fockB S Z (S.nb + b) (S.nb + b)
def gapBB (S : Orbitals ι) (Z : Integrals) (a b i j : ℕ) : ℚ :=
  fockB S Z i i + fockB S Z j j - fockB S Z (S.nb + a) (S.nb + a) - fockB S Z (S.nb + b) (S.nb + b)

/-- The double excitations of first order, `⟨K| H |Φ⟩ / D(K)`. -/
def firstOrder (S : Orbitals ι) (Z : Integrals) : Cluster where
  tA _ _ := 0
  tB _ _ := 0
  tAA a b i j := Z.vAA (S.na + a) (S.na + b) i j / gapAA S Z a b i j
  tAB a b i j := Z.vAB (S.na + a) (S.nb + b) i j / gapAB S Z a b i j
  tBB a b i j := Z.vBB (S.nb + a) (S.nb + b) i j / gapBB S Z a b i j

open Finset in
/-- The sum over all doubly excited determinants `K` of `⟨Φ| H |K⟩ ⟨K| A |Φ⟩ / D(K)`, of each spin case in turn. -/
def pairSum (S : Orbitals ι) (Z : Integrals) (A : Operator ι) : ℚ :=
  ∑ a ∈ range S.ua, ∑ b ∈ Ico (a + 1) S.ua, ∑ i ∈ range S.na, ∑ j ∈ Ico (i + 1) S.na,
    S.element S.ref (hamiltonian S Z * S.exciteAA a b i j) * S.element (S.exciteAA a b i j S.ref) A / gapAA S Z a b i j
  + ∑ a ∈ range S.ua, ∑ b ∈ range S.ub, ∑ i ∈ range S.na, ∑ j ∈ range S.nb,
    S.element S.ref (hamiltonian S Z * S.exciteAB a b i j) * S.element (S.exciteAB a b i j S.ref) A / gapAB S Z a b i j
  + ∑ a ∈ range S.ub, ∑ b ∈ Ico (a + 1) S.ub, ∑ i ∈ range S.nb, ∑ j ∈ Ico (i + 1) S.nb,
    S.element S.ref (hamiltonian S Z * S.exciteBB a b i j) * S.element (S.exciteBB a b i j S.ref) A / gapBB S Z a b i j

/-- The interaction: the Hamiltonian without the Fock operator. -/
def fluctuation (S : Orbitals ι) (Z : Integrals) : Operator ι := hamiltonian S Z - fockOperator S Z

/-- The energy of second order. -/
def secondOrder (S : Orbitals ι) (Z : Integrals) : ℚ := pairSum S Z (hamiltonian S Z)

/-- The energy of third order, in its connected form. -/
def thirdOrder (S : Orbitals ι) (Z : Integrals) : ℚ :=
  pairSum S Z (fluctuation S Z * clusterOperator S (firstOrder S Z) - clusterOperator S (firstOrder S Z) * fluctuation S Z)

end

end Ccpy.Fock
