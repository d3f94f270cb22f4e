import Verif.Spec.CoupledCluster

/-! Specification: coupled-cluster theory with doubles (CCD) and with approximate doubles (CC2). -/

namespace Ccpy.Fock

variable {ι : Type*} [LinearOrder ι]

/-- The single excitations `T₁` and the double excitations `T₂` of a set of amplitudes. -/
def Cluster.singles (T : Cluster) : Cluster := ⟨T.tA, T.tB, fun _ _ _ _ => 0, fun _ _ _ _ => 0, fun _ _ _ _ => 0⟩
def Cluster.doubles (T : Cluster) : Cluster := ⟨fun _ _ => 0, fun _ _ => 0, T.tAA, T.tAB, T.tBB⟩

noncomputable section

/-- The Fock operator `Σ f_pq p† q` of the reference determinant. -/
def fockOperator (S : Orbitals ι) (Z : Integrals) : Operator ι :=
  ∑ p ∈ Finset.range S.n, ∑ q ∈ Finset.range S.n, fockA S Z p q • (cre (S.up p) * ann (S.up q))
  + ∑ p ∈ Finset.range S.n, ∑ q ∈ Finset.range S.n, fockB S Z p q • (cre (S.down p) * ann (S.down q))

/-- The CCD equations: the projections of `e^{-T₂} H e^{T₂} |Φ⟩` on the doubly excited determinants vanish. -/
structure SolvesCCD (S : Orbitals ι) (Z : Integrals) (T : Cluster) : Prop where
  aa : ∀ a b i j, a < S.ua → b < S.ua → i < S.na → j < S.na →
    S.element (S.doubleAA a b i j) (transformed S Z T.doubles) = 0
  ab : ∀ a b i j, a < S.ua → b < S.ub → i < S.na → j < S.nb →
    S.element (S.doubleAB a b i j) (transformed S Z T.doubles) = 0
  bb : ∀ a b i j, a < S.ub → b < S.ub → i < S.nb → j < S.nb →
    S.element (S.doubleBB a b i j) (transformed S Z T.doubles) = 0

/-- The operator `e^{-T₁} H e^{T₁} + [F, T₂]` of the doubles equations of CC2. -/
def cc2Doubles (S : Orbitals ι) (Z : Integrals) (T : Cluster) : Operator ι :=
  transformed S Z T.singles
    + (fockOperator S Z * clusterOperator S T.doubles - clusterOperator S T.doubles * fockOperator S Z)

/-- The CC2 equations: the singles equations are those of CCSD, and in the doubles equations the double excitations meet the
Fock operator only. -/
structure SolvesCC2 (S : Orbitals ι) (Z : Integrals) (T : Cluster) : Prop where
  a : ∀ a i, a < S.ua → i < S.na → S.element (S.singleA a i) (transformed S Z T) = 0
  b : ∀ a i, a < S.ub → i < S.nb → S.element (S.singleB a i) (transformed S Z T) = 0
  aa : ∀ a b i j, a < S.ua → b < S.ua → i < S.na → j < S.na → S.element (S.doubleAA a b i j) (cc2Doubles S Z T) = 0
  ab : ∀ a b i j, a < S.ua → b < S.ub → i < S.na → j < S.nb → S.element (S.doubleAB a b i j) (cc2Doubles S Z T) = 0
  bb : ∀ a b i j, a < S.ub → b < S.ub → i < S.nb → j < S.nb → S.element (S.doubleBB a b i j) (cc2Doubles S Z T) = 0

end

end Ccpy.Fock
