import Verif.Spec.FockSpace
import Mathlib.RingTheory.Nilpotent.Exp
import Mathlib.Algebra.Algebra.Rat

/-! Specification: coupled-cluster theory in second quantisation.

The Hamiltonian and the cluster operator are operators on the Fock space of `Spec/FockSpace.lean`; the equations are
matrix elements of the similarity-transformed Hamiltonian `e^{-T} H e^{T}`. -/

namespace Ccpy.Fock

variable {ι : Type*} [LinearOrder ι]

/-- Linear operators on the Fock space. -/
abbrev Operator (ι : Type*) [LinearOrder ι] := Module.End ℚ (Vec ι)

/-- `n` orbitals with spin orbitals `up p` and `down p`; the lowest `na` of spin up and `nb` of spin down are occupied in
the reference determinant. -/
structure Orbitals (ι : Type*) where
  (n na nb : ℕ)
  (up down : ℕ → ι)

/-- The labels of the spin orbitals are different, and the occupied orbitals are among the `n` orbitals. -/
structure Orbitals.Proper (S : Orbitals ι) : Prop where
  up_inj : Function.Injective S.up
  down_inj : Function.Injective S.down
  ne : ∀ p q, S.up p ≠ S.down q
  ha : S.na ≤ S.n
  hb : S.nb ≤ S.n

/-- One-electron integrals `z` and two-electron integrals `v p q r s = ⟨p q| v |r s⟩`, antisymmetrised for equal spins. -/
structure Integrals where
  (zA zB : ℕ → ℕ → ℚ)
  (vAA vAB vBB : ℕ → ℕ → ℕ → ℕ → ℚ)

def Antisymmetric (v : ℕ → ℕ → ℕ → ℕ → ℚ) : Prop :=
  ∀ p q r s, v q p r s = - v p q r s ∧ v p q s r = - v p q r s

/-- Amplitudes of single and double excitations, `t a b i j` for excitations from the occupied orbitals `i`, `j` to the
unoccupied orbitals `a`, `b`; unoccupied orbitals are counted from the first one. -/
structure Cluster where
  (tA tB : ℕ → ℕ → ℚ)
  (tAA tAB tBB : ℕ → ℕ → ℕ → ℕ → ℚ)

noncomputable section

/-- The operator `Σ z_pq p† q + ¼ Σ v_pqrs p† q† s r` over spin orbitals, by spin cases. -/
def hamiltonian (S : Orbitals ι) (Z : Integrals) : Operator ι :=
  ∑ p ∈ Finset.range S.n, ∑ q ∈ Finset.range S.n, Z.zA p q • (cre (S.up p) * ann (S.up q))
  + ∑ p ∈ Finset.range S.n, ∑ q ∈ Finset.range S.n, Z.zB p q • (cre (S.down p) * ann (S.down q))
  + (1 / 4 : ℚ) • ∑ p ∈ Finset.range S.n, ∑ q ∈ Finset.range S.n, ∑ r ∈ Finset.range S.n, ∑ s ∈ Finset.range S.n,
      Z.vAA p q r s • (cre (S.up p) * cre (S.up q) * ann (S.up s) * ann (S.up r))
  + ∑ p ∈ Finset.range S.n, ∑ q ∈ Finset.range S.n, ∑ r ∈ Finset.range S.n, ∑ s ∈ Finset.range S.n,
      Z.vAB p q r s • (cre (S.up p) * cre (S.down q) * ann (S.down s) * ann (S.up r))
  + (1 / 4 : ℚ) • ∑ p ∈ Finset.range S.n, ∑ q ∈ Finset.range S.n, ∑ r ∈ Finset.range S.n, ∑ s ∈ Finset.range S.n,
      Z.vBB p q r s • (cre (S.down p) * cre (S.down q) * ann (S.down s) * ann (S.down r))

/-- Spin orbitals of the occupied and unoccupied orbitals. -/
def Orbitals.occA (S : Orbitals ι) (i : ℕ) : ι := S.up i
def Orbitals.virA (S : Orbitals ι) (a : ℕ) : ι := S.up (S.na + a)
def Orbitals.occB (S : Orbitals ι) (i : ℕ) : ι := S.down i
def Orbitals.virB (S : Orbitals ι) (a : ℕ) : ι := S.down (S.nb + a)
/-- The numbers of unoccupied orbitals. -/
def Orbitals.ua (S : Orbitals ι) : ℕ := S.n - S.na
def Orbitals.ub (S : Orbitals ι) : ℕ := S.n - S.nb

/-- The cluster operator `T = T₁ + T₂`. -/
def clusterOperator (S : Orbitals ι) (T : Cluster) : Operator ι :=
  ∑ a ∈ Finset.range S.ua, ∑ i ∈ Finset.range S.na, T.tA a i • (cre (S.virA a) * ann (S.occA i))
  + ∑ a ∈ Finset.range S.ub, ∑ i ∈ Finset.range S.nb, T.tB a i • (cre (S.virB a) * ann (S.occB i))
  + (1 / 4 : ℚ) • ∑ a ∈ Finset.range S.ua, ∑ b ∈ Finset.range S.ua, ∑ i ∈ Finset.range S.na, ∑ j ∈ Finset.range S.na,
      T.tAA a b i j • (cre (S.virA a) * cre (S.virA b) * ann (S.occA j) * ann (S.occA i))
  + ∑ a ∈ Finset.range S.ua, ∑ b ∈ Finset.range S.ub, ∑ i ∈ Finset.range S.na, ∑ j ∈ Finset.range S.nb,
      T.tAB a b i j • (cre (S.virA a) * cre (S.virB b) * ann (S.occB j) * ann (S.occA i))
  + (1 / 4 : ℚ) • ∑ a ∈ Finset.range S.ub, ∑ b ∈ Finset.range S.ub, ∑ i ∈ Finset.range S.nb, ∑ j ∈ Finset.range S.nb,
      T.tBB a b i j • (cre (S.virB a) * cre (S.virB b) * ann (S.occB j) * ann (S.occB i))

/-- The similarity-transformed Hamiltonian `e^{-T} H e^{T}` (`T` is nilpotent, so the series of `e^{T}` is finite). -/
def transformed (S : Orbitals ι) (Z : Integrals) (T : Cluster) : Operator ι :=
  IsNilpotent.exp (-(clusterOperator S T)) * hamiltonian S Z * IsNilpotent.exp (clusterOperator S T)

/-- The reference determinant. -/
def Orbitals.ref (S : Orbitals ι) : Vec ι := reference S.up S.down S.na S.nb

/-- Singly and doubly excited determinants. -/
def Orbitals.singleA (S : Orbitals ι) (a i : ℕ) : Vec ι := cre (S.virA a) (ann (S.occA i) S.ref)
def Orbitals.singleB (S : Orbitals ι) (a i : ℕ) : Vec ι := cre (S.virB a) (ann (S.occB i) S.ref)
def Orbitals.doubleAA (S : Orbitals ι) (a b i j : ℕ) : Vec ι :=
  cre (S.virA a) (cre (S.virA b) (ann (S.occA j) (ann (S.occA i) S.ref)))
def Orbitals.doubleAB (S : Orbitals ι) (a b i j : ℕ) : Vec ι :=
  cre (S.virA a) (cre (S.virB b) (ann (S.occB j) (ann (S.occA i) S.ref)))
def Orbitals.doubleBB (S : Orbitals ι) (a b i j : ℕ) : Vec ι :=
  cre (S.virB a) (cre (S.virB b) (ann (S.occB j) (ann (S.occB i) S.ref)))

/-- `⟨D| A |Φ⟩` -/
def Orbitals.element (S : Orbitals ι) (D : Vec ι) (A : Operator ι) : ℚ := inner D (A S.ref)

/-- The CCSD equations: the projections of `e^{-T} H e^{T} |Φ⟩` on all singly and doubly excited determinants vanish. -/
structure SolvesCCSD (S : Orbitals ι) (Z : Integrals) (T : Cluster) : Prop where
  a : ∀ a i, a < S.ua → i < S.na → S.element (S.singleA a i) (transformed S Z T) = 0
  b : ∀ a i, a < S.ub → i < S.nb → S.element (S.singleB a i) (transformed S Z T) = 0
  aa : ∀ a b i j, a < S.ua → b < S.ua → i < S.na → j < S.na → S.element (S.doubleAA a b i j) (transformed S Z T) = 0
  ab : ∀ a b i j, a < S.ua → b < S.ub → i < S.na → j < S.nb → S.element (S.doubleAB a b i j) (transformed S Z T) = 0
  bb : ∀ a b i j, a < S.ub → b < S.ub → i < S.nb → j < S.nb → S.element (S.doubleBB a b i j) (transformed S Z T) = 0

end

/-- The Fock matrices of the reference determinant. -/
def fockA (S : Orbitals ι) (Z : Integrals) (p q : ℕ) : ℚ :=
  Z.zA p q + ∑ k ∈ Finset.range S.na, Z.vAA p k q k + ∑ k ∈ Finset.range S.nb, Z.vAB p k q k
def fockB (S : Orbitals ι) (Z : Integrals) (p q : ℕ) : ℚ :=
  Z.zB p q + ∑ k ∈ Finset.range S.nb, Z.vBB p k q k + ∑ k ∈ Finset.range S.na, Z.vAB k p k q

end Ccpy.Fock
