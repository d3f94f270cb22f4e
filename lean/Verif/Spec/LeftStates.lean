import Verif.Spec.EquationOfMotion

/-! Specification: left eigenstates of the transformed Hamiltonian.  `L` undoes excitations; the left equations are the
expectation values of `L [e^{-T} H e^{T}, τ]` in the reference for the excitations `τ`. -/

namespace Ccpy.Fock

variable {ι : Type*} [LinearOrder ι]

noncomputable section

/-- The de-excitation operator with the amplitudes `l a i`, `l a b i j` of the excitations that it undoes. -/
def deexcitation (S : Orbitals ι) (L : Cluster) : Operator ι :=
  ∑ a ∈ Finset.range S.ua, ∑ i ∈ Finset.range S.na, L.tA a i • (cre (S.occA i) * ann (S.virA a))
  + ∑ a ∈ Finset.range S.ub, ∑ i ∈ Finset.range S.nb, L.tB a i • (cre (S.occB i) * ann (S.virB a))
  + (1 / 4 : ℚ) • ∑ a ∈ Finset.range S.ua, ∑ b ∈ Finset.range S.ua, ∑ i ∈ Finset.range S.na, ∑ j ∈ Finset.range S.na,
      L.tAA a b i j • (cre (S.occA i) * cre (S.occA j) * ann (S.virA b) * ann (S.virA a))
  + ∑ a ∈ Finset.range S.ua, ∑ b ∈ Finset.range S.ub, ∑ i ∈ Finset.range S.na, ∑ j ∈ Finset.range S.nb,
      L.tAB a b i j • (cre (S.occA i) * cre (S.occB j) * ann (S.virB b) * ann (S.virA a))
  + (1 / 4 : ℚ) • ∑ a ∈ Finset.range S.ub, ∑ b ∈ Finset.range S.ub, ∑ i ∈ Finset.range S.nb, ∑ j ∈ Finset.range S.nb,
      L.tBB a b i j • (cre (S.occB i) * cre (S.occB j) * ann (S.virB b) * ann (S.virB a))

/-- Excitations of one and two electrons. -/
def Orbitals.exciteA (S : Orbitals ι) (a i : ℕ) : Operator ι := cre (S.virA a) * ann (S.occA i)
def Orbitals.exciteB (S : Orbitals ι) (a i : ℕ) : Operator ι := cre (S.virB a) * ann (S.occB i)
def Orbitals.exciteAA (S : Orbitals ι) (a b i j : ℕ) : Operator ι := cre (S.virA a) * cre (S.virA b) * ann (S.occA j) * ann (S.occA i)
def Orbitals.exciteAB (S : Orbitals ι) (a b i j : ℕ) : Operator ι := cre (S.virA a) * cre (S.virB b) * ann (S.occB j) * ann (S.occA i)
def Orbitals.exciteBB (S : Orbitals ι) (a b i j : ℕ) : Operator ι := cre (S.virB a) * cre (S.virB b) * ann (S.occB j) * ann (S.occB i)

/-- `⟨Φ| L [e^{-T} H e^{T}, τ] |Φ⟩` -/
def leftElement (S : Orbitals ι) (Z : Integrals) (T : Cluster) (L τ : Operator ι) : ℚ :=
  S.element S.ref (L * (transformed S Z T * τ - τ * transformed S Z T))

end

end Ccpy.Fock
