import Verif.Spec.LeftStates
import Verif.Spec.StoredArrays
import Verif.Spec.Triples

/-! Specification: the one-particle density matrix of a coupled-cluster state, the expectation value of `q† p` with the left
state `⟨Φ| (1 + L₁ + L₂ + L₃) e^{-T}` and the right state `e^{T} |Φ⟩`. -/

namespace Ccpy.Fock

variable {ι : Type*} [LinearOrder ι]

noncomputable section

/-- The de-excitation operator `L₃` with the amplitudes `l a b c i j k` of the excitations that it undoes. -/
def deexcitationTriples (S : Orbitals ι) (L : Triples) : Operator ι :=
  (1 / 36 : ℚ) • ∑ a ∈ Finset.range S.ua, ∑ b ∈ Finset.range S.ua, ∑ c ∈ Finset.range S.ua,
    ∑ i ∈ Finset.range S.na, ∑ j ∈ Finset.range S.na, ∑ k ∈ Finset.range S.na, L.tAAA a b c i j k
      • (cre (S.occA i) * cre (S.occA j) * cre (S.occA k) * ann (S.virA c) * ann (S.virA b) * ann (S.virA a))
  + (1 / 4 : ℚ) • ∑ a ∈ Finset.range S.ua, ∑ b ∈ Finset.range S.ua, ∑ c ∈ Finset.range S.ub,
    ∑ i ∈ Finset.range S.na, ∑ j ∈ Finset.range S.na, ∑ k ∈ Finset.range S.nb, L.tAAB a b c i j k
      • (cre (S.occA i) * cre (S.occA j) * cre (S.occB k) * ann (S.virB c) * ann (S.virA b) * ann (S.virA a))
  + (1 / 4 : ℚ) • ∑ a ∈ Finset.range S.ua, ∑ b ∈ Finset.range S.ub, ∑ c ∈ Finset.range S.ub,
    ∑ i ∈ Finset.range S.na, ∑ j ∈ Finset.range S.nb, ∑ k ∈ Finset.range S.nb, L.tABB a b c i j k
      • (cre (S.occA i) * cre (S.occB j) * cre (S.occB k) * ann (S.virB c) * ann (S.virB b) * ann (S.virA a))
  + (1 / 36 : ℚ) • ∑ a ∈ Finset.range S.ub, ∑ b ∈ Finset.range S.ub, ∑ c ∈ Finset.range S.ub,
    ∑ i ∈ Finset.range S.nb, ∑ j ∈ Finset.range S.nb, ∑ k ∈ Finset.range S.nb, L.tBBB a b c i j k
      • (cre (S.occB i) * cre (S.occB j) * cre (S.occB k) * ann (S.virB c) * ann (S.virB b) * ann (S.virB a))

/-- Amplitudes of single, double and triple excitations. -/
structure State where
  one : Cluster
  three : Triples

/-- They change sign under the exchange of two orbitals of the same spin. -/
structure State.Antisym (T : State) : Prop where
  one : T.one.Antisym
  three : T.three.Antisym

/-- `⟨Φ| (1 + L) e^{-T} q† p e^{T} |Φ⟩` -/
def density (S : Orbitals ι) (T L : State) (p q : ι) : ℚ :=
  S.element S.ref ((1 + (deexcitation S L.one + deexcitationTriples S L.three))
    * (IsNilpotent.exp (-clusterOperator3 S T.one T.three) * (cre q * ann p) * IsNilpotent.exp (clusterOperator3 S T.one T.three)))

/-- A density matrix in four blocks: the first index `p` and the second index `q` of `⟨q† p⟩` are occupied (`o`) or
unoccupied (`v`). -/
structure IsDensity (S : Orbitals ι) (T L : State) (nocc nvir : ℕ) (occ vir : ℕ → ι)
    (oo ov vo vv : ℕ → ℕ → ℚ) : Prop where
  oo : ∀ i j, i < nocc → j < nocc → oo i j = density S T L (occ i) (occ j)
  ov : ∀ i a, i < nocc → a < nvir → ov i a = density S T L (occ i) (vir a)
  vo : ∀ a i, a < nvir → i < nocc → vo a i = density S T L (vir a) (occ i)
  vv : ∀ a b, a < nvir → b < nvir → vv a b = density S T L (vir a) (vir b)

end

end Ccpy.Fock
