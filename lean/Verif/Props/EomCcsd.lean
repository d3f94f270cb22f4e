import Verif.Lemmas.EomCcsd

/-! **C64** The EOM-CCSD matrix-vector product is the commutator of the similarity-transformed Hamiltonian with the excitation
operator, projected on the singly and doubly excited determinants.

The programs are `build_hbar_ccsd` (`/repo/ccpy/hbar/hbar_ccsd.py:4-304`), which turns the stored Hamiltonian into the
intermediates, and `HR` (`/repo/ccpy/eomcc/eomccsd.py:30-132`), both with `flag_RHF=False`.  Arrays 6 to 10 hold the cluster
amplitudes, 11 to 15 the excitation amplitudes. -/

namespace Ccpy.EomCcsd
open Ccpy.Fock Ccpy.Tensor Ccpy.HbarCcsd

variable {ι : Type*} [LinearOrder ι]

/-- What the two programs compute one after the other; `X` is the storage for intermediates. -/
def product (X : Ints) : Amps := HR excitation amplitudes X (buildHbarCcsd amplitudes stored false) false

section
variable {S : Orbitals ι} (h : S.Proper) {Z : Fock.Integrals} (hZ : Z.Antisym) {T : Cluster} (hT : T.Antisym)
  {R : Cluster} (hR : R.Antisym) (X : Ints)
include h hZ hT hR

theorem C64_1a {a i : ℕ} (ha : a < S.ua) (hi : i < S.na) :
    value S Z (Cluster.store [T, R]) (product X).a [a, i]
      = S.element (S.singleA a i) (transformed S Z T * clusterOperator S R - clusterOperator S R * transformed S Z T) :=
  value_a h hZ hT hR ha hi

theorem C64_1b {a i : ℕ} (ha : a < S.ub) (hi : i < S.nb) :
    value S Z (Cluster.store [T, R]) (product X).b [a, i]
      = S.element (S.singleB a i) (transformed S Z T * clusterOperator S R - clusterOperator S R * transformed S Z T) :=
  value_b h hZ hT hR ha hi

theorem C64_2a {a b i j : ℕ} (ha : a < S.ua) (hb : b < S.ua) (hi : i < S.na) (hj : j < S.na) :
    value S Z (Cluster.store [T, R]) (product X).aa [a, b, i, j]
      = S.element (S.doubleAA a b i j) (transformed S Z T * clusterOperator S R - clusterOperator S R * transformed S Z T) :=
  value_aa h hZ hT hR ha hb hi hj

theorem C64_2b {a b i j : ℕ} (ha : a < S.ua) (hb : b < S.ub) (hi : i < S.na) (hj : j < S.nb) :
    value S Z (Cluster.store [T, R]) (product X).ab [a, b, i, j]
      = S.element (S.doubleAB a b i j) (transformed S Z T * clusterOperator S R - clusterOperator S R * transformed S Z T) :=
  value_ab h hZ hT hR ha hb hi hj

theorem C64_2c {a b i j : ℕ} (ha : a < S.ub) (hb : b < S.ub) (hi : i < S.nb) (hj : j < S.nb) :
    value S Z (Cluster.store [T, R]) (product X).bb [a, b, i, j]
      = S.element (S.doubleBB a b i j) (transformed S Z T * clusterOperator S R - clusterOperator S R * transformed S Z T) :=
  value_bb h hZ hT hR ha hb hi hj
end

/-- All contractions join axes of the same orbital space and all sums have equal shapes, so `numpy` raises no error; the
blocks of the result have the shapes of the excitation amplitudes. -/
theorem C64_shapes (X : Ints) :
    ((product X).a.ok = true ∧ (product X).a.axes = [1, 0]) ∧ ((product X).b.ok = true ∧ (product X).b.axes = [3, 2])
    ∧ ((product X).aa.ok = true ∧ (product X).aa.axes = [1, 1, 0, 0])
    ∧ ((product X).ab.ok = true ∧ (product X).ab.axes = [1, 3, 0, 2])
    ∧ ((product X).bb.ok = true ∧ (product X).bb.axes = [3, 3, 2, 2]) := by
  refine ⟨⟨?_, ?_⟩, ⟨?_, ?_⟩, ⟨?_, ?_⟩, ⟨?_, ?_⟩, ⟨?_, ?_⟩⟩ <;> rfl

/-! ### A concrete case -/

/-- Two orbitals, one electron of each spin; the orbitals of the two spins alternate. -/
def smallOrbitals : Orbitals ℕ := ⟨2, 1, 1, fun p => 2 * p, fun p => 2 * p + 1⟩
def smallIntegrals : Fock.Integrals :=
  ⟨fun p q => p + q, fun p q => 2 * p + 3 * q, fun p q r s => (p - q) * (r - s), fun p q r s => p + 2 * q + 3 * r + 4 * s,
    fun p q r s => 2 * (p - q) * (r - s)⟩
def smallCluster : Cluster := ⟨fun _ _ => 2, fun _ _ => 3, fun _ _ _ _ => 0, fun _ _ _ _ => 5, fun _ _ _ _ => 0⟩
def smallExcitation : Cluster := ⟨fun _ _ => 1, fun _ _ => -1, fun _ _ _ _ => 0, fun _ _ _ _ => 4, fun _ _ _ _ => 0⟩

theorem smallOrbitals_proper : smallOrbitals.Proper where
  up_inj := fun p q h => by simp only [smallOrbitals] at h; omega
  down_inj := fun p q h => by simp only [smallOrbitals] at h; omega
  ne := fun p q h => by simp only [smallOrbitals] at h; omega
  ha := by decide
  hb := by decide

theorem smallIntegrals_antisym : smallIntegrals.Antisym := by
  constructor <;> intro p q r s <;> simp only [smallIntegrals] <;> constructor <;> ring
theorem smallCluster_antisym : smallCluster.Antisym := by
  constructor <;> intro p q r s <;> constructor <;> rfl
theorem smallExcitation_antisym : smallExcitation.Antisym := by
  constructor <;> intro p q r s <;> constructor <;> rfl

/-- The matrix element of a simultaneous excitation of both electrons, from the program. -/
example : smallOrbitals.element (smallOrbitals.doubleAB 0 0 0 0)
    (transformed smallOrbitals smallIntegrals smallCluster * clusterOperator smallOrbitals smallExcitation
      - clusterOperator smallOrbitals smallExcitation * transformed smallOrbitals smallIntegrals smallCluster) = -464 := by
  rw [← C64_2b smallOrbitals_proper smallIntegrals_antisym smallCluster_antisym smallExcitation_antisym stored
    (by decide) (by decide) (by decide) (by decide)]
  decide +kernel

end Ccpy.EomCcsd
