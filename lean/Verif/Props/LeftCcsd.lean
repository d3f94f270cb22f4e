import Verif.Lemmas.LeftCcsd
import Verif.Props.EomCcsd

/-! **C65** The left CCSD equations are the expectation values of `L [e^{-T} H e^{T}, τ]` in the reference, for all single and
double excitations `τ`; those of the ground state have `1 + L` in place of `L`.

The programs are `build_hbar_ccsd` (`/repo/ccpy/hbar/hbar_ccsd.py:4-304`), and `LH_fun` and the residual in `update`
(`/repo/ccpy/left/left_ccsd.py`), with `flag_RHF=False`.  Arrays 6 to 10 hold the cluster amplitudes, 11 to 15 those of `L`. -/

namespace Ccpy.LeftCcsd
open Ccpy.Fock Ccpy.Tensor Ccpy.HbarCcsd
open Ccpy.EomCcsd (excitation smallOrbitals smallIntegrals smallCluster smallExcitation smallOrbitals_proper
  smallIntegrals_antisym smallCluster_antisym smallExcitation_antisym)

variable {ι : Type*} [LinearOrder ι]

/-- What `build_hbar_ccsd` and `LH_fun` compute one after the other; `LH` and `X` are the storage for the result and for
intermediates. -/
def product (LH : Amps) (X : Ints) : Amps := LHFun LH excitation amplitudes X (buildHbarCcsd amplitudes stored false) false
/-- The residual in `update` for the ground state or an excited state. -/
def residual (isGround : Bool) (LH : Amps) (X : Ints) : Amps :=
  leftResidual excitation LH amplitudes X (buildHbarCcsd amplitudes stored false) isGround false

section
variable {S : Orbitals ι} (h : S.Proper) {Z : Fock.Integrals} (hZ : Z.Antisym) {T : Cluster} (hT : T.Antisym)
  {L : Cluster} (hL : L.Antisym) (LH : Amps) (X : Ints)
include h hZ hT hL

theorem C65_1a {a i : ℕ} (ha : a < S.ua) (hi : i < S.na) : value S Z (Cluster.store [T, L]) (product LH X).a [a, i]
    = S.element S.ref (deexcitation S L
      * (transformed S Z T * S.exciteA a i - S.exciteA a i * transformed S Z T)) :=
  value_a h hZ hT hL ha hi

theorem C65_1b {a i : ℕ} (ha : a < S.ub) (hi : i < S.nb) : value S Z (Cluster.store [T, L]) (product LH X).b [a, i]
    = S.element S.ref (deexcitation S L
      * (transformed S Z T * S.exciteB a i - S.exciteB a i * transformed S Z T)) :=
  value_b h hZ hT hL ha hi

theorem C65_2a {a b i j : ℕ} (ha : a < S.ua) (hb : b < S.ua) (hi : i < S.na) (hj : j < S.na) : value S Z (Cluster.store [T, L]) (product LH X).aa [a, b, i, j]
    = S.element S.ref (deexcitation S L
      * (transformed S Z T * S.exciteAA a b i j - S.exciteAA a b i j * transformed S Z T)) :=
  value_aa h hZ hT hL ha hb hi hj

theorem C65_2b {a b i j : ℕ} (ha : a < S.ua) (hb : b < S.ub) (hi : i < S.na) (hj : j < S.nb) : value S Z (Cluster.store [T, L]) (product LH X).ab [a, b, i, j]
    = S.element S.ref (deexcitation S L
      * (transformed S Z T * S.exciteAB a b i j - S.exciteAB a b i j * transformed S Z T)) :=
  value_ab h hZ hT hL ha hb hi hj

theorem C65_2c {a b i j : ℕ} (ha : a < S.ub) (hb : b < S.ub) (hi : i < S.nb) (hj : j < S.nb) : value S Z (Cluster.store [T, L]) (product LH X).bb [a, b, i, j]
    = S.element S.ref (deexcitation S L
      * (transformed S Z T * S.exciteBB a b i j - S.exciteBB a b i j * transformed S Z T)) :=
  value_bb h hZ hT hL ha hb hi hj

theorem C65_ground_1a {a i : ℕ} (ha : a < S.ua) (hi : i < S.na) : value S Z (Cluster.store [T, L]) (residual true LH X).a [a, i]
    = S.element S.ref ((1 + deexcitation S L)
      * (transformed S Z T * S.exciteA a i - S.exciteA a i * transformed S Z T)) :=
  ground_value (value_a h hZ hT hL ha hi) (valueBare_a h hZ hT hL ha hi)

theorem C65_ground_1b {a i : ℕ} (ha : a < S.ub) (hi : i < S.nb) : value S Z (Cluster.store [T, L]) (residual true LH X).b [a, i]
    = S.element S.ref ((1 + deexcitation S L)
      * (transformed S Z T * S.exciteB a i - S.exciteB a i * transformed S Z T)) :=
  ground_value (value_b h hZ hT hL ha hi) (valueBare_b h hZ hT hL ha hi)

theorem C65_ground_2a {a b i j : ℕ} (ha : a < S.ua) (hb : b < S.ua) (hi : i < S.na) (hj : j < S.na) : value S Z (Cluster.store [T, L]) (residual true LH X).aa [a, b, i, j]
    = S.element S.ref ((1 + deexcitation S L)
      * (transformed S Z T * S.exciteAA a b i j - S.exciteAA a b i j * transformed S Z T)) :=
  ground_value (value_aa h hZ hT hL ha hb hi hj) (valueBare_aa h hZ hT hL ha hb hi hj)

theorem C65_ground_2b {a b i j : ℕ} (ha : a < S.ua) (hb : b < S.ub) (hi : i < S.na) (hj : j < S.nb) : value S Z (Cluster.store [T, L]) (residual true LH X).ab [a, b, i, j]
    = S.element S.ref ((1 + deexcitation S L)
      * (transformed S Z T * S.exciteAB a b i j - S.exciteAB a b i j * transformed S Z T)) :=
  ground_value (value_ab h hZ hT hL ha hb hi hj) (valueBare_ab h hZ hT hL ha hb hi hj)

theorem C65_ground_2c {a b i j : ℕ} (ha : a < S.ub) (hb : b < S.ub) (hi : i < S.nb) (hj : j < S.nb) : value S Z (Cluster.store [T, L]) (residual true LH X).bb [a, b, i, j]
    = S.element S.ref ((1 + deexcitation S L)
      * (transformed S Z T * S.exciteBB a b i j - S.exciteBB a b i j * transformed S Z T)) :=
  ground_value (value_bb h hZ hT hL ha hb hi hj) (valueBare_bb h hZ hT hL ha hb hi hj)

end

/-- The residual of an excited state is the product. -/
theorem C65_excited (LH : Amps) (X : Ints) : residual false LH X = product LH X := rfl

/-- All contractions join axes of the same orbital space and all sums have equal shapes, so `numpy` raises no error; the
blocks of the result have the shapes of the amplitudes. -/
theorem C65_shapes (isGround : Bool) (LH : Amps) (X : Ints) :
    ((residual isGround LH X).a.ok = true ∧ (residual isGround LH X).a.axes = [1, 0])
    ∧ ((residual isGround LH X).b.ok = true ∧ (residual isGround LH X).b.axes = [3, 2])
    ∧ ((residual isGround LH X).aa.ok = true ∧ (residual isGround LH X).aa.axes = [1, 1, 0, 0])
    ∧ ((residual isGround LH X).ab.ok = true ∧ (residual isGround LH X).ab.axes = [1, 3, 0, 2])
    ∧ ((residual isGround LH X).bb.ok = true ∧ (residual isGround LH X).bb.axes = [3, 3, 2, 2]) := by
  cases isGround <;> refine ⟨⟨?_, ?_⟩, ⟨?_, ?_⟩, ⟨?_, ?_⟩, ⟨?_, ?_⟩, ⟨?_, ?_⟩⟩ <;> rfl

/-- The equation of a simultaneous excitation of both electrons in a concrete case, from the program. -/
example : smallOrbitals.element smallOrbitals.ref ((1 + deexcitation smallOrbitals smallExcitation)
    * (transformed smallOrbitals smallIntegrals smallCluster * smallOrbitals.exciteAB 0 0 0 0
      - smallOrbitals.exciteAB 0 0 0 0 * transformed smallOrbitals smallIntegrals smallCluster)) = -525 := by
  rw [← C65_ground_2b smallOrbitals_proper smallIntegrals_antisym smallCluster_antisym smallExcitation_antisym excitation stored
    (by decide) (by decide) (by decide) (by decide)]
  decide +kernel

end Ccpy.LeftCcsd
