import Verif.Lemmas.LrCcsd
import Verif.Props.EomCcsd

/-! **C92** Linear-response CCSD: the arrays that the program calls residuals are the projections of
`[e^{-T} H e^{T}, R] + e^{-T} W e^{T}` on the excited determinants, and the property is the projection on the reference
determinant.

The programs are `/repo/ccpy/lrcc/lrccsd.py`, `/repo/ccpy/lrcc/lrccsd_intermediates.py`, `/repo/ccpy/energy/lrcc_energy.py` and
`build_hbar_ccsd` (`/repo/ccpy/hbar/hbar_ccsd.py`), with `flag_RHF=False`.  Arrays 6 to 10 hold the cluster amplitudes, 11 to 15 the
response amplitudes `R`, 26 to 33 the blocks of the property `W`.  `X` is the storage for intermediates; the intermediates of
`get_lrccsd_intermediates` are those of the amplitudes that the update functions receive. -/

namespace Ccpy.LrCcsd
open Ccpy.Fock Ccpy.Tensor Ccpy.HbarCcsd Ccpy.EomCcsd

variable {ι : Type*} [LinearOrder ι]

section
variable {S : Orbitals ι} (h : S.Proper) {Z : Fock.Integrals} (hZ : Z.Antisym) {T : Cluster} (hT : T.Antisym)
  {R : Cluster} (hR : R.Antisym) (W : OneElectron) (X : Ints)
include h hZ hT hR

theorem C92_1a {a i : ℕ} (ha : a < S.ua) (hi : i < S.na) :
    value S Z (responseStore S T R W)
        (residualT1a excitation amplitudes property (buildHbarCcsd amplitudes stored false)) [a, i]
      = S.element (S.singleA a i) (response S Z T R W) :=
  value_1a h hZ hT hR W ha hi

theorem C92_1b {a i : ℕ} (ha : a < S.ub) (hi : i < S.nb) :
    value S Z (responseStore S T R W)
        (residualT1b excitation amplitudes property (buildHbarCcsd amplitudes stored false)) [a, i]
      = S.element (S.singleB a i) (response S Z T R W) :=
  value_1b h hZ hT hR W ha hi

/-- For equal spins the sum over exchanges that the kernel forms is the projection. -/
theorem C92_2a {a b i j : ℕ} (ha : a < S.ua) (hb : b < S.ua) (hi : i < S.na) (hj : j < S.na) :
    let H := buildHbarCcsd amplitudes stored false
    let D := value S Z (responseStore S T R W)
      (residualT2a excitation amplitudes property (getLrccsdIntermediates X H excitation) H)
    D [a, b, i, j] - D [b, a, i, j] - D [a, b, j, i] + D [b, a, j, i]
      = S.element (S.doubleAA a b i j) (response S Z T R W) :=
  (Ccsd.denote_anti _ _ _ a b i j).symm.trans (value_2a h hZ hT hR W ha hb hi hj)

theorem C92_2c {a b i j : ℕ} (ha : a < S.ub) (hb : b < S.ub) (hi : i < S.nb) (hj : j < S.nb) :
    let H := buildHbarCcsd amplitudes stored false
    let D := value S Z (responseStore S T R W)
      (residualT2c excitation amplitudes property (getLrccsdIntermediates X H excitation) H)
    D [a, b, i, j] - D [b, a, i, j] - D [a, b, j, i] + D [b, a, j, i]
      = S.element (S.doubleBB a b i j) (response S Z T R W) :=
  (Ccsd.denote_anti _ _ _ a b i j).symm.trans (value_2c h hZ hT hR W ha hb hi hj)

/-- The part of the property that holds for `update_t2b`: the numbers of electrons of the two spins are equal, and so are the
matrices of the property.  Missing: other numbers of electrons and properties that depend on the spin, see
`C92_2b_fails` and `C92_shape_fails`. -/
theorem C92_2b_partial (hn : S.na = S.nb) (hW : W.a = W.b) {a b i j : ℕ} (ha : a < S.ua) (hb : b < S.ub) (hi : i < S.na)
    (hj : j < S.nb) :
    let H := buildHbarCcsd amplitudes stored false
    value S Z (responseStore S T R W)
        (residualT2b excitation amplitudes property (getLrccsdIntermediates X H excitation) H) [a, b, i, j]
      = S.element (S.doubleAB a b i j) (response S Z T R W) :=
  (bad_good Z T R W hn hW a b i j).trans (value_2b h hZ hT hR W ha hb hi hj)

/-- The value of the property without the contribution of the reference determinant, `Σ_i w_ii`. -/
theorem C92_property :
    value S Z (responseStore S T R W)
        (getLrccEnergy excitation property amplitudes (buildHbarCcsd amplitudes stored false)) []
      = S.element S.ref (response S Z T R W) - ∑ i ∈ Finset.range S.na, W.a i i - ∑ i ∈ Finset.range S.nb, W.b i i := by
  rw [← value_0 h hZ hT hR W]
  show _ = value S Z (responseStore S T R W)
    (getLrccEnergy excitation property amplitudes (buildHbarCcsd amplitudes stored false)) [] + _ + _ - _ - _
  ring
end

/-- Outside `update_t2b` all contractions join axes of the same orbital space and all sums have equal shapes, so `numpy` raises no
error. -/
theorem C92_shapes (X : Ints) :
    let H := buildHbarCcsd amplitudes stored false
    let Y := getLrccsdIntermediates X H excitation
    ((residualT1a excitation amplitudes property H).ok = true ∧ (residualT1a excitation amplitudes property H).axes = [1, 0])
    ∧ ((residualT1b excitation amplitudes property H).ok = true ∧ (residualT1b excitation amplitudes property H).axes = [3, 2])
    ∧ ((residualT2a excitation amplitudes property Y H).ok = true
      ∧ (residualT2a excitation amplitudes property Y H).axes = [1, 1, 0, 0])
    ∧ ((residualT2c excitation amplitudes property Y H).ok = true
      ∧ (residualT2c excitation amplitudes property Y H).axes = [3, 3, 2, 2])
    ∧ (getLrccEnergy excitation property amplitudes H).ok = true := by
  refine ⟨⟨?_, ?_⟩, ⟨?_, ?_⟩, ⟨?_, ?_⟩, ⟨?_, ?_⟩, ?_⟩ <;> rfl

/-- In `update_t2b` of linear-response CCSD the shapes do not fit: `I1B_oo` is formed by adding an array over the occupied orbitals with
spin up (`W.a.oo`) to one over the occupied orbitals with spin down, so that `numpy` cannot evaluate the function for all open-shell
systems. -/
theorem C92_shape_fails (X : Ints) :
    let H := buildHbarCcsd amplitudes stored false
    (residualT2b excitation amplitudes property (getLrccsdIntermediates X H excitation) H).ok = false
    ∧ property.a.oo.axes = [0, 0] ∧ (es% "me,ei->mi" property.b.ov, amplitudes.b).axes = [2, 2] := by
  refine ⟨?_, ?_, ?_⟩ <;> rfl

/-! ### A concrete case -/

/-- A property that differs for the two spins. -/
def smallProperty : OneElectron := ⟨fun p q => p + 2 * q + 1, fun p q => 3 * p - q⟩
/-- A property that is the same for the two spins. -/
def spinFree : OneElectron := ⟨fun p q => p + 2 * q + 1, fun p q => p + 2 * q + 1⟩

/-- The projection on the simultaneous excitation of both electrons, from the program. -/
example : smallOrbitals.element (smallOrbitals.doubleAB 0 0 0 0)
    (response smallOrbitals smallIntegrals smallCluster smallExcitation spinFree) = -584 := by
  rw [← C92_2b_partial smallOrbitals_proper smallIntegrals_antisym smallCluster_antisym smallExcitation_antisym spinFree stored rfl rfl
    (by decide) (by decide) (by decide) (by decide)]
  decide +kernel

/-- The property, from the program. -/
example : smallOrbitals.element smallOrbitals.ref
    (response smallOrbitals smallIntegrals smallCluster smallExcitation smallProperty) = 36 := by
  have e := C92_property smallOrbitals_proper smallIntegrals_antisym smallCluster_antisym smallExcitation_antisym smallProperty
  have v : value smallOrbitals smallIntegrals (responseStore smallOrbitals smallCluster smallExcitation smallProperty)
    (getLrccEnergy excitation property amplitudes (buildHbarCcsd amplitudes stored false)) [] = 35 := by decide +kernel
  rw [v] at e
  simp [smallOrbitals, smallProperty] at e ⊢
  linarith

/-- `update_t2b` of linear-response CCSD forms the intermediates for spin down from the blocks of the property for spin up: for a property
that depends on the spin the residual is not the projection. -/
theorem C92_2b_fails : ∃ (S : Orbitals ℕ) (Z : Fock.Integrals) (T R : Cluster) (W : OneElectron), S.Proper ∧ Z.Antisym ∧ T.Antisym
    ∧ R.Antisym ∧ S.na = S.nb ∧ 0 < S.ua ∧ 0 < S.ub ∧ 0 < S.na ∧ ∀ X,
      let H := buildHbarCcsd amplitudes stored false
      value S Z (responseStore S T R W)
          (residualT2b excitation amplitudes property (getLrccsdIntermediates X H excitation) H) [0, 0, 0, 0]
        ≠ S.element (S.doubleAB 0 0 0 0) (response S Z T R W) := by
  refine ⟨smallOrbitals, smallIntegrals, smallCluster, smallExcitation, smallProperty, smallOrbitals_proper, smallIntegrals_antisym,
    smallCluster_antisym, smallExcitation_antisym, rfl, by decide, by decide, by decide, fun X => ?_⟩
  rw [← value_2b smallOrbitals_proper smallIntegrals_antisym smallCluster_antisym smallExcitation_antisym smallProperty
    (by decide) (by decide) (by decide) (by decide)]
  show value smallOrbitals smallIntegrals (responseStore smallOrbitals smallCluster smallExcitation smallProperty)
    (residualT2b excitation amplitudes property xs hb) [0, 0, 0, 0] ≠ _
  decide +kernel

end Ccpy.LrCcsd
