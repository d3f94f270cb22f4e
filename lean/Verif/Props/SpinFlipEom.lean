import Verif.Lemmas.SpinFlipChecks
import Verif.Lemmas.CcElements
import Verif.Props.DoubleAttachEom

/-! **C76** Spin-flip EOM-CCSD: the matrix-vector product is the commutator of the similarity-transformed Hamiltonian with the operator
that turns the spin of an electron from up to down, projected on the determinants with one spin flipped.

The programs are `build_hbar_ccsd` (`/repo/ccpy/hbar/hbar_ccsd.py:4-304`) with `flag_RHF=False` and `HR` of
`/repo/ccpy/eomcc/sfeomccsd.py:27-97`. -/

variable {ι : Type*} [LinearOrder ι]

namespace Ccpy.SfEom
open Ccpy.Fock Ccpy.Tensor Ccpy.Engine Ccpy.HbarCcsd

section
variable {S : Orbitals ι} (h : S.Proper) {Z : Fock.Integrals} (hZ : Z.Antisym) {T : Cluster} (hT : T.Antisym)
  {R : SpinFlip} (hR : R.Antisym)
include h hZ hT hR

theorem C76_sf_b {a i : ℕ} (ha : a < S.ub) (hi : i < S.na) :
    value S Z (joined T R.amp) right.b [a, i]
      = S.element ((cre (S.virB a) * ann (S.occA i)) S.ref)
        (transformed S Z T * R.operator S - R.operator S * transformed S Z T) := by
  have hρ : ExtOk (dimS S) [3, 4] (env [3, 4] [a, i]) := fun v hv => by
    simp only [List.mem_cons, List.not_mem_nil, or_false] at hv
    rcases hv with rfl | rfl <;> assumption
  refine (value_commP h hZ hT right_parts (SpinFlip.anti_parts hR) right_table_eq (p := ⟨11, [3, 0], 1, [1, 1], [(true, 0), (false, 1)]⟩) (by simp [SpinFlip.parts]) (vs := [3, 4]) rfl (by decide) rfl
    right_check_b hρ).trans ?_
  rw [← SpinFlip.operator_eq]
  rfl

theorem C76_sf_ab {a b i j : ℕ} (ha : a < S.ua) (hb : b < S.ub) (hi : i < S.na) (hj : j < S.na) :
    value S Z (joined T R.amp) right.ab [a, b, i, j]
      = S.element ((cre (S.virA a) * cre (S.virB b) * ann (S.occA j) * ann (S.occA i)) S.ref)
        (transformed S Z T * R.operator S - R.operator S * transformed S Z T) := by
  have hρ : ExtOk (dimS S) [1, 7, 8, 12] (env [1, 7, 8, 12] [a, b, i, j]) := fun v hv => by
    simp only [List.mem_cons, List.not_mem_nil, or_false] at hv
    rcases hv with rfl | rfl | rfl | rfl <;> assumption
  refine (value_commP h hZ hT right_parts (SpinFlip.anti_parts hR) right_table_eq (p := ⟨12, [1, 3, 0, 0], 2, [1, 1, 2], [(true, 0), (true, 1), (false, 3), (false, 2)]⟩) (by simp [SpinFlip.parts]) (vs := [1, 7, 8, 12]) rfl (by decide) rfl
    right_check_ab hρ).trans ?_
  rw [← SpinFlip.operator_eq]
  rfl

theorem C76_sf_bb {a b i j : ℕ} (ha : a < S.ub) (hb : b < S.ub) (hi : i < S.nb) (hj : j < S.na) :
    value S Z (joined T R.amp) right.bb [a, b, i, j]
      = S.element ((cre (S.virB a) * cre (S.virB b) * ann (S.occA j) * ann (S.occB i)) S.ref)
        (transformed S Z T * R.operator S - R.operator S * transformed S Z T) := by
  have hρ : ExtOk (dimS S) [3, 7, 10, 12] (env [3, 7, 10, 12] [a, b, i, j]) := fun v hv => by
    simp only [List.mem_cons, List.not_mem_nil, or_false] at hv
    rcases hv with rfl | rfl | rfl | rfl <;> assumption
  refine (value_commP h hZ hT right_parts (SpinFlip.anti_parts hR) right_table_eq (p := ⟨13, [3, 3, 2, 0], 2, [2, 1, 1], [(true, 0), (true, 1), (false, 3), (false, 2)]⟩) (by simp [SpinFlip.parts]) (vs := [3, 7, 10, 12]) rfl (by decide) rfl
    right_check_bb hρ).trans ?_
  rw [← SpinFlip.operator_eq]
  rfl

end

/-- All contractions join axes of the same orbital space and all sums have equal shapes, so `numpy` raises no error; the
blocks of the result have the shapes of the amplitudes. -/
theorem C76_sf_shapes :
    (right.b.ok = true ∧ right.b.axes = [3, 0])
    ∧ (right.ab.ok = true ∧ right.ab.axes = [1, 3, 0, 0])
    ∧ (right.bb.ok = true ∧ right.bb.axes = [3, 3, 2, 0]) := by
  refine ⟨⟨?_, ?_⟩, ⟨?_, ?_⟩, ⟨?_, ?_⟩⟩ <;> rfl

end Ccpy.SfEom


/-! ### A concrete case -/

namespace Ccpy.SfEom
open Ccpy.Fock Ccpy.Tensor Ccpy.HbarCcsd Ccpy.EomCcsd Ccpy.DeaEom

def smallFlip : SpinFlip :=
  ⟨fun a i => a + 2 * i + 1, fun a b i j => (a + 2 * b + 1) * (i - j), fun a b i j => (i + 2 * j + 1) * (a - b)⟩
theorem smallFlip_antisym : smallFlip.Antisym :=
  ⟨fun a b i j => by simp only [smallFlip]; ring, fun a b i j => by simp only [smallFlip]; ring⟩

example : threeOrbitals.element ((cre (threeOrbitals.virB 1) * ann (threeOrbitals.occA 0)) threeOrbitals.ref)
    (transformed threeOrbitals smallIntegrals smallCluster * smallFlip.operator threeOrbitals
      - smallFlip.operator threeOrbitals * transformed threeOrbitals smallIntegrals smallCluster) = -1354 := by
  rw [← C76_sf_b threeOrbitals_proper smallIntegrals_antisym smallCluster_antisym smallFlip_antisym
    (by decide) (by decide)]
  decide +kernel

example : threeOrbitals.element ((cre (threeOrbitals.virA 0) * cre (threeOrbitals.virB 1) * ann (threeOrbitals.occA 0) * ann (threeOrbitals.occA 1)) threeOrbitals.ref)
    (transformed threeOrbitals smallIntegrals smallCluster * smallFlip.operator threeOrbitals
      - smallFlip.operator threeOrbitals * transformed threeOrbitals smallIntegrals smallCluster) = -3646 := by
  rw [← C76_sf_ab threeOrbitals_proper smallIntegrals_antisym smallCluster_antisym smallFlip_antisym
    (by decide) (by decide) (by decide) (by decide)]
  decide +kernel

end Ccpy.SfEom
