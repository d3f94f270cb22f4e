import Verif.Lemmas.DoubleAttachChecks
import Verif.Lemmas.CcElements
import Verif.Props.EomCcsd
import Mathlib.Tactic.Ring

/-! **C75** Double electron-attachment and double ionisation EOM-CCSD with three-particle-one-hole and three-hole-one-particle
excitations: the matrix-vector products are the commutators of the similarity-transformed Hamiltonian with the operator that
adds or removes two electrons of different spins, projected on the determinants with two electrons more or less.

The programs are `build_hbar_ccsd` (`/repo/ccpy/hbar/hbar_ccsd.py:4-304`) and `HR` of `/repo/ccpy/eomcc/deaeom2.py:21-30`,
`/repo/ccpy/eomcc/deaeom3.py:26-124` and `/repo/ccpy/eomcc/dipeom3.py:26-117`, all with `flag_RHF=False`. -/

variable {ι : Type*} [LinearOrder ι]

namespace Ccpy.DeaEom2
open Ccpy.Fock Ccpy.Tensor Ccpy.Engine Ccpy.HbarCcsd

section
variable {S : Orbitals ι} (h : S.Proper) {Z : Fock.Integrals} (hZ : Z.Antisym) {T : Cluster} (hT : T.Antisym)
  {R : PairAttachment} (hR : R.Antisym)
include h hZ hT hR

theorem C75_dea2_ab {a b : ℕ} (ha : a < S.ua) (hb : b < S.ub) :
    value S Z (joined T R.amp) right [a, b]
      = S.element ((cre (S.virA a) * cre (S.virB b)) S.ref)
        (transformed S Z T * R.operator S - R.operator S * transformed S Z T) := by
  have hρ : ExtOk (dimS S) [1, 7] (env [1, 7] [a, b]) := fun v hv => by
    simp only [List.mem_cons, List.not_mem_nil, or_false] at hv
    rcases hv with rfl | rfl <;> assumption
  refine (value_commP h hZ hT right_parts (PairAttachment.anti_parts hR) right_table_eq (p := ⟨11, [1, 3], 1, [1, 1], [(true, 0), (true, 1)]⟩) (by simp [PairAttachment.parts]) (vs := [1, 7]) rfl (by decide) rfl
    right_check_ab hρ).trans ?_
  rw [← PairAttachment.operator_eq]
  rfl

end

theorem C75_dea2_shapes : (right.ok = true ∧ right.axes = [1, 3]) := ⟨rfl, rfl⟩

end Ccpy.DeaEom2

namespace Ccpy.DeaEom
open Ccpy.Fock Ccpy.Tensor Ccpy.Engine Ccpy.HbarCcsd

section
variable {S : Orbitals ι} (h : S.Proper) {Z : Fock.Integrals} (hZ : Z.Antisym) {T : Cluster} (hT : T.Antisym)
  {R : DoubleAttachment} (hR : R.Antisym)
include h hZ hT hR

theorem C75_dea_ab {a b : ℕ} (ha : a < S.ua) (hb : b < S.ub) :
    value S Z (joined T R.amp) right.ab [a, b]
      = S.element ((cre (S.virA a) * cre (S.virB b)) S.ref)
        (transformed S Z T * R.operator S - R.operator S * transformed S Z T) := by
  have hρ : ExtOk (dimS S) [1, 7] (env [1, 7] [a, b]) := fun v hv => by
    simp only [List.mem_cons, List.not_mem_nil, or_false] at hv
    rcases hv with rfl | rfl <;> assumption
  refine (value_commP h hZ hT right_parts (DoubleAttachment.anti_parts hR) right_table_eq (p := ⟨11, [1, 3], 1, [1, 1], [(true, 0), (true, 1)]⟩) (by simp [DoubleAttachment.parts]) (vs := [1, 7]) rfl (by decide) rfl
    right_check_ab hρ).trans ?_
  rw [← DoubleAttachment.operator_eq]
  rfl

theorem C75_dea_aba {a b c k : ℕ} (ha : a < S.ua) (hb : b < S.ub) (hc : c < S.ua) (hk : k < S.na) :
    value S Z (joined T R.amp) right.aba [a, b, c, k]
      = S.element ((cre (S.virA a) * cre (S.virB b) * cre (S.virA c) * ann (S.occA k)) S.ref)
        (transformed S Z T * R.operator S - R.operator S * transformed S Z T) := by
  have hρ : ExtOk (dimS S) [1, 7, 9, 12] (env [1, 7, 9, 12] [a, b, c, k]) := fun v hv => by
    simp only [List.mem_cons, List.not_mem_nil, or_false] at hv
    rcases hv with rfl | rfl | rfl | rfl <;> assumption
  refine (value_commP h hZ hT right_parts (DoubleAttachment.anti_parts hR) right_table_eq (p := ⟨12, [1, 1, 3, 0], 2, [2, 1, 1], [(true, 0), (true, 2), (true, 1), (false, 3)]⟩) (by simp [DoubleAttachment.parts]) (vs := [1, 9, 7, 12]) rfl (by decide) rfl
    right_check_aba hρ).trans ?_
  rw [← DoubleAttachment.operator_eq]
  rfl

theorem C75_dea_abb {a b c k : ℕ} (ha : a < S.ua) (hb : b < S.ub) (hc : c < S.ub) (hk : k < S.nb) :
    value S Z (joined T R.amp) right.abb [a, b, c, k]
      = S.element ((cre (S.virA a) * cre (S.virB b) * cre (S.virB c) * ann (S.occB k)) S.ref)
        (transformed S Z T * R.operator S - R.operator S * transformed S Z T) := by
  have hρ : ExtOk (dimS S) [1, 7, 11, 14] (env [1, 7, 11, 14] [a, b, c, k]) := fun v hv => by
    simp only [List.mem_cons, List.not_mem_nil, or_false] at hv
    rcases hv with rfl | rfl | rfl | rfl <;> assumption
  refine (value_commP h hZ hT right_parts (DoubleAttachment.anti_parts hR) right_table_eq (p := ⟨13, [1, 3, 3, 2], 2, [1, 2, 1], [(true, 0), (true, 1), (true, 2), (false, 3)]⟩) (by simp [DoubleAttachment.parts]) (vs := [1, 7, 11, 14]) rfl (by decide) rfl
    right_check_abb hρ).trans ?_
  rw [← DoubleAttachment.operator_eq]
  rfl

end

/-- All contractions join axes of the same orbital space and all sums have equal shapes, so `numpy` raises no error; the
blocks of the result have the shapes of the amplitudes. -/
theorem C75_dea_shapes :
    (right.ab.ok = true ∧ right.ab.axes = [1, 3])
    ∧ (right.aba.ok = true ∧ right.aba.axes = [1, 3, 1, 0])
    ∧ (right.abb.ok = true ∧ right.abb.axes = [1, 3, 3, 2]) := by
  refine ⟨⟨?_, ?_⟩, ⟨?_, ?_⟩, ⟨?_, ?_⟩⟩ <;> rfl

end Ccpy.DeaEom

namespace Ccpy.DipEom
open Ccpy.Fock Ccpy.Tensor Ccpy.Engine Ccpy.HbarCcsd

section
variable {S : Orbitals ι} (h : S.Proper) {Z : Fock.Integrals} (hZ : Z.Antisym) {T : Cluster} (hT : T.Antisym)
  {R : DoubleIonisation} (hR : R.Antisym)
include h hZ hT hR

theorem C75_dip_ab {i j : ℕ} (hi : i < S.na) (hj : j < S.nb) :
    value S Z (joined T R.amp) right.ab [i, j]
      = S.element ((ann (S.occB j) * ann (S.occA i)) S.ref)
        (transformed S Z T * R.operator S - R.operator S * transformed S Z T) := by
  have hρ : ExtOk (dimS S) [0, 6] (env [0, 6] [i, j]) := fun v hv => by
    simp only [List.mem_cons, List.not_mem_nil, or_false] at hv
    rcases hv with rfl | rfl <;> assumption
  refine (value_commP h hZ hT right_parts (DoubleIonisation.anti_parts hR) right_table_eq (p := ⟨11, [0, 2], 1, [1, 1], [(false, 1), (false, 0)]⟩) (by simp [DoubleIonisation.parts]) (vs := [0, 6]) rfl (by decide) rfl
    right_check_ab hρ).trans ?_
  rw [← DoubleIonisation.operator_eq]
  rfl

theorem C75_dip_aba {i j c k : ℕ} (hi : i < S.na) (hj : j < S.nb) (hc : c < S.ua) (hk : k < S.na) :
    value S Z (joined T R.amp) right.aba [i, j, c, k]
      = S.element ((cre (S.virA c) * ann (S.occA k) * ann (S.occB j) * ann (S.occA i)) S.ref)
        (transformed S Z T * R.operator S - R.operator S * transformed S Z T) := by
  have hρ : ExtOk (dimS S) [0, 6, 9, 12] (env [0, 6, 9, 12] [i, j, c, k]) := fun v hv => by
    simp only [List.mem_cons, List.not_mem_nil, or_false] at hv
    rcases hv with rfl | rfl | rfl | rfl <;> assumption
  refine (value_commP h hZ hT right_parts (DoubleIonisation.anti_parts hR) right_table_eq (p := ⟨12, [1, 2, 0, 0], 2, [1, 1, 2], [(true, 0), (false, 3), (false, 1), (false, 2)]⟩) (by simp [DoubleIonisation.parts]) (vs := [9, 6, 0, 12]) rfl (by decide) rfl
    right_check_aba hρ).trans ?_
  rw [← DoubleIonisation.operator_eq]
  rfl

theorem C75_dip_abb {i j c k : ℕ} (hi : i < S.na) (hj : j < S.nb) (hc : c < S.ub) (hk : k < S.nb) :
    value S Z (joined T R.amp) right.abb [i, j, c, k]
      = S.element ((cre (S.virB c) * ann (S.occB k) * ann (S.occB j) * ann (S.occA i)) S.ref)
        (transformed S Z T * R.operator S - R.operator S * transformed S Z T) := by
  have hρ : ExtOk (dimS S) [0, 6, 11, 14] (env [0, 6, 11, 14] [i, j, c, k]) := fun v hv => by
    simp only [List.mem_cons, List.not_mem_nil, or_false] at hv
    rcases hv with rfl | rfl | rfl | rfl <;> assumption
  refine (value_commP h hZ hT right_parts (DoubleIonisation.anti_parts hR) right_table_eq (p := ⟨13, [0, 3, 2, 2], 2, [1, 1, 2], [(true, 1), (false, 3), (false, 2), (false, 0)]⟩) (by simp [DoubleIonisation.parts]) (vs := [0, 11, 6, 14]) rfl (by decide) rfl
    right_check_abb hρ).trans ?_
  rw [← DoubleIonisation.operator_eq]
  rfl

end

/-- All contractions join axes of the same orbital space and all sums have equal shapes, so `numpy` raises no error; the
blocks of the result have the shapes of the amplitudes. -/
theorem C75_dip_shapes :
    (right.ab.ok = true ∧ right.ab.axes = [0, 2])
    ∧ (right.aba.ok = true ∧ right.aba.axes = [0, 2, 1, 0])
    ∧ (right.abb.ok = true ∧ right.abb.axes = [0, 2, 3, 2]) := by
  refine ⟨⟨?_, ?_⟩, ⟨?_, ?_⟩, ⟨?_, ?_⟩⟩ <;> rfl

end Ccpy.DipEom


/-! ### A concrete case -/

namespace Ccpy.DeaEom
open Ccpy.Fock Ccpy.Tensor Ccpy.HbarCcsd Ccpy.EomCcsd

/-- Three orbitals, two electrons with spin up and one with spin down. -/
def threeOrbitals : Orbitals ℕ := ⟨3, 2, 1, fun p => 2 * p, fun p => 2 * p + 1⟩

theorem threeOrbitals_proper : threeOrbitals.Proper where
  up_inj := fun p q h => by simp only [threeOrbitals] at h; omega
  down_inj := fun p q h => by simp only [threeOrbitals] at h; omega
  ne := fun p q h => by simp only [threeOrbitals] at h; omega
  ha := by decide
  hb := by decide

def pair : PairAttachment := ⟨fun a b => a + 2 * b + 1⟩
theorem pair_antisym : pair.Antisym := ⟨⟩
def smallDouble : DoubleAttachment := ⟨fun a b => a + 2 * b + 1, fun _ _ _ _ => 0, fun a b c k => (a + k + 1) * (b - c)⟩
theorem smallDouble_antisym : smallDouble.Antisym :=
  ⟨fun _ _ _ _ => rfl, fun a b c k => by simp only [smallDouble]; ring⟩

example : threeOrbitals.element ((cre (threeOrbitals.virA 0) * cre (threeOrbitals.virB 1)) threeOrbitals.ref)
    (transformed threeOrbitals smallIntegrals smallCluster * pair.operator threeOrbitals
      - pair.operator threeOrbitals * transformed threeOrbitals smallIntegrals smallCluster) = -1651 := by
  rw [← DeaEom2.C75_dea2_ab threeOrbitals_proper smallIntegrals_antisym smallCluster_antisym pair_antisym
    (by decide) (by decide)]
  decide +kernel

example : threeOrbitals.element ((cre (threeOrbitals.virA 0) * cre (threeOrbitals.virB 1)) threeOrbitals.ref)
    (transformed threeOrbitals smallIntegrals smallCluster * smallDouble.operator threeOrbitals
      - smallDouble.operator threeOrbitals * transformed threeOrbitals smallIntegrals smallCluster) = -1620 := by
  rw [← C75_dea_ab threeOrbitals_proper smallIntegrals_antisym smallCluster_antisym smallDouble_antisym
    (by decide) (by decide)]
  decide +kernel

example : threeOrbitals.element ((cre (threeOrbitals.virA 0) * cre (threeOrbitals.virB 1) * cre (threeOrbitals.virB 0) * ann (threeOrbitals.occB 0)) threeOrbitals.ref)
    (transformed threeOrbitals smallIntegrals smallCluster * smallDouble.operator threeOrbitals
      - smallDouble.operator threeOrbitals * transformed threeOrbitals smallIntegrals smallCluster) = 918 := by
  rw [← C75_dea_abb threeOrbitals_proper smallIntegrals_antisym smallCluster_antisym smallDouble_antisym
    (by decide) (by decide) (by decide) (by decide)]
  decide +kernel

end Ccpy.DeaEom

namespace Ccpy.DipEom
open Ccpy.Fock Ccpy.Tensor Ccpy.HbarCcsd Ccpy.EomCcsd Ccpy.DeaEom

def smallDouble : DoubleIonisation := ⟨fun i j => i + 2 * j + 1, fun i j c k => (i - k) * (c + j + 1), fun _ _ _ _ => 0⟩
theorem smallDouble_antisym : smallDouble.Antisym :=
  ⟨fun i j c k => by simp only [smallDouble]; ring, fun _ _ _ _ => rfl⟩

example : threeOrbitals.element ((ann (threeOrbitals.occB 0) * ann (threeOrbitals.occA 1)) threeOrbitals.ref)
    (transformed threeOrbitals smallIntegrals smallCluster * DipEom.smallDouble.operator threeOrbitals
      - DipEom.smallDouble.operator threeOrbitals * transformed threeOrbitals smallIntegrals smallCluster) = -1431 := by
  rw [← C75_dip_ab threeOrbitals_proper smallIntegrals_antisym smallCluster_antisym DipEom.smallDouble_antisym
    (by decide) (by decide)]
  decide +kernel

example : threeOrbitals.element ((cre (threeOrbitals.virA 0) * ann (threeOrbitals.occA 0) * ann (threeOrbitals.occB 0) * ann (threeOrbitals.occA 1)) threeOrbitals.ref)
    (transformed threeOrbitals smallIntegrals smallCluster * DipEom.smallDouble.operator threeOrbitals
      - DipEom.smallDouble.operator threeOrbitals * transformed threeOrbitals smallIntegrals smallCluster) = 32 := by
  rw [← C75_dip_aba threeOrbitals_proper smallIntegrals_antisym smallCluster_antisym DipEom.smallDouble_antisym
    (by decide) (by decide) (by decide) (by decide)]
  decide +kernel

end Ccpy.DipEom
