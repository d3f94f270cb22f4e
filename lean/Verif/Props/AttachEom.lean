import Verif.Lemmas.AttachChecks
import Verif.Lemmas.CcElements
import Verif.Props.EomCcsd

/-! **C73** Electron-attachment and ionisation EOM-CCSD with two-particle-one-hole and two-hole-one-particle excitations: the
matrix-vector products are the commutators of the similarity-transformed Hamiltonian with the operator that adds or removes an
electron, projected on the determinants with one electron more or less.

The programs are `build_hbar_ccsd` (`/repo/ccpy/hbar/hbar_ccsd.py:4-304`) with `flag_RHF=False`, which turns the stored Hamiltonian
into the intermediates, and `HR` of `/repo/ccpy/eomcc/eaeom2.py:24-72` and `/repo/ccpy/eomcc/ipeom2.py:25-74`.  Arrays 6 to 10
hold the cluster amplitudes, 11 to 13 the amplitudes of the operator. -/

variable {ι : Type*} [LinearOrder ι]

namespace Ccpy.EaEom
open Ccpy.Fock Ccpy.Tensor Ccpy.Engine Ccpy.HbarCcsd

section
variable {S : Orbitals ι} (h : S.Proper) {Z : Fock.Integrals} (hZ : Z.Antisym) {T : Cluster} (hT : T.Antisym)
  {R : Attachment} (hR : R.Antisym)
include h hZ hT hR

theorem C73_ea_a {a : ℕ} (ha : a < S.ua) :
    value S Z (joined T R.amp) right.a [a]
      = S.element (cre (S.virA a) S.ref)
        (transformed S Z T * R.operator S - R.operator S * transformed S Z T) := by
  have hρ : ExtOk (dimS S) [1] (env [1] [a]) := fun v hv => by
    simp only [List.mem_cons, List.not_mem_nil, or_false] at hv
    subst hv; assumption
  refine (value_commP h hZ hT right_parts (Attachment.anti_parts hR) right_table_eq (p := ⟨11, [1], 1, [1], [(true, 0)]⟩) (by simp [Attachment.parts]) (vs := [1]) rfl (by decide) rfl
    right_check_a hρ).trans ?_
  rw [← Attachment.operator_eq]
  rfl

theorem C73_ea_aa {a b j : ℕ} (ha : a < S.ua) (hb : b < S.ua) (hj : j < S.na) :
    value S Z (joined T R.amp) right.aa [a, b, j]
      = S.element ((cre (S.virA a) * cre (S.virA b) * ann (S.occA j)) S.ref)
        (transformed S Z T * R.operator S - R.operator S * transformed S Z T) := by
  have hρ : ExtOk (dimS S) [1, 5, 8] (env [1, 5, 8] [a, b, j]) := fun v hv => by
    simp only [List.mem_cons, List.not_mem_nil, or_false] at hv
    rcases hv with rfl | rfl | rfl <;> assumption
  refine (value_commP h hZ hT right_parts (Attachment.anti_parts hR) right_table_eq (p := ⟨12, [1, 1, 0], 2, [2, 1], [(true, 0), (true, 1), (false, 2)]⟩) (by simp [Attachment.parts]) (vs := [1, 5, 8]) rfl (by decide) rfl
    right_check_aa hρ).trans ?_
  rw [← Attachment.operator_eq]
  rfl

theorem C73_ea_ab {a b j : ℕ} (ha : a < S.ua) (hb : b < S.ub) (hj : j < S.nb) :
    value S Z (joined T R.amp) right.ab [a, b, j]
      = S.element ((cre (S.virA a) * cre (S.virB b) * ann (S.occB j)) S.ref)
        (transformed S Z T * R.operator S - R.operator S * transformed S Z T) := by
  have hρ : ExtOk (dimS S) [1, 7, 10] (env [1, 7, 10] [a, b, j]) := fun v hv => by
    simp only [List.mem_cons, List.not_mem_nil, or_false] at hv
    rcases hv with rfl | rfl | rfl <;> assumption
  refine (value_commP h hZ hT right_parts (Attachment.anti_parts hR) right_table_eq (p := ⟨13, [1, 3, 2], 1, [1, 1, 1], [(true, 0), (true, 1), (false, 2)]⟩) (by simp [Attachment.parts]) (vs := [1, 7, 10]) rfl (by decide) rfl
    right_check_ab hρ).trans ?_
  rw [← Attachment.operator_eq]
  rfl

end

/-- All contractions join axes of the same orbital space and all sums have equal shapes, so `numpy` raises no error; the
blocks of the result have the shapes of the amplitudes. -/
theorem C73_ea_shapes :
    (right.a.ok = true ∧ right.a.axes = [1])
    ∧ (right.aa.ok = true ∧ right.aa.axes = [1, 1, 0])
    ∧ (right.ab.ok = true ∧ right.ab.axes = [1, 3, 2]) := by
  refine ⟨⟨?_, ?_⟩, ⟨?_, ?_⟩, ⟨?_, ?_⟩⟩ <;> rfl

end Ccpy.EaEom

namespace Ccpy.IpEom
open Ccpy.Fock Ccpy.Tensor Ccpy.Engine Ccpy.HbarCcsd

section
variable {S : Orbitals ι} (h : S.Proper) {Z : Fock.Integrals} (hZ : Z.Antisym) {T : Cluster} (hT : T.Antisym)
  {R : Ionisation} (hR : R.Antisym)
include h hZ hT hR

theorem C73_ip_a {i : ℕ} (hi : i < S.na) :
    value S Z (joined T R.amp) right.a [i]
      = S.element (ann (S.occA i) S.ref)
        (transformed S Z T * R.operator S - R.operator S * transformed S Z T) := by
  have hρ : ExtOk (dimS S) [0] (env [0] [i]) := fun v hv => by
    simp only [List.mem_cons, List.not_mem_nil, or_false] at hv
    subst hv; assumption
  refine (value_commP h hZ hT right_parts (Ionisation.anti_parts hR) right_table_eq (p := ⟨11, [0], 1, [1], [(false, 0)]⟩) (by simp [Ionisation.parts]) (vs := [0]) rfl (by decide) rfl
    right_check_a hρ).trans ?_
  rw [← Ionisation.operator_eq]
  rfl

theorem C73_ip_aa {i b j : ℕ} (hi : i < S.na) (hb : b < S.ua) (hj : j < S.na) :
    value S Z (joined T R.amp) right.aa [i, b, j]
      = S.element ((cre (S.virA b) * ann (S.occA j) * ann (S.occA i)) S.ref)
        (transformed S Z T * R.operator S - R.operator S * transformed S Z T) := by
  have hρ : ExtOk (dimS S) [0, 5, 8] (env [0, 5, 8] [i, b, j]) := fun v hv => by
    simp only [List.mem_cons, List.not_mem_nil, or_false] at hv
    rcases hv with rfl | rfl | rfl <;> assumption
  refine (value_commP h hZ hT right_parts (Ionisation.anti_parts hR) right_table_eq (p := ⟨12, [1, 0, 0], 2, [1, 2], [(true, 0), (false, 2), (false, 1)]⟩) (by simp [Ionisation.parts]) (vs := [5, 0, 8]) rfl (by decide) rfl
    right_check_aa hρ).trans ?_
  rw [← Ionisation.operator_eq]
  rfl

theorem C73_ip_ab {i b j : ℕ} (hi : i < S.na) (hb : b < S.ub) (hj : j < S.nb) :
    value S Z (joined T R.amp) right.ab [i, b, j]
      = S.element ((cre (S.virB b) * ann (S.occB j) * ann (S.occA i)) S.ref)
        (transformed S Z T * R.operator S - R.operator S * transformed S Z T) := by
  have hρ : ExtOk (dimS S) [0, 7, 10] (env [0, 7, 10] [i, b, j]) := fun v hv => by
    simp only [List.mem_cons, List.not_mem_nil, or_false] at hv
    rcases hv with rfl | rfl | rfl <;> assumption
  refine (value_commP h hZ hT right_parts (Ionisation.anti_parts hR) right_table_eq (p := ⟨13, [0, 3, 2], 1, [1, 1, 1], [(true, 1), (false, 2), (false, 0)]⟩) (by simp [Ionisation.parts]) (vs := [0, 7, 10]) rfl (by decide) rfl
    right_check_ab hρ).trans ?_
  rw [← Ionisation.operator_eq]
  rfl

end

/-- All contractions join axes of the same orbital space and all sums have equal shapes, so `numpy` raises no error; the
blocks of the result have the shapes of the amplitudes. -/
theorem C73_ip_shapes :
    (right.a.ok = true ∧ right.a.axes = [0])
    ∧ (right.aa.ok = true ∧ right.aa.axes = [0, 1, 0])
    ∧ (right.ab.ok = true ∧ right.ab.axes = [0, 3, 2]) := by
  refine ⟨⟨?_, ?_⟩, ⟨?_, ?_⟩, ⟨?_, ?_⟩⟩ <;> rfl

end Ccpy.IpEom


/-! ### A concrete case -/

namespace Ccpy.EaEom
open Ccpy.Fock Ccpy.Tensor Ccpy.HbarCcsd Ccpy.EomCcsd

def smallAttachment : Attachment := ⟨fun _ => 2, fun _ _ _ => 0, fun _ _ _ => 3⟩
theorem smallAttachment_antisym : smallAttachment.Antisym := ⟨fun _ _ _ => rfl⟩

/-- An electron is added to an orbital with spin up while the electron with spin down is excited. -/
example : smallOrbitals.element ((cre (smallOrbitals.virA 0) * cre (smallOrbitals.virB 0) * ann (smallOrbitals.occB 0)) smallOrbitals.ref)
    (transformed smallOrbitals smallIntegrals smallCluster * smallAttachment.operator smallOrbitals
      - smallAttachment.operator smallOrbitals * transformed smallOrbitals smallIntegrals smallCluster) = -207 := by
  rw [← C73_ea_ab smallOrbitals_proper smallIntegrals_antisym smallCluster_antisym smallAttachment_antisym
    (by decide) (by decide) (by decide)]
  decide +kernel

end Ccpy.EaEom

namespace Ccpy.IpEom
open Ccpy.Fock Ccpy.Tensor Ccpy.HbarCcsd Ccpy.EomCcsd

def smallIonisation : Ionisation := ⟨fun _ => 2, fun _ _ _ => 0, fun _ _ _ => 3⟩
theorem smallIonisation_antisym : smallIonisation.Antisym := ⟨fun _ _ _ => rfl⟩

/-- The electron with spin up is removed while the one with spin down is excited. -/
example : smallOrbitals.element ((cre (smallOrbitals.virB 0) * ann (smallOrbitals.occB 0) * ann (smallOrbitals.occA 0)) smallOrbitals.ref)
    (transformed smallOrbitals smallIntegrals smallCluster * smallIonisation.operator smallOrbitals
      - smallIonisation.operator smallOrbitals * transformed smallOrbitals smallIntegrals smallCluster) = -28 := by
  rw [← C73_ip_ab smallOrbitals_proper smallIntegrals_antisym smallCluster_antisym smallIonisation_antisym
    (by decide) (by decide) (by decide)]
  decide +kernel

end Ccpy.IpEom
