import Verif.Lemmas.LeftAttachChecks
import Verif.Lemmas.CcElements
import Verif.Props.AttachEom

/-! **C74** The left equations of electron-attachment and ionisation EOM-CCSD: the vector-matrix products are the expectation values
of `L [e^{-T} H e^{T}, τ]` for the operators `τ` that add or remove an electron.

The programs are `build_hbar_ccsd` (`/repo/ccpy/hbar/hbar_ccsd.py:4-304`) with `flag_RHF=False` and `LH_fun` of
`/repo/ccpy/left/left_eaeom2.py:19-67` and `/repo/ccpy/left/left_ipeom2.py:19-67`. -/

variable {ι : Type*} [LinearOrder ι]

namespace Ccpy.EaEom
open Ccpy.Fock Ccpy.Tensor Ccpy.Engine Ccpy.HbarCcsd

section
variable {S : Orbitals ι} (h : S.Proper) {Z : Fock.Integrals} (hZ : Z.Antisym) {T : Cluster} (hT : T.Antisym)
  {R : Attachment} (hR : R.Antisym)
include h hZ hT hR

theorem C74_ea_a {a : ℕ} (ha : a < S.ua) :
    value S Z (joined T R.amp) left.a [a]
      = leftElement S Z T (R.adjoint S) (cre (S.virA a)) := by
  have hρ : ExtOk (dimS S) [1] (env [1] [a]) := fun v hv => by
    simp only [List.mem_cons, List.not_mem_nil, or_false] at hv
    subst hv; assumption
  refine (value_leftP h hZ hT left_parts (Attachment.anti_parts hR) left_table_eq (p := ⟨11, [1], 1, [1], [(true, 0)]⟩) (by simp [Attachment.parts]) (vs := [1]) rfl (by decide) rfl left_undo_eq
    left_check_a hρ).trans ?_
  rw [← Attachment.adjoint_eq]
  rfl

theorem C74_ea_aa {a b j : ℕ} (ha : a < S.ua) (hb : b < S.ua) (hj : j < S.na) :
    value S Z (joined T R.amp) left.aa [a, b, j]
      = leftElement S Z T (R.adjoint S) (cre (S.virA a) * cre (S.virA b) * ann (S.occA j)) := by
  have hρ : ExtOk (dimS S) [1, 5, 8] (env [1, 5, 8] [a, b, j]) := fun v hv => by
    simp only [List.mem_cons, List.not_mem_nil, or_false] at hv
    rcases hv with rfl | rfl | rfl <;> assumption
  refine (value_leftP h hZ hT left_parts (Attachment.anti_parts hR) left_table_eq (p := ⟨12, [1, 1, 0], 2, [2, 1], [(true, 0), (true, 1), (false, 2)]⟩) (by simp [Attachment.parts]) (vs := [1, 5, 8]) rfl (by decide) rfl left_undo_eq
    left_check_aa hρ).trans ?_
  rw [← Attachment.adjoint_eq]
  rfl

theorem C74_ea_ab {a b j : ℕ} (ha : a < S.ua) (hb : b < S.ub) (hj : j < S.nb) :
    value S Z (joined T R.amp) left.ab [a, b, j]
      = leftElement S Z T (R.adjoint S) (cre (S.virA a) * cre (S.virB b) * ann (S.occB j)) := by
  have hρ : ExtOk (dimS S) [1, 7, 10] (env [1, 7, 10] [a, b, j]) := fun v hv => by
    simp only [List.mem_cons, List.not_mem_nil, or_false] at hv
    rcases hv with rfl | rfl | rfl <;> assumption
  refine (value_leftP h hZ hT left_parts (Attachment.anti_parts hR) left_table_eq (p := ⟨13, [1, 3, 2], 1, [1, 1, 1], [(true, 0), (true, 1), (false, 2)]⟩) (by simp [Attachment.parts]) (vs := [1, 7, 10]) rfl (by decide) rfl left_undo_eq
    left_check_ab hρ).trans ?_
  rw [← Attachment.adjoint_eq]
  rfl

end

/-- All contractions join axes of the same orbital space and all sums have equal shapes, so `numpy` raises no error; the
blocks of the result have the shapes of the amplitudes. -/
theorem C74_ea_shapes :
    (left.a.ok = true ∧ left.a.axes = [1])
    ∧ (left.aa.ok = true ∧ left.aa.axes = [1, 1, 0])
    ∧ (left.ab.ok = true ∧ left.ab.axes = [1, 3, 2]) := by
  refine ⟨⟨?_, ?_⟩, ⟨?_, ?_⟩, ⟨?_, ?_⟩⟩ <;> rfl

end Ccpy.EaEom

namespace Ccpy.IpEom
open Ccpy.Fock Ccpy.Tensor Ccpy.Engine Ccpy.HbarCcsd

section
variable {S : Orbitals ι} (h : S.Proper) {Z : Fock.Integrals} (hZ : Z.Antisym) {T : Cluster} (hT : T.Antisym)
  {R : Ionisation} (hR : R.Antisym)
include h hZ hT hR

theorem C74_ip_a {i : ℕ} (hi : i < S.na) :
    value S Z (joined T R.amp) left.a [i]
      = leftElement S Z T (R.adjoint S) (ann (S.occA i)) := by
  have hρ : ExtOk (dimS S) [0] (env [0] [i]) := fun v hv => by
    simp only [List.mem_cons, List.not_mem_nil, or_false] at hv
    subst hv; assumption
  refine (value_leftP h hZ hT left_parts (Ionisation.anti_parts hR) left_table_eq (p := ⟨11, [0], 1, [1], [(false, 0)]⟩) (by simp [Ionisation.parts]) (vs := [0]) rfl (by decide) rfl left_undo_eq
    left_check_a hρ).trans ?_
  rw [← Ionisation.adjoint_eq]
  rfl

theorem C74_ip_aa {i b j : ℕ} (hi : i < S.na) (hb : b < S.ua) (hj : j < S.na) :
    value S Z (joined T R.amp) left.aa [i, b, j]
      = leftElement S Z T (R.adjoint S) (cre (S.virA b) * ann (S.occA j) * ann (S.occA i)) := by
  have hρ : ExtOk (dimS S) [0, 5, 8] (env [0, 5, 8] [i, b, j]) := fun v hv => by
    simp only [List.mem_cons, List.not_mem_nil, or_false] at hv
    rcases hv with rfl | rfl | rfl <;> assumption
  refine (value_leftP h hZ hT left_parts (Ionisation.anti_parts hR) left_table_eq (p := ⟨12, [1, 0, 0], 2, [1, 2], [(true, 0), (false, 2), (false, 1)]⟩) (by simp [Ionisation.parts]) (vs := [5, 0, 8]) rfl (by decide) rfl left_undo_eq
    left_check_aa hρ).trans ?_
  rw [← Ionisation.adjoint_eq]
  rfl

theorem C74_ip_ab {i b j : ℕ} (hi : i < S.na) (hb : b < S.ub) (hj : j < S.nb) :
    value S Z (joined T R.amp) left.ab [i, b, j]
      = leftElement S Z T (R.adjoint S) (cre (S.virB b) * ann (S.occB j) * ann (S.occA i)) := by
  have hρ : ExtOk (dimS S) [0, 7, 10] (env [0, 7, 10] [i, b, j]) := fun v hv => by
    simp only [List.mem_cons, List.not_mem_nil, or_false] at hv
    rcases hv with rfl | rfl | rfl <;> assumption
  refine (value_leftP h hZ hT left_parts (Ionisation.anti_parts hR) left_table_eq (p := ⟨13, [0, 3, 2], 1, [1, 1, 1], [(true, 1), (false, 2), (false, 0)]⟩) (by simp [Ionisation.parts]) (vs := [0, 7, 10]) rfl (by decide) rfl left_undo_eq
    left_check_ab hρ).trans ?_
  rw [← Ionisation.adjoint_eq]
  rfl

end

/-- All contractions join axes of the same orbital space and all sums have equal shapes, so `numpy` raises no error; the
blocks of the result have the shapes of the amplitudes. -/
theorem C74_ip_shapes :
    (left.a.ok = true ∧ left.a.axes = [0])
    ∧ (left.aa.ok = true ∧ left.aa.axes = [0, 1, 0])
    ∧ (left.ab.ok = true ∧ left.ab.axes = [0, 3, 2]) := by
  refine ⟨⟨?_, ?_⟩, ⟨?_, ?_⟩, ⟨?_, ?_⟩⟩ <;> rfl

end Ccpy.IpEom


/-! ### A concrete case -/

namespace Ccpy.EaEom
open Ccpy.Fock Ccpy.Tensor Ccpy.HbarCcsd Ccpy.EomCcsd

example : leftElement smallOrbitals smallIntegrals smallCluster (smallAttachment.adjoint smallOrbitals)
    (cre (smallOrbitals.virA 0) * cre (smallOrbitals.virB 0) * ann (smallOrbitals.occB 0)) = -351 := by
  rw [← C74_ea_ab smallOrbitals_proper smallIntegrals_antisym smallCluster_antisym smallAttachment_antisym
    (by decide) (by decide) (by decide)]
  decide +kernel

end Ccpy.EaEom

namespace Ccpy.IpEom
open Ccpy.Fock Ccpy.Tensor Ccpy.HbarCcsd Ccpy.EomCcsd

example : leftElement smallOrbitals smallIntegrals smallCluster (smallIonisation.adjoint smallOrbitals)
    (cre (smallOrbitals.virB 0) * ann (smallOrbitals.occB 0) * ann (smallOrbitals.occA 0)) = -324 := by
  rw [← C74_ip_ab smallOrbitals_proper smallIntegrals_antisym smallCluster_antisym smallIonisation_antisym
    (by decide) (by decide) (by decide)]
  decide +kernel

end Ccpy.IpEom
