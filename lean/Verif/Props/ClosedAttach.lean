import Verif.Lemmas.ClosedHbar
import Verif.Props.LeftAttachEom
import Verif.Props.DoubleAttachEom
import Verif.Props.ClosedShell

/-! **C77** Closed shells: `build_hbar_ccsd` computes the same arrays with `flag_RHF=True` and with `flag_RHF=False`, and the
matrix-vector products of C73 to C75 are right for the intermediates it makes with `flag_RHF=True`, which is what the driver uses
for closed shells (`/repo/ccpy/drivers/driver.py:470-475`).

The programs are those of C73 to C75 after `build_hbar_ccsd` (`/repo/ccpy/hbar/hbar_ccsd.py:4-304`) with `flag_RHF=True`; the flag
of the product is `False` for double attachment and double ionisation. -/

variable {ι : Type*} [LinearOrder ι]

namespace Ccpy.HbarCcsd
open Ccpy.Fock Ccpy.Tensor Ccpy.Engine

/-- The blocks computed by the two branches of `build_hbar_ccsd` have the same elements. -/
theorem C77_hbar {S : Orbitals ι} {Z : Fock.Integrals} (hC : ClosedShell S Z) (hZ : Z.Antisym) {T : Cluster} (hT : T.Antisym)
    (hs : T.Symmetric) :
    List.Forall₂ (fun x y => ∀ idx, idx.length = y.axes.length → value S Z T.amp x idx = value S Z T.amp y idx)
      (blocks (buildHbarCcsd amplitudes stored true)) (blocks (buildHbarCcsd amplitudes stored false)) :=
  (hbar_like hC hZ hT hs fun _ _ _ => rfl).imp fun _ _ h => h.value

end Ccpy.HbarCcsd

namespace Ccpy.EaEom
open Ccpy.Fock Ccpy.Tensor Ccpy.Engine Ccpy.HbarCcsd

/-- The program `HR` after `build_hbar_ccsd` with `flag_RHF=True`. -/
def closedRight : Attached :=
  HR arrays amplitudes (buildHbarCcsd amplitudes stored true)

/-- The program for given blocks of the transformed Hamiltonian. -/
def rightFrom (H : Ints) : Attached := HR arrays amplitudes H

theorem rightFrom_a (H : Ints) : (rightFrom H).a = foldE (put H) (rightFrom named).a := rfl
theorem rightFrom_aa (H : Ints) : (rightFrom H).aa = foldE (put H) (rightFrom named).aa := rfl
theorem rightFrom_ab (H : Ints) : (rightFrom H).ab = foldE (put H) (rightFrom named).ab := rfl

section
variable {S : Orbitals ι} (h : S.Proper) {Z : Fock.Integrals} (hC : ClosedShell S Z) (hZ : Z.Antisym) {T : Cluster}
  (hT : T.Antisym) (hs : T.Symmetric) {R : Attachment} (hR : R.Antisym)
include h hC hZ hT hs hR

theorem C77_right_ea_a {a : ℕ} (ha : a < S.ua) :
    value S Z (joined T R.amp) closedRight.a [a]
      = S.element (cre (S.virA a) S.ref)
        (transformed S Z T * R.operator S - R.operator S * transformed S Z T) := by
  have e := subst_denote (put_like (hbar_like (S := S) hC hZ hT hs (amp := joined T R.amp) fun k _ hk => funext fun _ => if_pos hk))
    ((rightFrom named).a) (by rw [← rightFrom_a]; exact (C73_ea_shapes.1).1) [a]
    (by rw [← rightFrom_a]; exact (congrArg List.length (C73_ea_shapes.1).2.symm :))
  rw [← rightFrom_a, ← rightFrom_a] at e
  exact e.trans (C73_ea_a h hZ hT hR ha)

theorem C77_right_ea_aa {a b j : ℕ} (ha : a < S.ua) (hb : b < S.ua) (hj : j < S.na) :
    value S Z (joined T R.amp) closedRight.aa [a, b, j]
      = S.element ((cre (S.virA a) * cre (S.virA b) * ann (S.occA j)) S.ref)
        (transformed S Z T * R.operator S - R.operator S * transformed S Z T) := by
  have e := subst_denote (put_like (hbar_like (S := S) hC hZ hT hs (amp := joined T R.amp) fun k _ hk => funext fun _ => if_pos hk))
    ((rightFrom named).aa) (by rw [← rightFrom_aa]; exact (C73_ea_shapes.2.1).1) [a, b, j]
    (by rw [← rightFrom_aa]; exact (congrArg List.length (C73_ea_shapes.2.1).2.symm :))
  rw [← rightFrom_aa, ← rightFrom_aa] at e
  exact e.trans (C73_ea_aa h hZ hT hR ha hb hj)

theorem C77_right_ea_ab {a b j : ℕ} (ha : a < S.ua) (hb : b < S.ub) (hj : j < S.nb) :
    value S Z (joined T R.amp) closedRight.ab [a, b, j]
      = S.element ((cre (S.virA a) * cre (S.virB b) * ann (S.occB j)) S.ref)
        (transformed S Z T * R.operator S - R.operator S * transformed S Z T) := by
  have e := subst_denote (put_like (hbar_like (S := S) hC hZ hT hs (amp := joined T R.amp) fun k _ hk => funext fun _ => if_pos hk))
    ((rightFrom named).ab) (by rw [← rightFrom_ab]; exact (C73_ea_shapes.2.2).1) [a, b, j]
    (by rw [← rightFrom_ab]; exact (congrArg List.length (C73_ea_shapes.2.2).2.symm :))
  rw [← rightFrom_ab, ← rightFrom_ab] at e
  exact e.trans (C73_ea_ab h hZ hT hR ha hb hj)

end

end Ccpy.EaEom

namespace Ccpy.IpEom
open Ccpy.Fock Ccpy.Tensor Ccpy.Engine Ccpy.HbarCcsd

/-- The program `HR` after `build_hbar_ccsd` with `flag_RHF=True`. -/
def closedRight : Attached :=
  HR arrays amplitudes (buildHbarCcsd amplitudes stored true)

/-- The program for given blocks of the transformed Hamiltonian. -/
def rightFrom (H : Ints) : Attached := HR arrays amplitudes H

theorem rightFrom_a (H : Ints) : (rightFrom H).a = foldE (put H) (rightFrom named).a := rfl
theorem rightFrom_aa (H : Ints) : (rightFrom H).aa = foldE (put H) (rightFrom named).aa := rfl
theorem rightFrom_ab (H : Ints) : (rightFrom H).ab = foldE (put H) (rightFrom named).ab := rfl

section
variable {S : Orbitals ι} (h : S.Proper) {Z : Fock.Integrals} (hC : ClosedShell S Z) (hZ : Z.Antisym) {T : Cluster}
  (hT : T.Antisym) (hs : T.Symmetric) {R : Ionisation} (hR : R.Antisym)
include h hC hZ hT hs hR

theorem C77_right_ip_a {i : ℕ} (hi : i < S.na) :
    value S Z (joined T R.amp) closedRight.a [i]
      = S.element (ann (S.occA i) S.ref)
        (transformed S Z T * R.operator S - R.operator S * transformed S Z T) := by
  have e := subst_denote (put_like (hbar_like (S := S) hC hZ hT hs (amp := joined T R.amp) fun k _ hk => funext fun _ => if_pos hk))
    ((rightFrom named).a) (by rw [← rightFrom_a]; exact (C73_ip_shapes.1).1) [i]
    (by rw [← rightFrom_a]; exact (congrArg List.length (C73_ip_shapes.1).2.symm :))
  rw [← rightFrom_a, ← rightFrom_a] at e
  exact e.trans (C73_ip_a h hZ hT hR hi)

theorem C77_right_ip_aa {i b j : ℕ} (hi : i < S.na) (hb : b < S.ua) (hj : j < S.na) :
    value S Z (joined T R.amp) closedRight.aa [i, b, j]
      = S.element ((cre (S.virA b) * ann (S.occA j) * ann (S.occA i)) S.ref)
        (transformed S Z T * R.operator S - R.operator S * transformed S Z T) := by
  have e := subst_denote (put_like (hbar_like (S := S) hC hZ hT hs (amp := joined T R.amp) fun k _ hk => funext fun _ => if_pos hk))
    ((rightFrom named).aa) (by rw [← rightFrom_aa]; exact (C73_ip_shapes.2.1).1) [i, b, j]
    (by rw [← rightFrom_aa]; exact (congrArg List.length (C73_ip_shapes.2.1).2.symm :))
  rw [← rightFrom_aa, ← rightFrom_aa] at e
  exact e.trans (C73_ip_aa h hZ hT hR hi hb hj)

theorem C77_right_ip_ab {i b j : ℕ} (hi : i < S.na) (hb : b < S.ub) (hj : j < S.nb) :
    value S Z (joined T R.amp) closedRight.ab [i, b, j]
      = S.element ((cre (S.virB b) * ann (S.occB j) * ann (S.occA i)) S.ref)
        (transformed S Z T * R.operator S - R.operator S * transformed S Z T) := by
  have e := subst_denote (put_like (hbar_like (S := S) hC hZ hT hs (amp := joined T R.amp) fun k _ hk => funext fun _ => if_pos hk))
    ((rightFrom named).ab) (by rw [← rightFrom_ab]; exact (C73_ip_shapes.2.2).1) [i, b, j]
    (by rw [← rightFrom_ab]; exact (congrArg List.length (C73_ip_shapes.2.2).2.symm :))
  rw [← rightFrom_ab, ← rightFrom_ab] at e
  exact e.trans (C73_ip_ab h hZ hT hR hi hb hj)

end

end Ccpy.IpEom

namespace Ccpy.EaEom
open Ccpy.Fock Ccpy.Tensor Ccpy.Engine Ccpy.HbarCcsd

/-- The program `LH_fun` after `build_hbar_ccsd` with `flag_RHF=True`. -/
def closedLeft : Attached :=
  LHFun leftArrays leftArrays amplitudes (buildHbarCcsd amplitudes stored true)

/-- The program for given blocks of the transformed Hamiltonian. -/
def leftFrom (H : Ints) : Attached := LHFun leftArrays leftArrays amplitudes H

theorem leftFrom_a (H : Ints) : (leftFrom H).a = foldE (put H) (leftFrom named).a := rfl
theorem leftFrom_aa (H : Ints) : (leftFrom H).aa = foldE (put H) (leftFrom named).aa := rfl
theorem leftFrom_ab (H : Ints) : (leftFrom H).ab = foldE (put H) (leftFrom named).ab := rfl

section
variable {S : Orbitals ι} (h : S.Proper) {Z : Fock.Integrals} (hC : ClosedShell S Z) (hZ : Z.Antisym) {T : Cluster}
  (hT : T.Antisym) (hs : T.Symmetric) {R : Attachment} (hR : R.Antisym)
include h hC hZ hT hs hR

theorem C77_left_ea_a {a : ℕ} (ha : a < S.ua) :
    value S Z (joined T R.amp) closedLeft.a [a]
      = leftElement S Z T (R.adjoint S) (cre (S.virA a)) := by
  have e := subst_denote (put_like (hbar_like (S := S) hC hZ hT hs (amp := joined T R.amp) fun k _ hk => funext fun _ => if_pos hk))
    ((leftFrom named).a) (by rw [← leftFrom_a]; exact (C74_ea_shapes.1).1) [a]
    (by rw [← leftFrom_a]; exact (congrArg List.length (C74_ea_shapes.1).2.symm :))
  rw [← leftFrom_a, ← leftFrom_a] at e
  exact e.trans (C74_ea_a h hZ hT hR ha)

theorem C77_left_ea_aa {a b j : ℕ} (ha : a < S.ua) (hb : b < S.ua) (hj : j < S.na) :
    value S Z (joined T R.amp) closedLeft.aa [a, b, j]
      = leftElement S Z T (R.adjoint S) (cre (S.virA a) * cre (S.virA b) * ann (S.occA j)) := by
  have e := subst_denote (put_like (hbar_like (S := S) hC hZ hT hs (amp := joined T R.amp) fun k _ hk => funext fun _ => if_pos hk))
    ((leftFrom named).aa) (by rw [← leftFrom_aa]; exact (C74_ea_shapes.2.1).1) [a, b, j]
    (by rw [← leftFrom_aa]; exact (congrArg List.length (C74_ea_shapes.2.1).2.symm :))
  rw [← leftFrom_aa, ← leftFrom_aa] at e
  exact e.trans (C74_ea_aa h hZ hT hR ha hb hj)

theorem C77_left_ea_ab {a b j : ℕ} (ha : a < S.ua) (hb : b < S.ub) (hj : j < S.nb) :
    value S Z (joined T R.amp) closedLeft.ab [a, b, j]
      = leftElement S Z T (R.adjoint S) (cre (S.virA a) * cre (S.virB b) * ann (S.occB j)) := by
  have e := subst_denote (put_like (hbar_like (S := S) hC hZ hT hs (amp := joined T R.amp) fun k _ hk => funext fun _ => if_pos hk))
    ((leftFrom named).ab) (by rw [← leftFrom_ab]; exact (C74_ea_shapes.2.2).1) [a, b, j]
    (by rw [← leftFrom_ab]; exact (congrArg List.length (C74_ea_shapes.2.2).2.symm :))
  rw [← leftFrom_ab, ← leftFrom_ab] at e
  exact e.trans (C74_ea_ab h hZ hT hR ha hb hj)

end

end Ccpy.EaEom

namespace Ccpy.IpEom
open Ccpy.Fock Ccpy.Tensor Ccpy.Engine Ccpy.HbarCcsd

/-- The program `LH_fun` after `build_hbar_ccsd` with `flag_RHF=True`. -/
def closedLeft : Attached :=
  LHFun leftArrays leftArrays amplitudes (buildHbarCcsd amplitudes stored true)

/-- The program for given blocks of the transformed Hamiltonian. -/
def leftFrom (H : Ints) : Attached := LHFun leftArrays leftArrays amplitudes H

theorem leftFrom_a (H : Ints) : (leftFrom H).a = foldE (put H) (leftFrom named).a := rfl
theorem leftFrom_aa (H : Ints) : (leftFrom H).aa = foldE (put H) (leftFrom named).aa := rfl
theorem leftFrom_ab (H : Ints) : (leftFrom H).ab = foldE (put H) (leftFrom named).ab := rfl

section
variable {S : Orbitals ι} (h : S.Proper) {Z : Fock.Integrals} (hC : ClosedShell S Z) (hZ : Z.Antisym) {T : Cluster}
  (hT : T.Antisym) (hs : T.Symmetric) {R : Ionisation} (hR : R.Antisym)
include h hC hZ hT hs hR

theorem C77_left_ip_a {i : ℕ} (hi : i < S.na) :
    value S Z (joined T R.amp) closedLeft.a [i]
      = leftElement S Z T (R.adjoint S) (ann (S.occA i)) := by
  have e := subst_denote (put_like (hbar_like (S := S) hC hZ hT hs (amp := joined T R.amp) fun k _ hk => funext fun _ => if_pos hk))
    ((leftFrom named).a) (by rw [← leftFrom_a]; exact (C74_ip_shapes.1).1) [i]
    (by rw [← leftFrom_a]; exact (congrArg List.length (C74_ip_shapes.1).2.symm :))
  rw [← leftFrom_a, ← leftFrom_a] at e
  exact e.trans (C74_ip_a h hZ hT hR hi)

theorem C77_left_ip_aa {i b j : ℕ} (hi : i < S.na) (hb : b < S.ua) (hj : j < S.na) :
    value S Z (joined T R.amp) closedLeft.aa [i, b, j]
      = leftElement S Z T (R.adjoint S) (cre (S.virA b) * ann (S.occA j) * ann (S.occA i)) := by
  have e := subst_denote (put_like (hbar_like (S := S) hC hZ hT hs (amp := joined T R.amp) fun k _ hk => funext fun _ => if_pos hk))
    ((leftFrom named).aa) (by rw [← leftFrom_aa]; exact (C74_ip_shapes.2.1).1) [i, b, j]
    (by rw [← leftFrom_aa]; exact (congrArg List.length (C74_ip_shapes.2.1).2.symm :))
  rw [← leftFrom_aa, ← leftFrom_aa] at e
  exact e.trans (C74_ip_aa h hZ hT hR hi hb hj)

theorem C77_left_ip_ab {i b j : ℕ} (hi : i < S.na) (hb : b < S.ub) (hj : j < S.nb) :
    value S Z (joined T R.amp) closedLeft.ab [i, b, j]
      = leftElement S Z T (R.adjoint S) (cre (S.virB b) * ann (S.occB j) * ann (S.occA i)) := by
  have e := subst_denote (put_like (hbar_like (S := S) hC hZ hT hs (amp := joined T R.amp) fun k _ hk => funext fun _ => if_pos hk))
    ((leftFrom named).ab) (by rw [← leftFrom_ab]; exact (C74_ip_shapes.2.2).1) [i, b, j]
    (by rw [← leftFrom_ab]; exact (congrArg List.length (C74_ip_shapes.2.2).2.symm :))
  rw [← leftFrom_ab, ← leftFrom_ab] at e
  exact e.trans (C74_ip_ab h hZ hT hR hi hb hj)

end

end Ccpy.IpEom

namespace Ccpy.DeaEom2
open Ccpy.Fock Ccpy.Tensor Ccpy.Engine Ccpy.HbarCcsd

/-- The program `HR` after `build_hbar_ccsd` with `flag_RHF=True`. -/
def closedRight : Ex :=
  buildHR2B array amplitudes (buildHbarCcsd amplitudes stored true)

/-- The program for given blocks of the transformed Hamiltonian. -/
def rightFrom (H : Ints) : Ex := buildHR2B array amplitudes H

theorem rightFrom_ab (H : Ints) : (rightFrom H) = foldE (put H) (rightFrom named) := rfl

section
variable {S : Orbitals ι} (h : S.Proper) {Z : Fock.Integrals} (hC : ClosedShell S Z) (hZ : Z.Antisym) {T : Cluster}
  (hT : T.Antisym) (hs : T.Symmetric) {R : PairAttachment} (hR : R.Antisym)
include h hC hZ hT hs hR

theorem C77_right_dea2_ab {a b : ℕ} (ha : a < S.ua) (hb : b < S.ub) :
    value S Z (joined T R.amp) closedRight [a, b]
      = S.element ((cre (S.virA a) * cre (S.virB b)) S.ref)
        (transformed S Z T * R.operator S - R.operator S * transformed S Z T) := by
  have e := subst_denote (put_like (hbar_like (S := S) hC hZ hT hs (amp := joined T R.amp) fun k _ hk => funext fun _ => if_pos hk))
    ((rightFrom named)) (by rw [← rightFrom_ab]; exact (C75_dea2_shapes).1) [a, b]
    (by rw [← rightFrom_ab]; exact (congrArg List.length (C75_dea2_shapes).2.symm :))
  rw [← rightFrom_ab, ← rightFrom_ab] at e
  exact e.trans (C75_dea2_ab h hZ hT hR ha hb)

end

end Ccpy.DeaEom2

namespace Ccpy.DeaEom
open Ccpy.Fock Ccpy.Tensor Ccpy.Engine Ccpy.HbarCcsd

/-- The program `HR` after `build_hbar_ccsd` with `flag_RHF=True`. -/
def closedRight : DoublyAttached :=
  HR arrays amplitudes (buildHbarCcsd amplitudes stored true) false

/-- The program for given blocks of the transformed Hamiltonian. -/
def rightFrom (H : Ints) : DoublyAttached := HR arrays amplitudes H false

theorem rightFrom_ab (H : Ints) : (rightFrom H).ab = foldE (put H) (rightFrom named).ab := rfl
theorem rightFrom_aba (H : Ints) : (rightFrom H).aba = foldE (put H) (rightFrom named).aba := rfl
theorem rightFrom_abb (H : Ints) : (rightFrom H).abb = foldE (put H) (rightFrom named).abb := rfl

section
variable {S : Orbitals ι} (h : S.Proper) {Z : Fock.Integrals} (hC : ClosedShell S Z) (hZ : Z.Antisym) {T : Cluster}
  (hT : T.Antisym) (hs : T.Symmetric) {R : DoubleAttachment} (hR : R.Antisym)
include h hC hZ hT hs hR

theorem C77_right_dea_ab {a b : ℕ} (ha : a < S.ua) (hb : b < S.ub) :
    value S Z (joined T R.amp) closedRight.ab [a, b]
      = S.element ((cre (S.virA a) * cre (S.virB b)) S.ref)
        (transformed S Z T * R.operator S - R.operator S * transformed S Z T) := by
  have e := subst_denote (put_like (hbar_like (S := S) hC hZ hT hs (amp := joined T R.amp) fun k _ hk => funext fun _ => if_pos hk))
    ((rightFrom named).ab) (by rw [← rightFrom_ab]; exact (C75_dea_shapes.1).1) [a, b]
    (by rw [← rightFrom_ab]; exact (congrArg List.length (C75_dea_shapes.1).2.symm :))
  rw [← rightFrom_ab, ← rightFrom_ab] at e
  exact e.trans (C75_dea_ab h hZ hT hR ha hb)

theorem C77_right_dea_aba {a b c k : ℕ} (ha : a < S.ua) (hb : b < S.ub) (hc : c < S.ua) (hk : k < S.na) :
    value S Z (joined T R.amp) closedRight.aba [a, b, c, k]
      = S.element ((cre (S.virA a) * cre (S.virB b) * cre (S.virA c) * ann (S.occA k)) S.ref)
        (transformed S Z T * R.operator S - R.operator S * transformed S Z T) := by
  have e := subst_denote (put_like (hbar_like (S := S) hC hZ hT hs (amp := joined T R.amp) fun k _ hk => funext fun _ => if_pos hk))
    ((rightFrom named).aba) (by rw [← rightFrom_aba]; exact (C75_dea_shapes.2.1).1) [a, b, c, k]
    (by rw [← rightFrom_aba]; exact (congrArg List.length (C75_dea_shapes.2.1).2.symm :))
  rw [← rightFrom_aba, ← rightFrom_aba] at e
  exact e.trans (C75_dea_aba h hZ hT hR ha hb hc hk)

theorem C77_right_dea_abb {a b c k : ℕ} (ha : a < S.ua) (hb : b < S.ub) (hc : c < S.ub) (hk : k < S.nb) :
    value S Z (joined T R.amp) closedRight.abb [a, b, c, k]
      = S.element ((cre (S.virA a) * cre (S.virB b) * cre (S.virB c) * ann (S.occB k)) S.ref)
        (transformed S Z T * R.operator S - R.operator S * transformed S Z T) := by
  have e := subst_denote (put_like (hbar_like (S := S) hC hZ hT hs (amp := joined T R.amp) fun k _ hk => funext fun _ => if_pos hk))
    ((rightFrom named).abb) (by rw [← rightFrom_abb]; exact (C75_dea_shapes.2.2).1) [a, b, c, k]
    (by rw [← rightFrom_abb]; exact (congrArg List.length (C75_dea_shapes.2.2).2.symm :))
  rw [← rightFrom_abb, ← rightFrom_abb] at e
  exact e.trans (C75_dea_abb h hZ hT hR ha hb hc hk)

end

end Ccpy.DeaEom

namespace Ccpy.DipEom
open Ccpy.Fock Ccpy.Tensor Ccpy.Engine Ccpy.HbarCcsd

/-- The program `HR` after `build_hbar_ccsd` with `flag_RHF=True`. -/
def closedRight : DoublyAttached :=
  HR arrays amplitudes (buildHbarCcsd amplitudes stored true) false

/-- The program for given blocks of the transformed Hamiltonian. -/
def rightFrom (H : Ints) : DoublyAttached := HR arrays amplitudes H false

theorem rightFrom_ab (H : Ints) : (rightFrom H).ab = foldE (put H) (rightFrom named).ab := rfl
theorem rightFrom_aba (H : Ints) : (rightFrom H).aba = foldE (put H) (rightFrom named).aba := rfl
theorem rightFrom_abb (H : Ints) : (rightFrom H).abb = foldE (put H) (rightFrom named).abb := rfl

section
variable {S : Orbitals ι} (h : S.Proper) {Z : Fock.Integrals} (hC : ClosedShell S Z) (hZ : Z.Antisym) {T : Cluster}
  (hT : T.Antisym) (hs : T.Symmetric) {R : DoubleIonisation} (hR : R.Antisym)
include h hC hZ hT hs hR

theorem C77_right_dip_ab {i j : ℕ} (hi : i < S.na) (hj : j < S.nb) :
    value S Z (joined T R.amp) closedRight.ab [i, j]
      = S.element ((ann (S.occB j) * ann (S.occA i)) S.ref)
        (transformed S Z T * R.operator S - R.operator S * transformed S Z T) := by
  have e := subst_denote (put_like (hbar_like (S := S) hC hZ hT hs (amp := joined T R.amp) fun k _ hk => funext fun _ => if_pos hk))
    ((rightFrom named).ab) (by rw [← rightFrom_ab]; exact (C75_dip_shapes.1).1) [i, j]
    (by rw [← rightFrom_ab]; exact (congrArg List.length (C75_dip_shapes.1).2.symm :))
  rw [← rightFrom_ab, ← rightFrom_ab] at e
  exact e.trans (C75_dip_ab h hZ hT hR hi hj)

theorem C77_right_dip_aba {i j c k : ℕ} (hi : i < S.na) (hj : j < S.nb) (hc : c < S.ua) (hk : k < S.na) :
    value S Z (joined T R.amp) closedRight.aba [i, j, c, k]
      = S.element ((cre (S.virA c) * ann (S.occA k) * ann (S.occB j) * ann (S.occA i)) S.ref)
        (transformed S Z T * R.operator S - R.operator S * transformed S Z T) := by
  have e := subst_denote (put_like (hbar_like (S := S) hC hZ hT hs (amp := joined T R.amp) fun k _ hk => funext fun _ => if_pos hk))
    ((rightFrom named).aba) (by rw [← rightFrom_aba]; exact (C75_dip_shapes.2.1).1) [i, j, c, k]
    (by rw [← rightFrom_aba]; exact (congrArg List.length (C75_dip_shapes.2.1).2.symm :))
  rw [← rightFrom_aba, ← rightFrom_aba] at e
  exact e.trans (C75_dip_aba h hZ hT hR hi hj hc hk)

theorem C77_right_dip_abb {i j c k : ℕ} (hi : i < S.na) (hj : j < S.nb) (hc : c < S.ub) (hk : k < S.nb) :
    value S Z (joined T R.amp) closedRight.abb [i, j, c, k]
      = S.element ((cre (S.virB c) * ann (S.occB k) * ann (S.occB j) * ann (S.occA i)) S.ref)
        (transformed S Z T * R.operator S - R.operator S * transformed S Z T) := by
  have e := subst_denote (put_like (hbar_like (S := S) hC hZ hT hs (amp := joined T R.amp) fun k _ hk => funext fun _ => if_pos hk))
    ((rightFrom named).abb) (by rw [← rightFrom_abb]; exact (C75_dip_shapes.2.2).1) [i, j, c, k]
    (by rw [← rightFrom_abb]; exact (congrArg List.length (C75_dip_shapes.2.2).2.symm :))
  rw [← rightFrom_abb, ← rightFrom_abb] at e
  exact e.trans (C75_dip_abb h hZ hT hR hi hj hc hk)

end

end Ccpy.DipEom


/-! ### A concrete case -/

namespace Ccpy.EaEom
open Ccpy.Fock Ccpy.Tensor Ccpy.HbarCcsd Ccpy.Ccsd

/-- Two orbitals, one electron of each spin. -/
def twoOrbitals : Orbitals ℕ := ⟨2, 1, 1, fun p => 2 * p, fun p => 2 * p + 1⟩
theorem twoOrbitals_proper : twoOrbitals.Proper where
  up_inj := fun p q h => by simp only [twoOrbitals] at h; omega
  down_inj := fun p q h => by simp only [twoOrbitals] at h; omega
  ne := fun p q h => by simp only [twoOrbitals] at h; omega
  ha := by decide
  hb := by decide
theorem twoOrbitals_closed : ClosedShell twoOrbitals closedIntegrals := ⟨rfl, closed_shell.z, closed_shell.same, closed_shell.mixed⟩

example : twoOrbitals.element ((cre (twoOrbitals.virA 0) * cre (twoOrbitals.virB 0) * ann (twoOrbitals.occB 0)) twoOrbitals.ref)
    (transformed twoOrbitals closedIntegrals closedCluster * smallAttachment.operator twoOrbitals
      - smallAttachment.operator twoOrbitals * transformed twoOrbitals closedIntegrals closedCluster) = -9 := by
  rw [← C77_right_ea_ab twoOrbitals_proper twoOrbitals_closed closedIntegrals_antisym closedCluster_antisym closedCluster_symmetric
    smallAttachment_antisym (by decide) (by decide) (by decide)]
  decide +kernel

end Ccpy.EaEom

namespace Ccpy.DeaEom
open Ccpy.Fock Ccpy.Tensor Ccpy.HbarCcsd Ccpy.Ccsd Ccpy.EaEom

example : twoOrbitals.element ((cre (twoOrbitals.virA 0) * cre (twoOrbitals.virB 0)) twoOrbitals.ref)
    (transformed twoOrbitals closedIntegrals closedCluster * DeaEom.smallDouble.operator twoOrbitals
      - DeaEom.smallDouble.operator twoOrbitals * transformed twoOrbitals closedIntegrals closedCluster) = 9 := by
  rw [← C77_right_dea_ab twoOrbitals_proper twoOrbitals_closed closedIntegrals_antisym closedCluster_antisym closedCluster_symmetric
    DeaEom.smallDouble_antisym (by decide) (by decide)]
  decide +kernel

end Ccpy.DeaEom
