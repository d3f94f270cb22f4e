import Verif.Lemmas.FlipPair
import Verif.Props.ClosedAttach
import Verif.Spec.SingletPair
import Mathlib.Tactic.Ring

/-! **C78** Double electron attachment and double ionisation of closed shells with `flag_RHF=True`: the block `abb` is taken from
`aba` by exchanging the first two indices.  The result is the commutator for the amplitudes of singlet states.

The programs are `build_hbar_ccsd` (`/repo/ccpy/hbar/hbar_ccsd.py:4-304`) and `HR` of `/repo/ccpy/eomcc/deaeom3.py:26-36` and
`/repo/ccpy/eomcc/dipeom3.py:26-36`, all with `flag_RHF=True`. -/

variable {ι : Type*} [LinearOrder ι]

namespace Ccpy.DeaEom
open Ccpy.Fock Ccpy.Tensor Ccpy.Engine Ccpy.HbarCcsd

/-- The program `HR` with `flag_RHF=True` after `build_hbar_ccsd` with `flag_RHF=True`. -/
def singletRight : DoublyAttached := HR arrays amplitudes (buildHbarCcsd amplitudes stored true) true

section
variable {S : Orbitals ι} (h : S.Proper) {Z : Fock.Integrals} (hC : ClosedShell S Z) (hZ : Z.Antisym) {T : Cluster}
  (hT : T.Antisym) (hs : T.Symmetric) {R : DoubleAttachment} (hR : R.Antisym)
include h hC hZ hT hs hR

theorem C78_dea_ab {a b : ℕ} (ha : a < S.ua) (hb : b < S.ub) :
    value S Z (joined T R.amp) singletRight.ab [a, b]
      = S.element ((cre (S.virA a) * cre (S.virB b)) S.ref)
        (transformed S Z T * R.operator S - R.operator S * transformed S Z T) :=
  C77_right_dea_ab h hC hZ hT hs hR ha hb

theorem C78_dea_aba {a b c k : ℕ} (ha : a < S.ua) (hb : b < S.ub) (hc : c < S.ua) (hk : k < S.na) :
    value S Z (joined T R.amp) singletRight.aba [a, b, c, k]
      = S.element ((cre (S.virA a) * cre (S.virB b) * cre (S.virA c) * ann (S.occA k)) S.ref)
        (transformed S Z T * R.operator S - R.operator S * transformed S Z T) :=
  C77_right_dea_aba h hC hZ hT hs hR ha hb hc hk

theorem dea_sign {ε : ℚ} (hε : ε * ε = 1) (h₂ : ∀ a b, R.ab a b = ε * R.ab b a)
    (h₃ : ∀ a b c k, R.abb a b c k = ε * R.aba b a c k) {a b c k : ℕ} (ha : a < S.ua) (hb : b < S.ub) (hc : c < S.ub) (hk : k < S.nb) :
    value S Z (joined T R.amp) singletRight.abb [a, b, c, k]
      = ε * S.element ((cre (S.virA a) * cre (S.virB b) * cre (S.virB c) * ann (S.occB k)) S.ref)
        (transformed S Z T * R.operator S - R.operator S * transformed S Z T) := by
  have e := C77_right_dea_aba (S.flip_proper h) (flip_closed hC) hZ hT hs hR (a := b) (b := a) (c := c) (k := k) hb ha hc hk
  rw [flip_value hC, flip_element, flip_transformed hC hs, flip_doubleAttachment hε h₂ h₃, S.flip_ref] at e
  have e₁ : value S Z (joined T R.amp) singletRight.abb [a, b, c, k]
      = value S Z (joined T R.amp) closedRight.aba [b, a, c, k] := mul_one _
  have e₂ : cre (S.virB b) * cre (S.virA a) * cre (S.virB c) * ann (S.occB k)
      = -(cre (S.virA a) * cre (S.virB b) * cre (S.virB c) * ann (S.occB k)) := by
    rw [mul_assoc, exchange_two, ← mul_assoc]
  rw [e₁, e]
  show S.element ((cre (S.virB b) * cre (S.virA a) * cre (S.virB c) * ann (S.occB k)) S.ref) _ = _
  rw [e₂, LinearMap.neg_apply, element_smul_smul]

theorem C78_dea_abb (hr : R.Singlet) {a b c k : ℕ} (ha : a < S.ua) (hb : b < S.ub) (hc : c < S.ub) (hk : k < S.nb) :
    value S Z (joined T R.amp) singletRight.abb [a, b, c, k]
      = S.element ((cre (S.virA a) * cre (S.virB b) * cre (S.virB c) * ann (S.occB k)) S.ref)
        (transformed S Z T * R.operator S - R.operator S * transformed S Z T) := by
  rw [dea_sign h hC hZ hT hs hR (ε := 1) (mul_one 1) (fun a b => by rw [one_mul]; exact hr.ab a b)
    (fun a b c k => by rw [one_mul]; exact hr.abb a b c k) ha hb hc hk, one_mul]

/-- The flag must not be set for the amplitudes of triplet states, which have the opposite sign: the result is then the negative of
the product. -/
theorem C78_dea_triplet (h₂ : ∀ a b, R.ab a b = -R.ab b a) (h₃ : ∀ a b c k, R.abb a b c k = -R.aba b a c k) {a b c k : ℕ} (ha : a < S.ua) (hb : b < S.ub) (hc : c < S.ub) (hk : k < S.nb) :
    value S Z (joined T R.amp) singletRight.abb [a, b, c, k]
      = -S.element ((cre (S.virA a) * cre (S.virB b) * cre (S.virB c) * ann (S.occB k)) S.ref)
        (transformed S Z T * R.operator S - R.operator S * transformed S Z T) := by
  rw [dea_sign h hC hZ hT hs hR (ε := -1) (by norm_num) (fun a b => by rw [h₂, neg_one_mul])
    (fun a b c k => by rw [h₃, neg_one_mul]) ha hb hc hk, neg_one_mul]

end

/-- All contractions join axes of the same length and all sums have equal shapes, so `numpy` raises no error. -/
theorem C78_dea_shapes :
    (singletRight.ab.okClosed = true ∧ singletRight.ab.axes = [1, 3])
    ∧ (singletRight.aba.okClosed = true ∧ singletRight.aba.axes = [1, 3, 1, 0])
    ∧ (singletRight.abb.okClosed = true ∧ singletRight.abb.axes.map (· % 2) = [1, 1, 1, 0]) := by
  decide +kernel

end Ccpy.DeaEom

namespace Ccpy.DipEom
open Ccpy.Fock Ccpy.Tensor Ccpy.Engine Ccpy.HbarCcsd

/-- The program `HR` with `flag_RHF=True` after `build_hbar_ccsd` with `flag_RHF=True`. -/
def singletRight : DoublyAttached := HR arrays amplitudes (buildHbarCcsd amplitudes stored true) true

section
variable {S : Orbitals ι} (h : S.Proper) {Z : Fock.Integrals} (hC : ClosedShell S Z) (hZ : Z.Antisym) {T : Cluster}
  (hT : T.Antisym) (hs : T.Symmetric) {R : DoubleIonisation} (hR : R.Antisym)
include h hC hZ hT hs hR

theorem C78_dip_ab {i j : ℕ} (hi : i < S.na) (hj : j < S.nb) :
    value S Z (joined T R.amp) singletRight.ab [i, j]
      = S.element ((ann (S.occB j) * ann (S.occA i)) S.ref)
        (transformed S Z T * R.operator S - R.operator S * transformed S Z T) :=
  C77_right_dip_ab h hC hZ hT hs hR hi hj

theorem C78_dip_aba {i j c k : ℕ} (hi : i < S.na) (hj : j < S.nb) (hc : c < S.ua) (hk : k < S.na) :
    value S Z (joined T R.amp) singletRight.aba [i, j, c, k]
      = S.element ((cre (S.virA c) * ann (S.occA k) * ann (S.occB j) * ann (S.occA i)) S.ref)
        (transformed S Z T * R.operator S - R.operator S * transformed S Z T) :=
  C77_right_dip_aba h hC hZ hT hs hR hi hj hc hk

theorem dip_sign {ε : ℚ} (hε : ε * ε = 1) (h₂ : ∀ a b, R.ab a b = ε * R.ab b a)
    (h₃ : ∀ a b c k, R.abb a b c k = ε * R.aba b a c k) {i j c k : ℕ} (hi : i < S.na) (hj : j < S.nb) (hc : c < S.ub) (hk : k < S.nb) :
    value S Z (joined T R.amp) singletRight.abb [i, j, c, k]
      = ε * S.element ((cre (S.virB c) * ann (S.occB k) * ann (S.occB j) * ann (S.occA i)) S.ref)
        (transformed S Z T * R.operator S - R.operator S * transformed S Z T) := by
  have e := C77_right_dip_aba (S.flip_proper h) (flip_closed hC) hZ hT hs hR (i := j) (j := i) (c := c) (k := k) hj hi hc hk
  rw [flip_value hC, flip_element, flip_transformed hC hs, flip_doubleIonisation hε h₂ h₃, S.flip_ref] at e
  have e₁ : value S Z (joined T R.amp) singletRight.abb [i, j, c, k]
      = value S Z (joined T R.amp) closedRight.aba [j, i, c, k] := mul_one _
  have e₂ : cre (S.virB c) * ann (S.occB k) * ann (S.occA i) * ann (S.occB j)
      = -(cre (S.virB c) * ann (S.occB k) * ann (S.occB j) * ann (S.occA i)) := by
    exact exchange_two' _ _ _
  rw [e₁, e]
  show S.element ((cre (S.virB c) * ann (S.occB k) * ann (S.occA i) * ann (S.occB j)) S.ref) _ = _
  rw [e₂, LinearMap.neg_apply, element_smul_smul]

theorem C78_dip_abb (hr : R.Singlet) {i j c k : ℕ} (hi : i < S.na) (hj : j < S.nb) (hc : c < S.ub) (hk : k < S.nb) :
    value S Z (joined T R.amp) singletRight.abb [i, j, c, k]
      = S.element ((cre (S.virB c) * ann (S.occB k) * ann (S.occB j) * ann (S.occA i)) S.ref)
        (transformed S Z T * R.operator S - R.operator S * transformed S Z T) := by
  rw [dip_sign h hC hZ hT hs hR (ε := 1) (mul_one 1) (fun a b => by rw [one_mul]; exact hr.ab a b)
    (fun a b c k => by rw [one_mul]; exact hr.abb a b c k) hi hj hc hk, one_mul]

/-- The flag must not be set for the amplitudes of triplet states, which have the opposite sign: the result is then the negative of
the product. -/
theorem C78_dip_triplet (h₂ : ∀ a b, R.ab a b = -R.ab b a) (h₃ : ∀ a b c k, R.abb a b c k = -R.aba b a c k) {i j c k : ℕ} (hi : i < S.na) (hj : j < S.nb) (hc : c < S.ub) (hk : k < S.nb) :
    value S Z (joined T R.amp) singletRight.abb [i, j, c, k]
      = -S.element ((cre (S.virB c) * ann (S.occB k) * ann (S.occB j) * ann (S.occA i)) S.ref)
        (transformed S Z T * R.operator S - R.operator S * transformed S Z T) := by
  rw [dip_sign h hC hZ hT hs hR (ε := -1) (by norm_num) (fun a b => by rw [h₂, neg_one_mul])
    (fun a b c k => by rw [h₃, neg_one_mul]) hi hj hc hk, neg_one_mul]

end

/-- All contractions join axes of the same length and all sums have equal shapes, so `numpy` raises no error. -/
theorem C78_dip_shapes :
    (singletRight.ab.okClosed = true ∧ singletRight.ab.axes = [0, 2])
    ∧ (singletRight.aba.okClosed = true ∧ singletRight.aba.axes = [0, 2, 1, 0])
    ∧ (singletRight.abb.okClosed = true ∧ singletRight.abb.axes.map (· % 2) = [0, 0, 1, 0]) := by
  decide +kernel

end Ccpy.DipEom

/-! ### Concrete cases -/

namespace Ccpy.DeaEom
open Ccpy.Fock Ccpy.Tensor Ccpy.HbarCcsd Ccpy.Ccsd

/-- Three orbitals, one electron of each spin. -/
def openOrbitals : Orbitals ℕ := ⟨3, 1, 1, fun p => 2 * p, fun p => 2 * p + 1⟩
theorem openOrbitals_proper : openOrbitals.Proper where
  up_inj := fun p q h => by simp only [openOrbitals] at h; omega
  down_inj := fun p q h => by simp only [openOrbitals] at h; omega
  ne := fun p q h => by simp only [openOrbitals] at h; omega
  ha := by decide
  hb := by decide
theorem openOrbitals_closed : ClosedShell openOrbitals closedIntegrals := ⟨rfl, closed_shell.z, closed_shell.same, closed_shell.mixed⟩

def singletDouble : DoubleAttachment :=
  ⟨fun a b => a + b + 1, fun a b c _ => (a - c) * (b + 1), fun a b c _ => (b - c) * (a + 1)⟩
theorem singletDouble_antisym : singletDouble.Antisym :=
  ⟨fun a b c k => by simp only [singletDouble]; ring, fun a b c k => by simp only [singletDouble]; ring⟩
theorem singletDouble_singlet : singletDouble.Singlet :=
  ⟨fun a b => by simp only [singletDouble]; ring, fun _ _ _ _ => rfl⟩

example : openOrbitals.element ((cre (openOrbitals.virA 0) * cre (openOrbitals.virB 1) * cre (openOrbitals.virB 0)
      * ann (openOrbitals.occB 0)) openOrbitals.ref)
    (transformed openOrbitals closedIntegrals closedCluster * singletDouble.operator openOrbitals
      - singletDouble.operator openOrbitals * transformed openOrbitals closedIntegrals closedCluster) = -10 := by
  rw [← C78_dea_abb openOrbitals_proper openOrbitals_closed closedIntegrals_antisym closedCluster_antisym closedCluster_symmetric
    singletDouble_antisym singletDouble_singlet (by decide) (by decide) (by decide) (by decide)]
  decide +kernel

def tripletDouble : DoubleAttachment :=
  ⟨fun a b => a - b, fun a b c _ => (a - c) * (b + 1), fun a b c _ => -((b - c) * (a + 1))⟩
theorem tripletDouble_antisym : tripletDouble.Antisym :=
  ⟨fun a b c k => by simp only [tripletDouble]; ring, fun a b c k => by simp only [tripletDouble]; ring⟩

/-- The product for a triplet state does not vanish, so the flag gives a wrong result. -/
example : value openOrbitals closedIntegrals (joined closedCluster tripletDouble.amp) singletRight.abb [0, 1, 0, 0]
      = -openOrbitals.element ((cre (openOrbitals.virA 0) * cre (openOrbitals.virB 1) * cre (openOrbitals.virB 0)
        * ann (openOrbitals.occB 0)) openOrbitals.ref)
    (transformed openOrbitals closedIntegrals closedCluster * tripletDouble.operator openOrbitals
      - tripletDouble.operator openOrbitals * transformed openOrbitals closedIntegrals closedCluster)
    ∧ value openOrbitals closedIntegrals (joined closedCluster tripletDouble.amp) singletRight.abb [0, 1, 0, 0] ≠ 0 :=
  ⟨C78_dea_triplet openOrbitals_proper openOrbitals_closed closedIntegrals_antisym closedCluster_antisym closedCluster_symmetric
    tripletDouble_antisym (fun a b => by simp only [tripletDouble]; ring) (fun _ _ _ _ => rfl)
    (by decide) (by decide) (by decide) (by decide), by decide +kernel⟩

end Ccpy.DeaEom

namespace Ccpy.DipEom
open Ccpy.Fock Ccpy.Tensor Ccpy.HbarCcsd Ccpy.Ccsd

/-- Three orbitals, two electrons of each spin. -/
def fullOrbitals : Orbitals ℕ := ⟨3, 2, 2, fun p => 2 * p, fun p => 2 * p + 1⟩
theorem fullOrbitals_proper : fullOrbitals.Proper where
  up_inj := fun p q h => by simp only [fullOrbitals] at h; omega
  down_inj := fun p q h => by simp only [fullOrbitals] at h; omega
  ne := fun p q h => by simp only [fullOrbitals] at h; omega
  ha := by decide
  hb := by decide
theorem fullOrbitals_closed : ClosedShell fullOrbitals closedIntegrals := ⟨rfl, closed_shell.z, closed_shell.same, closed_shell.mixed⟩

def singletDouble : DoubleIonisation :=
  ⟨fun i j => i + j + 1, fun i j _ k => (i - k) * (j + 1), fun i j _ k => (j - k) * (i + 1)⟩
theorem singletDouble_antisym : singletDouble.Antisym :=
  ⟨fun i j c k => by simp only [singletDouble]; ring, fun i j c k => by simp only [singletDouble]; ring⟩
theorem singletDouble_singlet : singletDouble.Singlet :=
  ⟨fun i j => by simp only [singletDouble]; ring, fun _ _ _ _ => rfl⟩

example : fullOrbitals.element ((cre (fullOrbitals.virB 0) * ann (fullOrbitals.occB 1) * ann (fullOrbitals.occB 0)
      * ann (fullOrbitals.occA 1)) fullOrbitals.ref)
    (transformed fullOrbitals closedIntegrals closedCluster * DipEom.singletDouble.operator fullOrbitals
      - DipEom.singletDouble.operator fullOrbitals * transformed fullOrbitals closedIntegrals closedCluster) = 528 := by
  rw [← C78_dip_abb fullOrbitals_proper fullOrbitals_closed closedIntegrals_antisym closedCluster_antisym closedCluster_symmetric
    DipEom.singletDouble_antisym DipEom.singletDouble_singlet (by decide) (by decide) (by decide) (by decide)]
  decide +kernel

end Ccpy.DipEom
