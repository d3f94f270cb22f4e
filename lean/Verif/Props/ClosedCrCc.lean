import Verif.Lemmas.Flip
import Verif.Props.CrCc23
import Verif.Props.ClosedEom

/-! C84: the CR-CC(2,3) corrections of closed shells. -/

namespace Ccpy.CrCc
open Ccpy.Fock Ccpy.Tensor Ccpy.HbarCcsd Ccpy.Ccsd Ccpy.Engine
open Ccpy.EomCcsd (excitation store_first)
open Ccpy.PSpace (axes4)

variable {ι : Type*} [LinearOrder ι]

section
variable {S : Orbitals ι} (h : S.Proper) {Z : Fock.Integrals} (hZ : Z.Antisym) {T L : Cluster} (hT : T.Antisym) (hL : L.Antisym)
  (shift : ℚ)
include h hZ hT hL

theorem kernelA : crcc23A (PSpace.dimsOf (setup S Z shift)) (argsA (setup S Z shift) (Cluster.store [T, L]) amplitudes excitation hbar stored)
    = (crccAAA S Z T L (gapsA S Z).aaa, crccAAA S Z T L (gapsB S Z T).aaa, crccAAA S Z T L (gapsC S Z T).aaa,
      crccAAA S Z T L (gapsD S Z T).aaa) :=
  kernel_a h hZ hT hL shift (fun a b c i j k ha hb hc _ _ hi hj hk _ _ => denomB_a h hZ hT hL shift ha hb hc hi hj hk)
    (fun a b c i j k ha hb hc hab hbc hi hj hk hij hjk => denomC_a h hZ hT hL shift ha hb hc hab hbc hi hj hk hij hjk)

theorem kernelB : crcc23B (PSpace.dimsOf (setup S Z shift)) (argsB (setup S Z shift) (Cluster.store [T, L]) amplitudes excitation hbar stored)
    = (crccAAB S Z T L (gapsA S Z).aab, crccAAB S Z T L (gapsB S Z T).aab, crccAAB S Z T L (gapsC S Z T).aab,
      crccAAB S Z T L (gapsD S Z T).aab) :=
  kernel_b h hZ hT hL shift (fun a b c i j k ha hb hc _ hi hj hk _ => denomB_b h hZ hT hL shift ha hb hc hi hj hk)
    (fun a b c i j k ha hb hc hab hi hj hk hij => denomC_b h hZ hT hL shift ha hb hc hab hi hj hk hij)
end

theorem flip_setup {S : Orbitals ι} {Z : Fock.Integrals} (hC : ClosedShell S Z) (shift : ℚ) : setup S.flip Z shift = setup S Z shift := by
  have e := flip_fock hC
  unfold setup
  rw [e.1, e.2]
  simp only [Orbitals.flip, hC.electrons]

section
variable {S : Orbitals ι} {Z : Fock.Integrals} (hC : ClosedShell S Z) (hZ : Z.Antisym) {T L : Cluster} (hT : T.Antisym)
  (hs : T.Symmetric) (shift : ℚ)
include hC hZ hT hs

/-- Both branches of the construction of the similarity-transformed Hamiltonian give the same arguments. -/
theorem args_closed : argsB (setup S Z shift) (Cluster.store [T, L]) amplitudes excitation (buildHbarCcsd amplitudes stored true) stored
    = argsB (setup S Z shift) (Cluster.store [T, L]) amplitudes excitation hbar stored := by
  have e₁ := fun p q r s => hbar_value (S := S) hC hZ hT hs (amp := Cluster.store [T, L]) (store_first T L)
    (fun H => H.ab.vooo - (es% "me,aeik->amik" H.b.ov, amplitudes.ab)) (fun _ => rfl) (by decide +kernel) (idx := [p, q, r, s]) rfl
  have e₂ := fun p q r s => hbar_value (S := S) hC hZ hT hs (amp := Cluster.store [T, L]) (store_first T L)
    (fun H => H.bb.voov) (fun _ => rfl) (by decide +kernel) (idx := [p, q, r, s]) rfl
  have f₁ : axes4 ((setup S Z shift).eval (Cluster.store [T, L]) ((HbarCcsd.hbar true).ab.vooo - (es% "me,aeik->amik" (HbarCcsd.hbar true).b.ov, amplitudes.ab)))
      = axes4 ((setup S Z shift).eval (Cluster.store [T, L]) ((HbarCcsd.hbar false).ab.vooo - (es% "me,aeik->amik" (HbarCcsd.hbar false).b.ov, amplitudes.ab))) := by
    funext p q r s; exact e₁ _ _ _ _
  have f₂ : axes4 ((setup S Z shift).eval (Cluster.store [T, L]) (HbarCcsd.hbar true).bb.voov)
      = axes4 ((setup S Z shift).eval (Cluster.store [T, L]) (HbarCcsd.hbar false).bb.voov) := by
    funext p q r s; exact e₂ _ _ _ _
  change { argsB (setup S Z shift) (Cluster.store [T, L]) amplitudes excitation (HbarCcsd.hbar true) stored with
    i2b_vooo := axes4 ((setup S Z shift).eval (Cluster.store [T, L]) ((HbarCcsd.hbar true).ab.vooo - (es% "me,aeik->amik" (HbarCcsd.hbar true).b.ov, amplitudes.ab)))
    h2c_voov := axes4 ((setup S Z shift).eval (Cluster.store [T, L]) (HbarCcsd.hbar true).bb.voov) } = _
  rw [f₁, f₂]
  rfl
end

/-- For closed shells the program takes the determinants with more `α` than `β` electrons excited twice.  The result is the same sum over
all triply excited determinants; `rhf` says how the similarity-transformed Hamiltonian was built. -/
theorem C84_closed {S : Orbitals ι} (h : S.Proper) {Z : Fock.Integrals} (hC : ClosedShell S Z) (hZ : Z.Antisym) {T L : Cluster}
    (hT : T.Antisym) (hs : T.Symmetric) (hL : L.Antisym) (hl : L.Symmetric) (rhf : Bool) (shift : ℚ) :
    calcCrcc23 (setup S Z shift) (Cluster.store [T, L]) amplitudes excitation (buildHbarCcsd amplitudes stored rhf) stored true
      = some (crcc S Z T L (gapsA S Z), crcc S Z T L (gapsB S Z T), crcc S Z T L (gapsC S Z T), crcc S Z T L (gapsD S Z T)) := by
  have ka := kernelA h hZ hT hL shift
  have kb := kernelB h hZ hT hL shift
  have ka' := kernelA (S.flip_proper h) hZ hT hL shift
  have kb' := kernelB (S.flip_proper h) hZ hT hL shift
  rw [flip_setup hC, ka, flip_aaa hC hs hl (flips_a hC), flip_aaa hC hs hl (flips_b hC hs), flip_aaa hC hs hl (flips_c hC hs),
    flip_aaa hC hs hl (flips_d hC hs)] at ka'
  rw [flip_setup hC, kb, flip_aab hC hs hl (flips_a hC), flip_aab hC hs hl (flips_b hC hs), flip_aab hC hs hl (flips_c hC hs),
    flip_aab hC hs hl (flips_d hC hs)] at kb'
  simp only [Prod.mk.injEq] at ka' kb'
  have e : ∀ D : Gaps, crccAAA S Z T L D.aaa = crccBBB S Z T L D.bbb → crccAAB S Z T L D.aab = crccABB S Z T L D.abb →
      2 * crccAAA S Z T L D.aaa + 2 * crccAAB S Z T L D.aab = crcc S Z T L D := fun D h₁ h₂ => by
    unfold crcc; rw [← h₁, ← h₂]; ring
  have hA : argsA (setup S Z shift) (Cluster.store [T, L]) amplitudes excitation (buildHbarCcsd amplitudes stored rhf) stored
      = argsA (setup S Z shift) (Cluster.store [T, L]) amplitudes excitation hbar stored := by
    cases rhf <;> rfl
  have hB : argsB (setup S Z shift) (Cluster.store [T, L]) amplitudes excitation (buildHbarCcsd amplitudes stored rhf) stored
      = argsB (setup S Z shift) (Cluster.store [T, L]) amplitudes excitation hbar stored := by
    cases rhf
    · rfl
    · exact args_closed hC hZ hT hs shift
  simp only [calcCrcc23, hA, hB, ka, kb]
  rw [← e _ ka'.1 kb'.1, ← e _ ka'.2.1 kb'.2.1, ← e _ ka'.2.2.1 kb'.2.2.1, ← e _ ka'.2.2.2 kb'.2.2.2]
  rfl

/-! ### A concrete case -/

/-- Four orbitals, four electrons. -/
def closedOrbitals : Orbitals ℕ := ⟨4, 2, 2, fun p => 2 * p, fun p => 2 * p + 1⟩
def closedIntegrals : Fock.Integrals :=
  ⟨fun p q => p + 2 * q, fun p q => p + 2 * q, fun p q r s => (p - q) * (r - s), fun p q r s => p * q + 3 * r * s, fun p q r s => (p - q) * (r - s)⟩
def closedCluster : Cluster :=
  ⟨fun _ _ => 2, fun _ _ => 2, fun a b i j => (a - b) * (i - j), fun a b _ _ => 5 + a + b, fun a b i j => (a - b) * (i - j)⟩

theorem closedOrbitals_proper : closedOrbitals.Proper where
  up_inj := fun p q h => by simp only [closedOrbitals] at h; omega
  down_inj := fun p q h => by simp only [closedOrbitals] at h; omega
  ne := fun p q h => by simp only [closedOrbitals] at h; omega
  ha := by decide
  hb := by decide
theorem closedIntegrals_closed : ClosedShell closedOrbitals closedIntegrals :=
  ⟨rfl, rfl, rfl, fun p q r s => by simp only [closedIntegrals]; ring⟩
theorem closedIntegrals_antisym : closedIntegrals.Antisym := by
  constructor <;> intro p q r s <;> simp only [closedIntegrals] <;> constructor <;> ring
theorem closedCluster_antisym : closedCluster.Antisym := by
  constructor <;> intro p q r s <;> simp only [closedCluster] <;> constructor <;> ring
theorem closedCluster_symmetric : closedCluster.Symmetric :=
  ⟨rfl, rfl, fun a b i j => by simp only [closedCluster]; ring⟩

example : calcCrcc23 (setup closedOrbitals closedIntegrals 0) (Cluster.store [closedCluster, closedCluster]) amplitudes excitation
      (buildHbarCcsd amplitudes stored true) stored true
    = some (crcc closedOrbitals closedIntegrals closedCluster closedCluster (gapsA closedOrbitals closedIntegrals),
        crcc closedOrbitals closedIntegrals closedCluster closedCluster (gapsB closedOrbitals closedIntegrals closedCluster),
        crcc closedOrbitals closedIntegrals closedCluster closedCluster (gapsC closedOrbitals closedIntegrals closedCluster),
        crcc closedOrbitals closedIntegrals closedCluster closedCluster (gapsD closedOrbitals closedIntegrals closedCluster)) :=
  C84_closed closedOrbitals_proper closedIntegrals_closed closedIntegrals_antisym closedCluster_antisym closedCluster_symmetric
    closedCluster_antisym closedCluster_symmetric true 0

end Ccpy.CrCc
