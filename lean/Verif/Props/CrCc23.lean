import Verif.Lemmas.CrCcVariants
import Verif.Props.EomCcsd

/-! C84: the CR-CC(2,3) corrections. -/

namespace Ccpy.CrCc
open Ccpy.Fock Ccpy.Tensor Ccpy.HbarCcsd Ccpy.Ccsd
open Ccpy.EomCcsd (excitation)

variable {ι : Type*} [LinearOrder ι]

/-- The corrections A, B, C and D are sums over all triply excited determinants, of the projection of `e^{-T} H e^{T} |Φ⟩` on the
determinant, times that of `⟨Φ| (1 + L) e^{-T} H e^{T}`, over the energy difference of each variant.  Every system has at least as
many `α` as `β` electrons.  (A vanishing energy difference is a division by zero in the program as well.) -/
theorem C84_corrections {S : Orbitals ι} (h : S.Proper) {Z : Fock.Integrals} (hZ : Z.Antisym) {T L : Cluster} (hT : T.Antisym)
    (hL : L.Antisym) (hS : S.nb ≤ S.na) (shift : ℚ) :
    calcCrcc23 (setup S Z shift) (Cluster.store [T, L]) amplitudes excitation (buildHbarCcsd amplitudes stored false) stored false
      = some (crcc S Z T L (gapsA S Z), crcc S Z T L (gapsB S Z T), crcc S Z T L (gapsC S Z T), crcc S Z T L (gapsD S Z T)) := by
  have ka := kernel_a h hZ hT hL shift (fun a b c i j k ha hb hc _ _ hi hj hk _ _ => denomB_a h hZ hT hL shift ha hb hc hi hj hk)
    (fun a b c i j k ha hb hc hab hbc hi hj hk hij hjk => denomC_a h hZ hT hL shift ha hb hc hab hbc hi hj hk hij hjk)
  have kb := kernel_b h hZ hT hL shift (fun a b c i j k ha hb hc _ hi hj hk _ => denomB_b h hZ hT hL shift ha hb hc hi hj hk)
    (fun a b c i j k ha hb hc hab hi hj hk hij => denomC_b h hZ hT hL shift ha hb hc hab hi hj hk hij)
  have kc := kernel_c h hZ hT hL shift (Or.inl hS) (fun a b c i j k ha hb hc _ hi hj hk _ => denomB_c h hZ hT hL shift ha hb hc hi hj hk)
    (fun a b c i j k ha hb hc hbc hi hj hk hjk => denomC_c h hZ hT hL shift ha hb hc hbc hi hj hk hjk)
  have kd := kernel_d h hZ hT hL shift (fun a b c i j k ha hb hc _ _ hi hj hk _ _ => denomB_d h hZ hT hL shift ha hb hc hi hj hk)
    (fun a b c i j k ha hb hc hab hbc hi hj hk hij hjk => denomC_d h hZ hT hL shift ha hb hc hab hbc hi hj hk hij hjk)
  change calcCrcc23 _ _ amplitudes excitation hbar stored false = _
  simp only [calcCrcc23, ka, kb, kc, kd]
  rfl

/-- With more `β` than `α` electrons the kernel for `αββ` writes past the end of an array: there is no result. -/
theorem C84_no_result (s : Setup) (m : Memory) (T L : Amps) (H H0 : Ints) (h : s.na < s.nb) (hu : s.nb < s.n) :
    calcCrcc23 s m T L H H0 false = none := by
  have e : crcc23C (PSpace.dimsOf s) (argsC s m T L H H0) = none := if_pos ⟨h, show 0 < s.n - s.nb by omega⟩
  simp only [calcCrcc23, e]
  rfl

/-! ### A concrete case -/

/-- Four orbitals, three electrons. -/
def testOrbitals : Orbitals ℕ := ⟨4, 2, 1, fun p => 2 * p, fun p => 2 * p + 1⟩
def testIntegrals : Fock.Integrals :=
  ⟨fun p q => p + q, fun p q => 2 * p + 3 * q, fun p q r s => (p - q) * (r - s), fun p q r s => p + 2 * q + 3 * r + 4 * s,
    fun p q r s => 2 * (p - q) * (r - s)⟩
def testCluster : Cluster := ⟨fun _ _ => 2, fun _ _ => 3, fun a b i j => (a - b) * (i - j), fun a b _ _ => 5 + a + b, fun _ _ _ _ => 0⟩
def testLeft : Cluster := ⟨fun _ _ => 1, fun _ _ => -1, fun _ _ _ _ => 0, fun _ _ _ _ => 4, fun _ _ _ _ => 0⟩

theorem testOrbitals_proper : testOrbitals.Proper where
  up_inj := fun p q h => by simp only [testOrbitals] at h; omega
  down_inj := fun p q h => by simp only [testOrbitals] at h; omega
  ne := fun p q h => by simp only [testOrbitals] at h; omega
  ha := by decide
  hb := by decide

theorem testIntegrals_antisym : testIntegrals.Antisym := by
  constructor <;> intro p q r s <;> simp only [testIntegrals] <;> constructor <;> ring
theorem testCluster_antisym : testCluster.Antisym := by
  constructor <;> intro p q r s <;> simp only [testCluster] <;> constructor <;> ring
theorem testLeft_antisym : testLeft.Antisym := by
  constructor <;> intro p q r s <;> constructor <;> rfl

/-- The hypotheses hold for this state; the program evaluates to `506493250 / 263671`, `-4029878875 / 248163656`, `-25702250 / 79101` and
`-266883475 / 6020091`. -/
example : calcCrcc23 (setup testOrbitals testIntegrals 0) (Cluster.store [testCluster, testLeft]) amplitudes excitation
      (buildHbarCcsd amplitudes stored false) stored false
    = some (crcc testOrbitals testIntegrals testCluster testLeft (gapsA testOrbitals testIntegrals),
        crcc testOrbitals testIntegrals testCluster testLeft (gapsB testOrbitals testIntegrals testCluster),
        crcc testOrbitals testIntegrals testCluster testLeft (gapsC testOrbitals testIntegrals testCluster),
        crcc testOrbitals testIntegrals testCluster testLeft (gapsD testOrbitals testIntegrals testCluster)) :=
  C84_corrections testOrbitals_proper testIntegrals_antisym testCluster_antisym testLeft_antisym (by decide) 0

/-- With the spins exchanged there is no result. -/
example : calcCrcc23 (setup (⟨4, 1, 2, fun p => 2 * p, fun p => 2 * p + 1⟩ : Orbitals ℕ) testIntegrals 0)
    (Cluster.store [testCluster, testLeft]) amplitudes excitation (buildHbarCcsd amplitudes stored false) stored false = none :=
  C84_no_result _ _ _ _ _ _ (by decide) (by decide)

end Ccpy.CrCc
