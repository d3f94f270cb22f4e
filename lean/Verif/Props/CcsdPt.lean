import Verif.Lemmas.CcsdPtKernels
import Verif.Props.ClosedCrCc

/-! C85: the CCSD(T) correction. -/

namespace Ccpy.CrCc
open Ccpy.Fock Ccpy.Tensor Ccpy.HbarCcsd Ccpy.Ccsd Ccpy.Engine
open Ccpy.PSpace (axes4)
open Finset (range Ico)

variable {ι : Type*} [LinearOrder ι]

/-- The correction is the sum over all triply excited determinants `K` of `⟨K| [H, T] |Φ⟩ ⟨Φ| T† H |K⟩ / D(K)`, each determinant
counted once.  Every system has at least as many `α` as `β` electrons.  (A vanishing energy difference is a division by zero in the
program as well.) -/
theorem C85_correction {S : Orbitals ι} (h : S.Proper) {Z : Fock.Integrals} (hZ : Z.Antisym) (hR : Z.Real) {T : Cluster}
    (hT : T.Antisym) (hS : S.nb ≤ S.na) (shift : ℚ) :
    calcCcsdpt (setup S Z shift) (Cluster.store [T]) amplitudes stored false = some (ccsdpt S Z T (hamiltonian S Z)) := by
  simp only [calcCcsdpt, ptKernel_a h hZ hR hT shift, ptKernel_b h hZ hR hT shift, ptKernel_c h hZ hR hT shift (Or.inl hS),
    ptKernel_d h hZ hR hT shift]
  rfl

/-- With more `β` than `α` electrons the kernel for `αββ` writes past the end of an array: there is no result. -/
theorem C85_no_result (s : Setup) (m : Memory) (T : Amps) (H : Ints) (h : s.na < s.nb) (hu : s.nb < s.n) :
    calcCcsdpt s m T H false = none := by
  have e : ccsdptC (PSpace.dimsOf s) (callPtC s m T H) = none := if_pos ⟨h, show 0 < s.n - s.nb by omega⟩
  simp only [calcCcsdpt, e]
  rfl

/-! ### Closed shells -/

section
variable {S : Orbitals ι} {Z : Fock.Integrals} (hC : ClosedShell S Z) {T : Cluster} (hs : T.Symmetric)
include hC hs

theorem flip_ptTerm (τ : Operator ι) (D : ℚ) :
    ptTerm S.flip Z T (hamiltonian S.flip Z) τ D = ptTerm S Z T (hamiltonian S Z) τ D := by
  unfold ptTerm
  rw [flip_element, flip_element, flip_hamiltonian hC, flip_cluster hs, flip_deexcitation hs, S.flip_ref]
end

/-- For closed shells the program takes the determinants with more `α` than `β` electrons excited twice.  The result is the same sum over
all triply excited determinants. -/
theorem C85_closed {S : Orbitals ι} (h : S.Proper) {Z : Fock.Integrals} (hC : ClosedShell S Z) (hZ : Z.Antisym) (hR : Z.Real)
    {T : Cluster} (hT : T.Antisym) (hs : T.Symmetric) (shift : ℚ) :
    calcCcsdpt (setup S Z shift) (Cluster.store [T]) amplitudes stored true = some (ccsdpt S Z T (hamiltonian S Z)) := by
  have ka := ptKernel_a h hZ hR hT shift
  have kb := ptKernel_b h hZ hR hT shift
  have ka' := ptKernel_a (S.flip_proper h) hZ hR hT shift
  have kb' := ptKernel_b (S.flip_proper h) hZ hR hT shift
  have f := flips_a (S := S) (Z := Z) hC
  simp only [flip_setup hC, ka, flip_ptTerm hC hs, f.aaa] at ka'
  simp only [flip_setup hC, kb, flip_ptTerm hC hs] at kb'
  have ea : _ = ∑ i ∈ range S.nb, ∑ j ∈ Ico (i + 1) S.nb, ∑ k ∈ Ico (j + 1) S.nb,
      ∑ a ∈ range S.ub, ∑ b ∈ Ico (a + 1) S.ub, ∑ c ∈ Ico (b + 1) S.ub,
      ptTerm S Z T (hamiltonian S Z) (S.exciteBBB a b c i j k) ((gapsA S Z).bbb a b c i j k) := ka'
  have eb : (∑ j ∈ range S.nb, ∑ k ∈ Ico (j + 1) S.nb, ∑ i ∈ range S.na, ∑ b ∈ range S.ub, ∑ c ∈ Ico (b + 1) S.ub, ∑ a ∈ range S.ua,
      ptTerm S Z T (hamiltonian S Z) (S.flip.exciteAAB b c a j k i) ((gapsA S.flip Z).aab b c a j k i))
      = ∑ i ∈ range S.na, ∑ j ∈ range S.nb, ∑ k ∈ Ico (j + 1) S.nb, ∑ a ∈ range S.ua, ∑ b ∈ range S.ub, ∑ c ∈ Ico (b + 1) S.ub,
      ptTerm S Z T (hamiltonian S Z) (S.exciteABB a b c i j k) ((gapsA S Z).abb a b c i j k) := by
    simp only [f.aab, flip_excite]
    symm
    rw [Finset.sum_comm]
    refine Finset.sum_congr rfl fun j _ => ?_
    rw [Finset.sum_comm]
    refine Finset.sum_congr rfl fun k _ => Finset.sum_congr rfl fun i _ => ?_
    rw [Finset.sum_comm]
    refine Finset.sum_congr rfl fun b _ => ?_
    rw [Finset.sum_comm]
  have eb' := kb'.trans eb
  simp only [calcCcsdpt, ka, kb, if_true]
  unfold ccsdpt
  rw [← ea, ← eb']
  refine congrArg some ?_
  ring

/-! ### The documented formula

The comment at `/repo/ccpy/moments/crcc23.py:164-173` leaves the Fock operator out of the second factor:
`⟨K| [H, T] |Φ⟩ ⟨Φ| T† (H - F) |K⟩ / D(K)`. -/

/-- No element of the Fock matrix connects occupied with unoccupied orbitals. -/
structure Brillouin (S : Orbitals ι) (Z : Fock.Integrals) : Prop where
  a : ∀ i a, i < S.na → a < S.ua → fockA S Z i (S.na + a) = 0
  b : ∀ i a, i < S.nb → a < S.ub → fockB S Z i (S.nb + a) = 0

theorem ptTerm_sub (S : Orbitals ι) (Z : Fock.Integrals) (T : Cluster) (V W τ : Operator ι) (D : ℚ) :
    ptTerm S Z T (V - W) τ D = ptTerm S Z T V τ D - ptTerm S Z T W τ D := by
  have e : S.element S.ref (deexcitation S T * (V - W) * τ)
      = S.element S.ref (deexcitation S T * V * τ) - S.element S.ref (deexcitation S T * W * τ) := by
    rw [mul_sub, sub_mul]
    exact map_sub (expect S) _ _
  unfold ptTerm
  rw [e]
  ring

theorem ccsdpt_sub (S : Orbitals ι) (Z : Fock.Integrals) (T : Cluster) (V W : Operator ι) :
    ccsdpt S Z T (V - W) = ccsdpt S Z T V - ccsdpt S Z T W := by
  unfold ccsdpt
  simp only [ptTerm_sub, Finset.sum_sub_distrib]
  ring

section
variable {S : Orbitals ι} (h : S.Proper) {Z : Fock.Integrals} (hZ : Z.Antisym) {T : Cluster} (hT : T.Antisym) {a b c i j k : ℕ}
include h hZ hT

theorem fock_a (hB : Brillouin S Z) (ha : a < S.ua) (hb : b < S.ua) (hc : c < S.ua) (hi : i < S.na) (hj : j < S.na) (hk : k < S.na) (D : ℚ) :
    ptTerm S Z T (fockOperator S Z) (S.exciteAAA a b c i j k) D = 0 := by
  have e := (pt_fock_a (setup S Z 0) (Cluster.store [T]) a b c i j k).trans (value_f3a h hZ hT ha hb hc hi hj hk)
  have za : ∀ p q, p < S.na → q < S.ua → (callPtA (setup S Z 0) (Cluster.store [T]) amplitudes stored).fa_ov (p + 1) (q + 1) = 0 := hB.a
  unfold ptTerm
  rw [← e]
  simp [PtA.temp3f, za, ha, hb, hc, hi, hj, hk]

theorem fock_b (hB : Brillouin S Z) (ha : a < S.ua) (hb : b < S.ua) (hc : c < S.ub) (hi : i < S.na) (hj : j < S.na) (hk : k < S.nb) (D : ℚ) :
    ptTerm S Z T (fockOperator S Z) (S.exciteAAB a b c i j k) D = 0 := by
  have e := (pt_fock_b (setup S Z 0) (Cluster.store [T]) a b c i j k).trans (value_f3b h hZ hT ha hb hc hi hj hk)
  have za : ∀ p q, p < S.na → q < S.ua → (callPtB (setup S Z 0) (Cluster.store [T]) amplitudes stored).fa_ov (p + 1) (q + 1) = 0 := hB.a
  have zb : ∀ p q, p < S.nb → q < S.ub → (callPtB (setup S Z 0) (Cluster.store [T]) amplitudes stored).fb_ov (p + 1) (q + 1) = 0 := hB.b
  unfold ptTerm
  rw [← e]
  simp [PtB.temp3f, za, zb, ha, hb, hc, hi, hj, hk]

theorem fock_c (hB : Brillouin S Z) (ha : a < S.ua) (hb : b < S.ub) (hc : c < S.ub) (hi : i < S.na) (hj : j < S.nb) (hk : k < S.nb) (D : ℚ) :
    ptTerm S Z T (fockOperator S Z) (S.exciteABB a b c i j k) D = 0 := by
  have e := (pt_fock_c (setup S Z 0) (Cluster.store [T]) a b c i j k).trans (value_f3c h hZ hT ha hb hc hi hj hk)
  have za : ∀ p q, p < S.na → q < S.ua → (callPtC (setup S Z 0) (Cluster.store [T]) amplitudes stored).fa_ov (p + 1) (q + 1) = 0 := hB.a
  have zb : ∀ p q, p < S.nb → q < S.ub → (callPtC (setup S Z 0) (Cluster.store [T]) amplitudes stored).fb_ov (p + 1) (q + 1) = 0 := hB.b
  unfold ptTerm
  rw [← e]
  simp [PtC.temp3f, za, zb, ha, hb, hc, hi, hj, hk]

theorem fock_d (hB : Brillouin S Z) (ha : a < S.ub) (hb : b < S.ub) (hc : c < S.ub) (hi : i < S.nb) (hj : j < S.nb) (hk : k < S.nb) (D : ℚ) :
    ptTerm S Z T (fockOperator S Z) (S.exciteBBB a b c i j k) D = 0 := by
  have e := (pt_fock_d (setup S Z 0) (Cluster.store [T]) a b c i j k).trans (value_f3d h hZ hT ha hb hc hi hj hk)
  have zb : ∀ p q, p < S.nb → q < S.ub → (callPtD (setup S Z 0) (Cluster.store [T]) amplitudes stored).fb_ov (p + 1) (q + 1) = 0 := hB.b
  unfold ptTerm
  rw [← e]
  simp [PtD.temp3f, zb, ha, hb, hc, hi, hj, hk]

end

theorem ccsdpt_brillouin {S : Orbitals ι} (h : S.Proper) {Z : Fock.Integrals} (hZ : Z.Antisym) {T : Cluster} (hT : T.Antisym)
    (hB : Brillouin S Z) : ccsdpt S Z T (fockOperator S Z) = 0 := by
  unfold ccsdpt
  have ea : ∑ i ∈ range S.na, ∑ j ∈ Ico (i + 1) S.na, ∑ k ∈ Ico (j + 1) S.na, ∑ a ∈ range S.ua, ∑ b ∈ Ico (a + 1) S.ua, ∑ c ∈ Ico (b + 1) S.ua, 
      ptTerm S Z T (fockOperator S Z) (S.exciteAAA a b c i j k) ((gapsA S Z).aaa a b c i j k) = 0 :=
    Finset.sum_eq_zero fun i mi => Finset.sum_eq_zero fun j mj => Finset.sum_eq_zero fun k mk => Finset.sum_eq_zero fun a ma => Finset.sum_eq_zero fun b mb => Finset.sum_eq_zero fun c mc =>
      fock_a h hZ hT hB (Finset.mem_range.1 ma) (Finset.mem_Ico.1 mb).2 (Finset.mem_Ico.1 mc).2 (Finset.mem_range.1 mi) (Finset.mem_Ico.1 mj).2 (Finset.mem_Ico.1 mk).2 _
  have eb : ∑ i ∈ range S.na, ∑ j ∈ Ico (i + 1) S.na, ∑ k ∈ range S.nb, ∑ a ∈ range S.ua, ∑ b ∈ Ico (a + 1) S.ua, ∑ c ∈ range S.ub, 
      ptTerm S Z T (fockOperator S Z) (S.exciteAAB a b c i j k) ((gapsA S Z).aab a b c i j k) = 0 :=
    Finset.sum_eq_zero fun i mi => Finset.sum_eq_zero fun j mj => Finset.sum_eq_zero fun k mk => Finset.sum_eq_zero fun a ma => Finset.sum_eq_zero fun b mb => Finset.sum_eq_zero fun c mc =>
      fock_b h hZ hT hB (Finset.mem_range.1 ma) (Finset.mem_Ico.1 mb).2 (Finset.mem_range.1 mc) (Finset.mem_range.1 mi) (Finset.mem_Ico.1 mj).2 (Finset.mem_range.1 mk) _
  have ec : ∑ i ∈ range S.na, ∑ j ∈ range S.nb, ∑ k ∈ Ico (j + 1) S.nb, ∑ a ∈ range S.ua, ∑ b ∈ range S.ub, ∑ c ∈ Ico (b + 1) S.ub, 
      ptTerm S Z T (fockOperator S Z) (S.exciteABB a b c i j k) ((gapsA S Z).abb a b c i j k) = 0 :=
    Finset.sum_eq_zero fun i mi => Finset.sum_eq_zero fun j mj => Finset.sum_eq_zero fun k mk => Finset.sum_eq_zero fun a ma => Finset.sum_eq_zero fun b mb => Finset.sum_eq_zero fun c mc =>
      fock_c h hZ hT hB (Finset.mem_range.1 ma) (Finset.mem_range.1 mb) (Finset.mem_Ico.1 mc).2 (Finset.mem_range.1 mi) (Finset.mem_range.1 mj) (Finset.mem_Ico.1 mk).2 _
  have ed : ∑ i ∈ range S.nb, ∑ j ∈ Ico (i + 1) S.nb, ∑ k ∈ Ico (j + 1) S.nb, ∑ a ∈ range S.ub, ∑ b ∈ Ico (a + 1) S.ub, ∑ c ∈ Ico (b + 1) S.ub, 
      ptTerm S Z T (fockOperator S Z) (S.exciteBBB a b c i j k) ((gapsA S Z).bbb a b c i j k) = 0 :=
    Finset.sum_eq_zero fun i mi => Finset.sum_eq_zero fun j mj => Finset.sum_eq_zero fun k mk => Finset.sum_eq_zero fun a ma => Finset.sum_eq_zero fun b mb => Finset.sum_eq_zero fun c mc =>
      fock_d h hZ hT hB (Finset.mem_range.1 ma) (Finset.mem_Ico.1 mb).2 (Finset.mem_Ico.1 mc).2 (Finset.mem_range.1 mi) (Finset.mem_Ico.1 mj).2 (Finset.mem_Ico.1 mk).2 _
  rw [ea, eb, ec, ed]
  norm_num

/-- The formula of the comment holds for references that satisfy Brillouin's theorem. -/
theorem C85_documented_partial {S : Orbitals ι} (h : S.Proper) {Z : Fock.Integrals} (hZ : Z.Antisym) (hR : Z.Real) {T : Cluster}
    (hT : T.Antisym) (hS : S.nb ≤ S.na) (hB : Brillouin S Z) (shift : ℚ) :
    calcCcsdpt (setup S Z shift) (Cluster.store [T]) amplitudes stored false
      = some (ccsdpt S Z T (hamiltonian S Z - fockOperator S Z)) := by
  rw [C85_correction h hZ hR hT hS, ccsdpt_sub, ccsdpt_brillouin h hZ hT hB, sub_zero]

/-! ### Concrete cases -/

/-- Integrals of real orbitals for the four orbitals and three electrons of `testOrbitals`. -/
def realIntegrals : Fock.Integrals :=
  ⟨fun p q => p + q, fun p q => 2 * p + 2 * q, fun p q r s => (p - q) * (r - s), fun p q r s => p + 2 * q + r + 2 * s,
    fun p q r s => 2 * (p - q) * (r - s)⟩

theorem realIntegrals_antisym : realIntegrals.Antisym := by
  constructor <;> intro p q r s <;> simp only [realIntegrals] <;> constructor <;> ring
theorem realIntegrals_real : realIntegrals.Real := by
  constructor <;> intro p q r s <;> simp only [realIntegrals] <;> ring

example : calcCcsdpt (setup testOrbitals realIntegrals 0) (Cluster.store [testCluster]) amplitudes stored false
    = some (ccsdpt testOrbitals realIntegrals testCluster (hamiltonian testOrbitals realIntegrals)) :=
  C85_correction testOrbitals_proper realIntegrals_antisym realIntegrals_real testCluster_antisym (by decide) 0

/-- With the spins exchanged there is no result. -/
example : calcCcsdpt (setup (⟨4, 1, 2, fun p => 2 * p, fun p => 2 * p + 1⟩ : Orbitals ℕ) realIntegrals 0)
    (Cluster.store [testCluster]) amplitudes stored false = none :=
  C85_no_result _ _ _ _ (by decide) (by decide)

/-- The formula of the comment does not hold for a reference that does not satisfy Brillouin's theorem. -/
theorem C85_documented_fails : ∃ (S : Orbitals ℕ) (Z : Fock.Integrals) (T : Cluster), S.Proper ∧ Z.Antisym ∧ Z.Real ∧ T.Antisym ∧
    S.nb ≤ S.na ∧ calcCcsdpt (setup S Z 0) (Cluster.store [T]) amplitudes stored false
      ≠ some (ccsdpt S Z T (hamiltonian S Z - fockOperator S Z)) := by
  refine ⟨testOrbitals, realIntegrals, testCluster, testOrbitals_proper, realIntegrals_antisym, realIntegrals_real,
    testCluster_antisym, by decide, fun e => ?_⟩
  rw [C85_correction testOrbitals_proper realIntegrals_antisym realIntegrals_real testCluster_antisym (by decide), ccsdpt_sub,
    Option.some.injEq] at e
  have hz : ccsdpt testOrbitals realIntegrals testCluster (fockOperator testOrbitals realIntegrals) = 0 := by linarith
  have hv : ccsdpt testOrbitals realIntegrals testCluster (fockOperator testOrbitals realIntegrals)
      = ∑ c ∈ range 3, (callPtB (setup testOrbitals realIntegrals 0) (Cluster.store [testCluster]) amplitudes stored).moment
          (PSpace.dimsOf (setup testOrbitals realIntegrals 0)) 1 2 1 1 2 (c + 1)
        * (callPtB (setup testOrbitals realIntegrals 0) (Cluster.store [testCluster]) amplitudes stored).temp3f 1 2 1 1 2 (c + 1)
        / (callPtB (setup testOrbitals realIntegrals 0) (Cluster.store [testCluster]) amplitudes stored).denom 1 2 1 1 2 (c + 1) := by
    have r : ∀ c ∈ range 3, ptTerm testOrbitals realIntegrals testCluster (fockOperator testOrbitals realIntegrals)
        (testOrbitals.exciteAAB 0 1 c 0 1 0) ((gapsA testOrbitals realIntegrals).aab 0 1 c 0 1 0)
        = (callPtB (setup testOrbitals realIntegrals 0) (Cluster.store [testCluster]) amplitudes stored).moment
          (PSpace.dimsOf (setup testOrbitals realIntegrals 0)) 1 2 1 1 2 (c + 1)
        * (callPtB (setup testOrbitals realIntegrals 0) (Cluster.store [testCluster]) amplitudes stored).temp3f 1 2 1 1 2 (c + 1)
        / (callPtB (setup testOrbitals realIntegrals 0) (Cluster.store [testCluster]) amplitudes stored).denom 1 2 1 1 2 (c + 1) :=
      fun c hc => by
        have hc' : c < testOrbitals.ub := Finset.mem_range.1 hc
        have e₁ := (pt_moment_b (setup testOrbitals realIntegrals 0) (Cluster.store [testCluster]) 0 1 c 0 1 0).trans
          (value_m3b testOrbitals_proper realIntegrals_antisym testCluster_antisym (by decide) (by decide) hc' (by decide) (by decide)
            (by decide))
        have e₂ := (pt_fock_b (setup testOrbitals realIntegrals 0) (Cluster.store [testCluster]) 0 1 c 0 1 0).trans
          (value_f3b testOrbitals_proper realIntegrals_antisym testCluster_antisym (by decide) (by decide) hc' (by decide) (by decide)
            (by decide))
        unfold ptTerm
        rw [← e₁, ← e₂]
        rfl
    rw [← Finset.sum_congr rfl r]
    unfold ccsdpt
    have n2 : ∀ n, Ico (n + 2) 2 = ∅ := fun n => by simp
    simp [testOrbitals, Orbitals.ua, Orbitals.ub, Finset.sum_range_succ, Finset.sum_Ico_eq_sum_range]
  rw [hv] at hz
  exact absurd hz (by decide +kernel)

/-- Integrals for the four orbitals and four electrons of `closedOrbitals`, with a diagonal Fock matrix. -/
def brillouinIntegrals : Fock.Integrals :=
  ⟨fun p q => (if p = q then p + 1 else 0) - p * q - (p - 1) * (q - 1) - p - q, fun p q => (if p = q then p + 1 else 0) - p * q - (p - 1) * (q - 1) - p - q,
    fun p q r s => (p - q) * (r - s), fun p q r s => p * q + r * s, fun p q r s => (p - q) * (r - s)⟩

theorem brillouinIntegrals_antisym : brillouinIntegrals.Antisym := by
  constructor <;> intro p q r s <;> simp only [brillouinIntegrals] <;> constructor <;> ring
theorem brillouinIntegrals_real : brillouinIntegrals.Real := by
  constructor <;> intro p q r s <;> simp only [brillouinIntegrals] <;> ring
theorem brillouinIntegrals_closed : ClosedShell closedOrbitals brillouinIntegrals :=
  ⟨rfl, rfl, rfl, fun p q r s => by simp only [brillouinIntegrals]; ring⟩
theorem brillouinIntegrals_fock : Brillouin closedOrbitals brillouinIntegrals := by
  constructor <;> intro i a hi ha <;>
    (change i < 2 at hi; change a < 2 at ha; interval_cases i <;> interval_cases a <;> decide +kernel)

example : calcCcsdpt (setup closedOrbitals brillouinIntegrals 0) (Cluster.store [closedCluster]) amplitudes stored false
    = some (ccsdpt closedOrbitals brillouinIntegrals closedCluster
        (hamiltonian closedOrbitals brillouinIntegrals - fockOperator closedOrbitals brillouinIntegrals)) :=
  C85_documented_partial closedOrbitals_proper brillouinIntegrals_antisym brillouinIntegrals_real closedCluster_antisym (by decide)
    brillouinIntegrals_fock 0

example : calcCcsdpt (setup closedOrbitals brillouinIntegrals 0) (Cluster.store [closedCluster]) amplitudes stored true
    = some (ccsdpt closedOrbitals brillouinIntegrals closedCluster (hamiltonian closedOrbitals brillouinIntegrals)) :=
  C85_closed closedOrbitals_proper brillouinIntegrals_closed brillouinIntegrals_antisym brillouinIntegrals_real closedCluster_antisym
    closedCluster_symmetric 0


end Ccpy.CrCc
