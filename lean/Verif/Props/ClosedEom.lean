import Verif.Lemmas.FlipBasic
import Verif.Lemmas.ClosedEomChecks
import Verif.Lemmas.ClosedHbar
import Verif.Props.ClosedShell
import Verif.Props.LeftCcsd
import Verif.Spec.ClosedShapes

/-! **C71** EOM-CCSD for closed shells.  When the similarity-transformed Hamiltonian is built with `flag_RHF=True`, the matrix-vector
product with `flag_RHF=False` is right for all excitation amplitudes (triplet states included), and the one with `flag_RHF=True`
is right for the amplitudes that do not change on reversal of all spins.  **C72** The same for the left CCSD equations.

The programs are those of C64 and C65: `/repo/ccpy/hbar/hbar_ccsd.py:4-304`, `/repo/ccpy/eomcc/eomccsd.py:30-132` and
`/repo/ccpy/left/left_ccsd.py`. -/

namespace Ccpy.EomCcsd
open Ccpy.Fock Ccpy.Tensor Ccpy.HbarCcsd Ccpy.Engine Ccpy.Ccsd

variable {ι : Type*} [LinearOrder ι]

theorem mem_two {α : Type*} {p : α → Prop} {x y : α} (hx : p x) (hy : p y) : ∀ t ∈ [x, y], p t := fun t ht => by
  simp only [List.mem_cons, List.not_mem_nil, or_false] at ht
  rcases ht with rfl | rfl
  · exact hx
  · exact hy

theorem store_two (T R : Cluster) : store3 [T, R] [] = Cluster.store [T, R] := by
  funext n idx
  unfold store3
  split_ifs with h
  · rfl
  · have e₁ : ∀ k l, (Triples.zero).amp k l = 0 := fun k l => by unfold Triples.amp; split <;> rfl
    have e₂ : ∀ k l, (Cluster.zero).amp k l = 0 := fun k l => by unfold Cluster.amp; split <;> rfl
    have e₃ : (([] : List Triples).getD ((n - 106) / 4) Triples.zero) = Triples.zero := rfl
    have e₄ : [T, R].getD ((n - 6) / 5) Cluster.zero = Cluster.zero := by
      rw [List.getD_eq_getElem?_getD, List.getElem?_eq_none (by simp only [List.length_cons, List.length_nil]; omega)]; rfl
    rw [e₃, e₁, Cluster.store, e₄, e₂]

theorem store_first (T R : Cluster) : ∀ k, 6 ≤ k → k < 11 → Cluster.store [T, R] k = T.amp k := fun k h₆ hk => by
  funext idx
  match k, h₆, hk with
  | 6, _, _ | 7, _, _ | 8, _, _ | 9, _, _ | 10, _, _ => rfl

/-- What the two programs compute one after the other: `build_hbar_ccsd` with `flag_RHF=True` and `HR` with the flag `singlet`. -/
def closedProduct (singlet : Bool) (X : Ints) : Amps :=
  HR excitation amplitudes X (buildHbarCcsd amplitudes stored true) singlet

section
variable {S : Orbitals ι} (h : S.Proper) {Z : Fock.Integrals} (hC : ClosedShell S Z) (hZ : Z.Antisym) {T : Cluster} (hT : T.Antisym)
  (hs : T.Symmetric) {R : Cluster} (hR : R.Antisym) (X : Ints)
include h hC hZ hT hs hR

theorem C71_1a {a i : ℕ} (ha : a < S.ua) (hi : i < S.na) :
    value S Z (Cluster.store [T, R]) (closedProduct false X).a [a, i]
      = S.element (S.singleA a i) (transformed S Z T * clusterOperator S R - clusterOperator S R * transformed S Z T) := by
  have e := hbar_value (S := S) hC hZ hT hs (amp := Cluster.store [T, R]) (store_first T R) (fun H => (HR excitation amplitudes stored H false).a)
    (fun _ => rfl) (C64_shapes stored).1.1 (idx := [a, i]) (congrArg List.length (C64_shapes stored).1.2.symm :)
  exact e.trans (C64_1a h hZ hT hR stored ha hi)

theorem C71_singlet_1a (hr : R.Symmetric) {a i : ℕ} (ha : a < S.ua) (hi : i < S.na) :
    value S Z (Cluster.store [T, R]) (closedProduct true X).a [a, i]
      = S.element (S.singleA a i) (transformed S Z T * clusterOperator S R - clusterOperator S R * transformed S Z T) :=
  C71_1a h hC hZ hT hs hR X ha hi

theorem C71_1b {a i : ℕ} (ha : a < S.ub) (hi : i < S.nb) :
    value S Z (Cluster.store [T, R]) (closedProduct false X).b [a, i]
      = S.element (S.singleB a i) (transformed S Z T * clusterOperator S R - clusterOperator S R * transformed S Z T) := by
  have e := hbar_value (S := S) hC hZ hT hs (amp := Cluster.store [T, R]) (store_first T R) (fun H => (HR excitation amplitudes stored H false).b)
    (fun _ => rfl) (C64_shapes stored).2.1.1 (idx := [a, i]) (congrArg List.length (C64_shapes stored).2.1.2.symm :)
  exact e.trans (C64_1b h hZ hT hR stored ha hi)

theorem C71_singlet_1b (hr : R.Symmetric) {a i : ℕ} (ha : a < S.ub) (hi : i < S.nb) :
    value S Z (Cluster.store [T, R]) (closedProduct true X).b [a, i]
      = S.element (S.singleB a i) (transformed S Z T * clusterOperator S R - clusterOperator S R * transformed S Z T) := by
  have e := C71_1a (S.flip_proper h) (flip_closed hC) hZ hT hs hR X ha hi
  rw [flip_value hC, flip_element, flip_transformed hC hs, flip_cluster hr, flip_singleA] at e
  exact Eq.trans rfl e

theorem C71_2a {a b i j : ℕ} (ha : a < S.ua) (hb : b < S.ua) (hi : i < S.na) (hj : j < S.na) :
    value S Z (Cluster.store [T, R]) (closedProduct false X).aa [a, b, i, j]
      = S.element (S.doubleAA a b i j) (transformed S Z T * clusterOperator S R - clusterOperator S R * transformed S Z T) := by
  have e := hbar_value (S := S) hC hZ hT hs (amp := Cluster.store [T, R]) (store_first T R) (fun H => (HR excitation amplitudes stored H false).aa)
    (fun _ => rfl) (C64_shapes stored).2.2.1.1 (idx := [a, b, i, j]) (congrArg List.length (C64_shapes stored).2.2.1.2.symm :)
  exact e.trans (C64_2a h hZ hT hR stored ha hb hi hj)

theorem C71_singlet_2a (hr : R.Symmetric) {a b i j : ℕ} (ha : a < S.ua) (hb : b < S.ua) (hi : i < S.na) (hj : j < S.na) :
    value S Z (Cluster.store [T, R]) (closedProduct true X).aa [a, b, i, j]
      = S.element (S.doubleAA a b i j) (transformed S Z T * clusterOperator S R - clusterOperator S R * transformed S Z T) :=
  C71_2a h hC hZ hT hs hR X ha hb hi hj

theorem C71_2b {a b i j : ℕ} (ha : a < S.ua) (hb : b < S.ub) (hi : i < S.na) (hj : j < S.nb) :
    value S Z (Cluster.store [T, R]) (closedProduct false X).ab [a, b, i, j]
      = S.element (S.doubleAB a b i j) (transformed S Z T * clusterOperator S R - clusterOperator S R * transformed S Z T) := by
  have e := hbar_value (S := S) hC hZ hT hs (amp := Cluster.store [T, R]) (store_first T R) (fun H => (HR excitation amplitudes stored H false).ab)
    (fun _ => rfl) (C64_shapes stored).2.2.2.1.1 (idx := [a, b, i, j]) (congrArg List.length (C64_shapes stored).2.2.2.1.2.symm :)
  exact e.trans (C64_2b h hZ hT hR stored ha hb hi hj)

theorem C71_singlet_2b (hr : R.Symmetric) {a b i j : ℕ} (ha : a < S.ua) (hb : b < S.ub) (hi : i < S.na) (hj : j < S.nb) :
    value S Z (Cluster.store [T, R]) (closedProduct true X).ab [a, b, i, j]
      = S.element (S.doubleAB a b i j) (transformed S Z T * clusterOperator S R - clusterOperator S R * transformed S Z T) :=
  C71_2b h hC hZ hT hs hR X ha hb hi hj

theorem C71_2c {a b i j : ℕ} (ha : a < S.ub) (hb : b < S.ub) (hi : i < S.nb) (hj : j < S.nb) :
    value S Z (Cluster.store [T, R]) (closedProduct false X).bb [a, b, i, j]
      = S.element (S.doubleBB a b i j) (transformed S Z T * clusterOperator S R - clusterOperator S R * transformed S Z T) := by
  have e := hbar_value (S := S) hC hZ hT hs (amp := Cluster.store [T, R]) (store_first T R) (fun H => (HR excitation amplitudes stored H false).bb)
    (fun _ => rfl) (C64_shapes stored).2.2.2.2.1 (idx := [a, b, i, j]) (congrArg List.length (C64_shapes stored).2.2.2.2.2.symm :)
  exact e.trans (C64_2c h hZ hT hR stored ha hb hi hj)

theorem C71_singlet_2c (hr : R.Symmetric) {a b i j : ℕ} (ha : a < S.ub) (hb : b < S.ub) (hi : i < S.nb) (hj : j < S.nb) :
    value S Z (Cluster.store [T, R]) (closedProduct true X).bb [a, b, i, j]
      = S.element (S.doubleBB a b i j) (transformed S Z T * clusterOperator S R - clusterOperator S R * transformed S Z T) := by
  have e := C71_2a (S.flip_proper h) (flip_closed hC) hZ hT hs hR X ha hb hi hj
  rw [flip_value hC, flip_element, flip_transformed hC hs, flip_cluster hr, flip_doubleAA] at e
  exact Eq.trans rfl e

end

/-- All contractions join axes of the same length and all sums have equal shapes, so `numpy` raises no error. -/
theorem C71_shapes (singlet : Bool) (X : Ints) :
    let P := closedProduct singlet X
    (P.a.okClosed = true ∧ P.a.axes = [1, 0]) ∧ (P.b.okClosed = true ∧ P.b.axes.map (· % 2) = [1, 0])
    ∧ (P.aa.okClosed = true ∧ P.aa.axes = [1, 1, 0, 0]) ∧ (P.ab.okClosed = true ∧ P.ab.axes = [1, 3, 0, 2])
    ∧ (P.bb.okClosed = true ∧ P.bb.axes.map (· % 2) = [1, 1, 0, 0]) := by
  have e : closedProduct singlet X = rightC true singlet := by cases singlet <;> rfl
  rw [e]
  cases singlet <;> decide +kernel

/-- The hypotheses hold for amplitudes of both kinds, and the elements are not zero. -/
def tripletExcitation : Cluster :=
  let t (p q r s : ℕ) : ℚ := ((p : ℚ) - q) * ((r : ℚ) - s)
  ⟨fun a i => a + 2 * i + 1, fun a i => - (a + 2 * i + 1), t, fun a b i j => a - b + i - j, fun p q r s => - t p q r s⟩
theorem tripletExcitation_antisym : tripletExcitation.Antisym := by
  constructor <;> intro p q r s <;> constructor <;> simp only [tripletExcitation] <;> ring

example : pairOrbitals.element (pairOrbitals.singleB 0 0) (transformed pairOrbitals pairIntegrals pairCluster
    * clusterOperator pairOrbitals tripletExcitation
      - clusterOperator pairOrbitals tripletExcitation * transformed pairOrbitals pairIntegrals pairCluster) = 3 := by
  rw [← C71_1b pairOrbitals_proper pair_shell pairIntegrals_antisym pairCluster_antisym pairCluster_symmetric
    tripletExcitation_antisym stored (by decide) (by decide)]
  decide +kernel

example : pairOrbitals.element (pairOrbitals.singleB 0 0) (transformed pairOrbitals pairIntegrals pairCluster
    * clusterOperator pairOrbitals pairCluster
      - clusterOperator pairOrbitals pairCluster * transformed pairOrbitals pairIntegrals pairCluster) = -6 := by
  rw [← C71_singlet_1b pairOrbitals_proper pair_shell pairIntegrals_antisym pairCluster_antisym pairCluster_symmetric
    pairCluster_antisym stored pairCluster_symmetric (by decide) (by decide)]
  decide +kernel

end Ccpy.EomCcsd

namespace Ccpy.LeftCcsd
open Ccpy.Fock Ccpy.Tensor Ccpy.HbarCcsd Ccpy.Engine Ccpy.Ccsd Ccpy.EomCcsd

variable {ι : Type*} [LinearOrder ι]

/-- The residual in `update` for the ground state or an excited state, with `build_hbar_ccsd` for `flag_RHF=True` and the flag
`singlet` in `update`. -/
def closedResidual (isGround singlet : Bool) (LH : Amps) (X : Ints) : Amps :=
  leftResidual excitation LH amplitudes X (buildHbarCcsd amplitudes stored true) isGround singlet

section
variable {S : Orbitals ι} (h : S.Proper) {Z : Fock.Integrals} (hC : ClosedShell S Z) (hZ : Z.Antisym) {T : Cluster} (hT : T.Antisym)
  (hs : T.Symmetric) {L : Cluster} (hL : L.Antisym) (LH : Amps) (X : Ints)
include h hC hZ hT hs hL

theorem C72_1a {a i : ℕ} (ha : a < S.ua) (hi : i < S.na) :
    value S Z (Cluster.store [T, L]) (closedResidual false false LH X).a [a, i]
      = S.element S.ref (deexcitation S L * (transformed S Z T * S.exciteA a i - S.exciteA a i * transformed S Z T)) := by
  have e := hbar_value (S := S) hC hZ hT hs (amp := Cluster.store [T, L]) (store_first T L) (fun H => (LHFun excitation excitation amplitudes stored H false).a)
    (fun _ => rfl) (C65_shapes false excitation stored).1.1 (idx := [a, i]) (congrArg List.length (C65_shapes false excitation stored).1.2.symm :)
  exact e.trans (C65_1a h hZ hT hL LH stored ha hi)

theorem C72_ground_1a {a i : ℕ} (ha : a < S.ua) (hi : i < S.na) :
    value S Z (Cluster.store [T, L]) (closedResidual true false LH X).a [a, i]
      = S.element S.ref ((1 + deexcitation S L) * (transformed S Z T * S.exciteA a i - S.exciteA a i * transformed S Z T)) := by
  have e := hbar_value (S := S) hC hZ hT hs (amp := Cluster.store [T, L]) (store_first T L) (fun H => H.a.ov) (fun _ => rfl)
    rfl (idx := [i, a]) rfl
  have e' := C72_1a h hC hZ hT hs hL LH X ha hi
  have g := C65_ground_1a h hZ hT hL LH stored ha hi
  rw [← g]
  have g₁ := C65_1a h hZ hT hL LH stored ha hi
  rw [← g₁] at e'
  exact congrArg₂ (· + ·) e' (show value S Z (Cluster.store [T, L]) (transpose [1, 0] (hbarC true).a.ov) [a, i]
    = value S Z (Cluster.store [T, L]) (transpose [1, 0] (hbarC false).a.ov) [a, i] from congrArg (· * (1 : ℚ)) e)

theorem C72_singlet_1a (hl : L.Symmetric) {a i : ℕ} (ha : a < S.ua) (hi : i < S.na) :
    value S Z (Cluster.store [T, L]) (closedResidual false true LH X).a [a, i]
      = S.element S.ref (deexcitation S L * (transformed S Z T * S.exciteA a i - S.exciteA a i * transformed S Z T)) :=
  C72_1a h hC hZ hT hs hL LH X ha hi

theorem C72_ground_singlet_1a (hl : L.Symmetric) {a i : ℕ} (ha : a < S.ua) (hi : i < S.na) :
    value S Z (Cluster.store [T, L]) (closedResidual true true LH X).a [a, i]
      = S.element S.ref ((1 + deexcitation S L) * (transformed S Z T * S.exciteA a i - S.exciteA a i * transformed S Z T)) := by
  have e := hbar_value (S := S) hC hZ hT hs (amp := Cluster.store [T, L]) (store_first T L) (fun H => H.a.ov) (fun _ => rfl)
    rfl (idx := [i, a]) rfl
  have e' := C72_singlet_1a h hC hZ hT hs hL LH X hl ha hi
  have g := C65_ground_1a h hZ hT hL LH stored ha hi
  rw [← g]
  have g₁ := C65_1a h hZ hT hL LH stored ha hi
  rw [← g₁] at e'
  exact congrArg₂ (· + ·) e' (show value S Z (Cluster.store [T, L]) (transpose [1, 0] (hbarC true).a.ov) [a, i]
    = value S Z (Cluster.store [T, L]) (transpose [1, 0] (hbarC false).a.ov) [a, i] from congrArg (· * (1 : ℚ)) e)

theorem C72_1b {a i : ℕ} (ha : a < S.ub) (hi : i < S.nb) :
    value S Z (Cluster.store [T, L]) (closedResidual false false LH X).b [a, i]
      = S.element S.ref (deexcitation S L * (transformed S Z T * S.exciteB a i - S.exciteB a i * transformed S Z T)) := by
  have e := hbar_value (S := S) hC hZ hT hs (amp := Cluster.store [T, L]) (store_first T L) (fun H => (LHFun excitation excitation amplitudes stored H false).b)
    (fun _ => rfl) (C65_shapes false excitation stored).2.1.1 (idx := [a, i]) (congrArg List.length (C65_shapes false excitation stored).2.1.2.symm :)
  exact e.trans (C65_1b h hZ hT hL LH stored ha hi)

theorem C72_ground_1b {a i : ℕ} (ha : a < S.ub) (hi : i < S.nb) :
    value S Z (Cluster.store [T, L]) (closedResidual true false LH X).b [a, i]
      = S.element S.ref ((1 + deexcitation S L) * (transformed S Z T * S.exciteB a i - S.exciteB a i * transformed S Z T)) := by
  have e := hbar_value (S := S) hC hZ hT hs (amp := Cluster.store [T, L]) (store_first T L) (fun H => H.b.ov) (fun _ => rfl)
    rfl (idx := [i, a]) rfl
  have e' := C72_1b h hC hZ hT hs hL LH X ha hi
  have g := C65_ground_1b h hZ hT hL LH stored ha hi
  rw [← g]
  have g₁ := C65_1b h hZ hT hL LH stored ha hi
  rw [← g₁] at e'
  exact congrArg₂ (· + ·) e' (show value S Z (Cluster.store [T, L]) (transpose [1, 0] (hbarC true).b.ov) [a, i]
    = value S Z (Cluster.store [T, L]) (transpose [1, 0] (hbarC false).b.ov) [a, i] from congrArg (· * (1 : ℚ)) e)

theorem C72_singlet_1b (hl : L.Symmetric) {a i : ℕ} (ha : a < S.ub) (hi : i < S.nb) :
    value S Z (Cluster.store [T, L]) (closedResidual false true LH X).b [a, i]
      = S.element S.ref (deexcitation S L * (transformed S Z T * S.exciteB a i - S.exciteB a i * transformed S Z T)) := by
  have e := C72_1a (S.flip_proper h) (flip_closed hC) hZ hT hs hL LH X ha hi
  rw [flip_value hC, flip_element, flip_transformed hC hs, flip_deexcitation hl, S.flip_ref] at e
  exact e

theorem C72_ground_singlet_1b (hl : L.Symmetric) {a i : ℕ} (ha : a < S.ub) (hi : i < S.nb) :
    value S Z (Cluster.store [T, L]) (closedResidual true true LH X).b [a, i]
      = S.element S.ref ((1 + deexcitation S L) * (transformed S Z T * S.exciteB a i - S.exciteB a i * transformed S Z T)) := by
  have e := hbar_value (S := S) hC hZ hT hs (amp := Cluster.store [T, L]) (store_first T L) (fun H => H.b.ov) (fun _ => rfl)
    rfl (idx := [i, a]) rfl
  have e' := C72_singlet_1b h hC hZ hT hs hL LH X hl ha hi
  have g := C65_ground_1b h hZ hT hL LH stored ha hi
  rw [← g]
  have g₁ := C65_1b h hZ hT hL LH stored ha hi
  rw [← g₁] at e'
  exact congrArg₂ (· + ·) e' (show value S Z (Cluster.store [T, L]) (transpose [1, 0] (hbarC true).b.ov) [a, i]
    = value S Z (Cluster.store [T, L]) (transpose [1, 0] (hbarC false).b.ov) [a, i] from congrArg (· * (1 : ℚ)) e)

theorem C72_2a {a b i j : ℕ} (ha : a < S.ua) (hb : b < S.ua) (hi : i < S.na) (hj : j < S.na) :
    value S Z (Cluster.store [T, L]) (closedResidual false false LH X).aa [a, b, i, j]
      = S.element S.ref (deexcitation S L * (transformed S Z T * S.exciteAA a b i j - S.exciteAA a b i j * transformed S Z T)) := by
  have e := hbar_value (S := S) hC hZ hT hs (amp := Cluster.store [T, L]) (store_first T L) (fun H => (LHFun excitation excitation amplitudes stored H false).aa)
    (fun _ => rfl) (C65_shapes false excitation stored).2.2.1.1 (idx := [a, b, i, j]) (congrArg List.length (C65_shapes false excitation stored).2.2.1.2.symm :)
  exact e.trans (C65_2a h hZ hT hL LH stored ha hb hi hj)

theorem C72_ground_2a {a b i j : ℕ} (ha : a < S.ua) (hb : b < S.ua) (hi : i < S.na) (hj : j < S.na) :
    value S Z (Cluster.store [T, L]) (closedResidual true false LH X).aa [a, b, i, j]
      = S.element S.ref ((1 + deexcitation S L) * (transformed S Z T * S.exciteAA a b i j - S.exciteAA a b i j * transformed S Z T)) := by
  have e := hbar_value (S := S) hC hZ hT hs (amp := Cluster.store [T, L]) (store_first T L) (fun H => H.aa.oovv) (fun _ => rfl)
    rfl (idx := [i, j, a, b]) rfl
  have e' := C72_2a h hC hZ hT hs hL LH X ha hb hi hj
  have g := C65_ground_2a h hZ hT hL LH stored ha hb hi hj
  rw [← g]
  have g₁ := C65_2a h hZ hT hL LH stored ha hb hi hj
  rw [← g₁] at e'
  exact congrArg₂ (· + ·) e' (show value S Z (Cluster.store [T, L]) (transpose [2, 3, 0, 1] (hbarC true).aa.oovv) [a, b, i, j]
    = value S Z (Cluster.store [T, L]) (transpose [2, 3, 0, 1] (hbarC false).aa.oovv) [a, b, i, j] from congrArg (· * (1 : ℚ)) e)

theorem C72_singlet_2a (hl : L.Symmetric) {a b i j : ℕ} (ha : a < S.ua) (hb : b < S.ua) (hi : i < S.na) (hj : j < S.na) :
    value S Z (Cluster.store [T, L]) (closedResidual false true LH X).aa [a, b, i, j]
      = S.element S.ref (deexcitation S L * (transformed S Z T * S.exciteAA a b i j - S.exciteAA a b i j * transformed S Z T)) :=
  C72_2a h hC hZ hT hs hL LH X ha hb hi hj

theorem C72_ground_singlet_2a (hl : L.Symmetric) {a b i j : ℕ} (ha : a < S.ua) (hb : b < S.ua) (hi : i < S.na) (hj : j < S.na) :
    value S Z (Cluster.store [T, L]) (closedResidual true true LH X).aa [a, b, i, j]
      = S.element S.ref ((1 + deexcitation S L) * (transformed S Z T * S.exciteAA a b i j - S.exciteAA a b i j * transformed S Z T)) := by
  have e := hbar_value (S := S) hC hZ hT hs (amp := Cluster.store [T, L]) (store_first T L) (fun H => H.aa.oovv) (fun _ => rfl)
    rfl (idx := [i, j, a, b]) rfl
  have e' := C72_singlet_2a h hC hZ hT hs hL LH X hl ha hb hi hj
  have g := C65_ground_2a h hZ hT hL LH stored ha hb hi hj
  rw [← g]
  have g₁ := C65_2a h hZ hT hL LH stored ha hb hi hj
  rw [← g₁] at e'
  exact congrArg₂ (· + ·) e' (show value S Z (Cluster.store [T, L]) (transpose [2, 3, 0, 1] (hbarC true).aa.oovv) [a, b, i, j]
    = value S Z (Cluster.store [T, L]) (transpose [2, 3, 0, 1] (hbarC false).aa.oovv) [a, b, i, j] from congrArg (· * (1 : ℚ)) e)

theorem C72_2b {a b i j : ℕ} (ha : a < S.ua) (hb : b < S.ub) (hi : i < S.na) (hj : j < S.nb) :
    value S Z (Cluster.store [T, L]) (closedResidual false false LH X).ab [a, b, i, j]
      = S.element S.ref (deexcitation S L * (transformed S Z T * S.exciteAB a b i j - S.exciteAB a b i j * transformed S Z T)) := by
  have e := hbar_value (S := S) hC hZ hT hs (amp := Cluster.store [T, L]) (store_first T L) (fun H => (LHFun excitation excitation amplitudes stored H false).ab)
    (fun _ => rfl) (C65_shapes false excitation stored).2.2.2.1.1 (idx := [a, b, i, j]) (congrArg List.length (C65_shapes false excitation stored).2.2.2.1.2.symm :)
  exact e.trans (C65_2b h hZ hT hL LH stored ha hb hi hj)

theorem C72_ground_2b {a b i j : ℕ} (ha : a < S.ua) (hb : b < S.ub) (hi : i < S.na) (hj : j < S.nb) :
    value S Z (Cluster.store [T, L]) (closedResidual true false LH X).ab [a, b, i, j]
      = S.element S.ref ((1 + deexcitation S L) * (transformed S Z T * S.exciteAB a b i j - S.exciteAB a b i j * transformed S Z T)) := by
  have e := hbar_value (S := S) hC hZ hT hs (amp := Cluster.store [T, L]) (store_first T L) (fun H => H.ab.oovv) (fun _ => rfl)
    rfl (idx := [i, j, a, b]) rfl
  have e' := C72_2b h hC hZ hT hs hL LH X ha hb hi hj
  have g := C65_ground_2b h hZ hT hL LH stored ha hb hi hj
  rw [← g]
  have g₁ := C65_2b h hZ hT hL LH stored ha hb hi hj
  rw [← g₁] at e'
  exact congrArg₂ (· + ·) e' (show value S Z (Cluster.store [T, L]) (transpose [2, 3, 0, 1] (hbarC true).ab.oovv) [a, b, i, j]
    = value S Z (Cluster.store [T, L]) (transpose [2, 3, 0, 1] (hbarC false).ab.oovv) [a, b, i, j] from congrArg (· * (1 : ℚ)) e)

theorem C72_singlet_2b (hl : L.Symmetric) {a b i j : ℕ} (ha : a < S.ua) (hb : b < S.ub) (hi : i < S.na) (hj : j < S.nb) :
    value S Z (Cluster.store [T, L]) (closedResidual false true LH X).ab [a, b, i, j]
      = S.element S.ref (deexcitation S L * (transformed S Z T * S.exciteAB a b i j - S.exciteAB a b i j * transformed S Z T)) :=
  C72_2b h hC hZ hT hs hL LH X ha hb hi hj

theorem C72_ground_singlet_2b (hl : L.Symmetric) {a b i j : ℕ} (ha : a < S.ua) (hb : b < S.ub) (hi : i < S.na) (hj : j < S.nb) :
    value S Z (Cluster.store [T, L]) (closedResidual true true LH X).ab [a, b, i, j]
      = S.element S.ref ((1 + deexcitation S L) * (transformed S Z T * S.exciteAB a b i j - S.exciteAB a b i j * transformed S Z T)) := by
  have e := hbar_value (S := S) hC hZ hT hs (amp := Cluster.store [T, L]) (store_first T L) (fun H => H.ab.oovv) (fun _ => rfl)
    rfl (idx := [i, j, a, b]) rfl
  have e' := C72_singlet_2b h hC hZ hT hs hL LH X hl ha hb hi hj
  have g := C65_ground_2b h hZ hT hL LH stored ha hb hi hj
  rw [← g]
  have g₁ := C65_2b h hZ hT hL LH stored ha hb hi hj
  rw [← g₁] at e'
  exact congrArg₂ (· + ·) e' (show value S Z (Cluster.store [T, L]) (transpose [2, 3, 0, 1] (hbarC true).ab.oovv) [a, b, i, j]
    = value S Z (Cluster.store [T, L]) (transpose [2, 3, 0, 1] (hbarC false).ab.oovv) [a, b, i, j] from congrArg (· * (1 : ℚ)) e)

theorem C72_2c {a b i j : ℕ} (ha : a < S.ub) (hb : b < S.ub) (hi : i < S.nb) (hj : j < S.nb) :
    value S Z (Cluster.store [T, L]) (closedResidual false false LH X).bb [a, b, i, j]
      = S.element S.ref (deexcitation S L * (transformed S Z T * S.exciteBB a b i j - S.exciteBB a b i j * transformed S Z T)) := by
  have e := hbar_value (S := S) hC hZ hT hs (amp := Cluster.store [T, L]) (store_first T L) (fun H => (LHFun excitation excitation amplitudes stored H false).bb)
    (fun _ => rfl) (C65_shapes false excitation stored).2.2.2.2.1 (idx := [a, b, i, j]) (congrArg List.length (C65_shapes false excitation stored).2.2.2.2.2.symm :)
  exact e.trans (C65_2c h hZ hT hL LH stored ha hb hi hj)

theorem C72_ground_2c {a b i j : ℕ} (ha : a < S.ub) (hb : b < S.ub) (hi : i < S.nb) (hj : j < S.nb) :
    value S Z (Cluster.store [T, L]) (closedResidual true false LH X).bb [a, b, i, j]
      = S.element S.ref ((1 + deexcitation S L) * (transformed S Z T * S.exciteBB a b i j - S.exciteBB a b i j * transformed S Z T)) := by
  have e := hbar_value (S := S) hC hZ hT hs (amp := Cluster.store [T, L]) (store_first T L) (fun H => H.bb.oovv) (fun _ => rfl)
    rfl (idx := [i, j, a, b]) rfl
  have e' := C72_2c h hC hZ hT hs hL LH X ha hb hi hj
  have g := C65_ground_2c h hZ hT hL LH stored ha hb hi hj
  rw [← g]
  have g₁ := C65_2c h hZ hT hL LH stored ha hb hi hj
  rw [← g₁] at e'
  exact congrArg₂ (· + ·) e' (show value S Z (Cluster.store [T, L]) (transpose [2, 3, 0, 1] (hbarC true).bb.oovv) [a, b, i, j]
    = value S Z (Cluster.store [T, L]) (transpose [2, 3, 0, 1] (hbarC false).bb.oovv) [a, b, i, j] from congrArg (· * (1 : ℚ)) e)

theorem C72_singlet_2c (hl : L.Symmetric) {a b i j : ℕ} (ha : a < S.ub) (hb : b < S.ub) (hi : i < S.nb) (hj : j < S.nb) :
    value S Z (Cluster.store [T, L]) (closedResidual false true LH X).bb [a, b, i, j]
      = S.element S.ref (deexcitation S L * (transformed S Z T * S.exciteBB a b i j - S.exciteBB a b i j * transformed S Z T)) := by
  have e := C72_2a (S.flip_proper h) (flip_closed hC) hZ hT hs hL LH X ha hb hi hj
  rw [flip_value hC, flip_element, flip_transformed hC hs, flip_deexcitation hl, S.flip_ref] at e
  exact e

theorem C72_ground_singlet_2c (hl : L.Symmetric) {a b i j : ℕ} (ha : a < S.ub) (hb : b < S.ub) (hi : i < S.nb) (hj : j < S.nb) :
    value S Z (Cluster.store [T, L]) (closedResidual true true LH X).bb [a, b, i, j]
      = S.element S.ref ((1 + deexcitation S L) * (transformed S Z T * S.exciteBB a b i j - S.exciteBB a b i j * transformed S Z T)) := by
  have e := hbar_value (S := S) hC hZ hT hs (amp := Cluster.store [T, L]) (store_first T L) (fun H => H.bb.oovv) (fun _ => rfl)
    rfl (idx := [i, j, a, b]) rfl
  have e' := C72_singlet_2c h hC hZ hT hs hL LH X hl ha hb hi hj
  have g := C65_ground_2c h hZ hT hL LH stored ha hb hi hj
  rw [← g]
  have g₁ := C65_2c h hZ hT hL LH stored ha hb hi hj
  rw [← g₁] at e'
  exact congrArg₂ (· + ·) e' (show value S Z (Cluster.store [T, L]) (transpose [2, 3, 0, 1] (hbarC true).bb.oovv) [a, b, i, j]
    = value S Z (Cluster.store [T, L]) (transpose [2, 3, 0, 1] (hbarC false).bb.oovv) [a, b, i, j] from congrArg (· * (1 : ℚ)) e)

end

theorem C72_shapes (isGround singlet : Bool) (LH : Amps) (X : Ints) :
    let P := closedResidual isGround singlet LH X
    (P.a.okClosed = true ∧ P.a.axes = [1, 0]) ∧ (P.b.okClosed = true ∧ P.b.axes.map (· % 2) = [1, 0])
    ∧ (P.aa.okClosed = true ∧ P.aa.axes = [1, 1, 0, 0]) ∧ (P.ab.okClosed = true ∧ P.ab.axes = [1, 3, 0, 2])
    ∧ (P.bb.okClosed = true ∧ P.bb.axes.map (· % 2) = [1, 1, 0, 0]) := by
  have e : closedResidual isGround singlet LH X = closedResidual isGround singlet excitation stored := by
    cases isGround <;> cases singlet <;> rfl
  rw [e]
  cases isGround <;> cases singlet <;> decide +kernel

/-- The equation of the ground state in a concrete case, from the restricted program. -/
example : pairOrbitals.element pairOrbitals.ref ((1 + deexcitation pairOrbitals pairCluster)
    * (transformed pairOrbitals pairIntegrals pairCluster * pairOrbitals.exciteB 0 0
      - pairOrbitals.exciteB 0 0 * transformed pairOrbitals pairIntegrals pairCluster)) = -5 := by
  rw [← C72_ground_singlet_1b pairOrbitals_proper pair_shell pairIntegrals_antisym pairCluster_antisym pairCluster_symmetric
    pairCluster_antisym excitation stored pairCluster_symmetric (by decide) (by decide)]
  decide +kernel

end Ccpy.LeftCcsd
