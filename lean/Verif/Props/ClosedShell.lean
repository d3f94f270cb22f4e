import Verif.Lemmas.ClosedCcsd
import Verif.Spec.ClosedShapes

/-! **C69** For closed shells the CCSD program works with the arrays of one spin only (`flag_RHF=True`, the default of the driver
when the numbers of electrons of both spins agree).  Its residuals are the projections of `e^{-T} H e^{T} |Φ⟩`, and the amplitudes
that an iteration leaves unchanged are exactly the solutions of the CCSD equations, those of the other spin included.

The programs are `/repo/ccpy/cc/ccsd.py` and `/repo/ccpy/hbar/hbar_ccs.py` (branch `flag_RHF=True`); closed shells and
amplitudes that do not change on reversal of all spins are defined in `Spec/ClosedShell.lean`. -/

namespace Ccpy.Ccsd
open Ccpy.Fock Ccpy.Tensor Ccpy.HbarCcs
open Ccpy.Ccsdt (eval_clean')

variable {ι : Type*} [LinearOrder ι]

section
variable {S : Orbitals ι} (h : S.Proper) {Z : Fock.Integrals} (hC : ClosedShell S Z) (hZ : Z.Antisym) {T : Cluster} (hT : T.Antisym)
  (hs : T.Symmetric) (shift : ℚ) (X : Ints)
include h hC hZ hT hs

theorem C69_t1a {a i : ℕ} (ha : a < S.ua) (hi : i < S.na) :
    (setup S Z shift).eval T.amp (residualT1a amplitudes (getPreCcsIntermediates X amplitudes stored true) stored) [a, i]
      = S.element (S.singleA a i) (transformed S Z T) := by
  rw [← value_t1a h hZ hT (store3_amp T) ha hi, ← closed_t1a hC hZ hT hs]
  exact congrFun (eval_clean' (clean_amp fun _ _ => rfl) cleanR_t1a) [a, i]

theorem C69_t2a {a b i j : ℕ} (ha : a < S.ua) (hb : b < S.ua) (hi : i < S.na) (hj : j < S.na) :
    let R := (setup S Z shift).eval T.amp (residualT2a amplitudes
      (getCcsIntermediatesOpt (getPreCcsIntermediates X amplitudes stored true) amplitudes stored true) stored)
    R [a, b, i, j] - R [b, a, i, j] - R [a, b, j, i] + R [b, a, j, i] = S.element (S.doubleAA a b i j) (transformed S Z T) := by
  intro R
  have e : R = value S Z (store3 [T] []) (residualT2a amplitudes hbarR stored) :=
    eval_clean' (clean_amp fun _ _ => rfl) cleanR_t2a
  rw [← value_t2a h hZ hT (store3_amp T) ha hb hi hj, e]
  simp only [closed_t2a hC hZ hT hs]
  exact (denote_anti _ _ _ a b i j).symm

theorem C69_t2b {a b i j : ℕ} (ha : a < S.ua) (hb : b < S.ub) (hi : i < S.na) (hj : j < S.nb) :
    (setup S Z shift).eval T.amp (residualT2b amplitudes
      (getCcsIntermediatesOpt (getPreCcsIntermediates X amplitudes stored true) amplitudes stored true) stored) [a, b, i, j]
      = S.element (S.doubleAB a b i j) (transformed S Z T) := by
  rw [← value_t2b h hZ hT (store3_amp T) ha hb hi hj, ← closed_t2b hC hZ hT hs]
  exact congrFun (eval_clean' (clean_amp fun _ _ => rfl) cleanR_t2b) [a, b, i, j]

/-- The amplitude arrays 11 to 15 after the restricted iteration are equal to the arrays 6 to 10 before it if and only if the
amplitudes satisfy the CCSD equations for both spins. -/
theorem C69_fixed_point (hd : Denominators (setup S Z shift)) :
    (∀ k, 6 ≤ k → k ≤ 10 → updateRhf (setup S Z shift) X T.amp (k + 5) = T.amp k) ↔ SolvesCCSD S Z T := by
  have hu : S.ub = S.ua := by unfold Orbitals.ub Orbitals.ua; rw [hC.electrons]
  let Q : ℕ → Prop := fun n => match n with
    | 1 => ∀ a i, a < S.ua → i < S.na → S.element (S.singleA a i) (transformed S Z T) = 0
    | 3 => ∀ a b i j, a < S.ua → b < S.ua → i < S.na → j < S.na → S.element (S.doubleAA a b i j) (transformed S Z T) = 0
    | 4 => ∀ a b i j, a < S.ua → b < S.ub → i < S.na → j < S.nb → S.element (S.doubleAB a b i j) (transformed S Z T) = 0
    | _ => True
  have main := stages_fixed (m₀ := T.amp) (Q := Q) (programR (setup S Z shift) X) T.amp (k := 1) le_rfl
    (show 1 + 5 ≤ 10 by omega) (fun _ _ => rfl) (fun n => by
      have : backName (1 - 1) n = n := by unfold backName; split_ifs <;> omega
      rw [this]) (fun j hj m' hm hk => by
    have hj : j < 5 := hj
    interval_cases j
    · exact restR_t1a h hC hZ hT hs hd X hm hk
    · refine iff_of_true ?_ trivial
      show m' 11 = T.amp 7
      rw [hk 11, show backName (1 + 1 - 1) 11 = 6 from rfl, hm 6 (by unfold Reserved; omega)]
      exact copied_t1 hs
    · exact restR_t2a h hC hZ hT hs hd X hm hk
    · exact restR_t2b h hC hZ hT hs hd X hm hk
    · refine iff_of_true ?_ trivial
      show m' 13 = T.amp 10
      rw [hk 13, show backName (1 + 4 - 1) 13 = 8 from rfl, hm 8 (by unfold Reserved; omega)]
      exact copied_t2 hs)
  rw [← updateRhf_eq] at main
  have hlen : (programR (setup S Z shift) X).length = 5 := rfl
  rw [hlen] at main
  refine Iff.trans ⟨fun g j hj => ?_, fun g k h₁ h₂ => ?_⟩ (main.trans ⟨fun g => ?_, fun g j hj => ?_⟩)
  · interval_cases j
    · exact g 6 (by omega) (by omega)
    · exact g 7 (by omega) (by omega)
    · exact g 8 (by omega) (by omega)
    · exact g 9 (by omega) (by omega)
    · exact g 10 (by omega) (by omega)
  · interval_cases k
    · exact g 0 (by omega)
    · exact g 1 (by omega)
    · exact g 2 (by omega)
    · exact g 3 (by omega)
    · exact g 4 (by omega)
  · have g₁ : Q 1 := g 0 (by omega)
    have g₃ : Q 3 := g 2 (by omega)
    exact ⟨g₁, fun a i ha hi => (reversed_t1 hC hZ hT hs h (hu ▸ ha) (hC.electrons ▸ hi)).trans
      (g₁ a i (hu ▸ ha) (hC.electrons ▸ hi)), g₃, g 3 (by omega),
      fun a b i j ha hb hi hj => (reversed_t2 hC hZ hT hs h (hu ▸ ha) (hu ▸ hb) (hC.electrons ▸ hi) (hC.electrons ▸ hj)).trans
      (g₃ a b i j (hu ▸ ha) (hu ▸ hb) (hC.electrons ▸ hi) (hC.electrons ▸ hj))⟩
  · interval_cases j
    · exact g.a
    · trivial
    · exact g.aa
    · exact g.ab
    · trivial

end

/-- The arrays 16 to 20, whose norm decides on convergence, are the differences of new and old amplitudes, for both spins. -/
theorem C69_increments (s : Setup) (hd : Denominators s) {T : Cluster} (hT : T.Antisym) (hs : T.Symmetric) (X : Ints) :
    let m := updateRhf s X T.amp
    (∀ k, k = 6 ∨ k = 7 → ∀ a i, m (k + 10) [a, i] = m (k + 5) [a, i] - T.amp k [a, i])
    ∧ (∀ k, k = 8 ∨ k = 9 ∨ k = 10 → ∀ a b i j,
        m (k + 10) [a, b, i, j] = m (k + 5) [a, b, i, j] - T.amp k [a, b, i, j]) := by
  refine ⟨fun k hk a i => ?_, fun k hk a b i j => ?_⟩
  · rcases hk with rfl | rfl
    · exact (calledT1a s _ _ hd.a).change a i
    · rw [← copied_t1 hs]
      exact (calledT1a s _ _ hd.a).change a i
  · rcases hk with rfl | rfl | rfl
    · exact (calledT2a s _ _ hT.aa (fun _ _ _ _ => rfl) hd.aa).change a b i j
    · exact (calledT2b s _ _ hd.ab).change a b i j
    · rw [← copied_t2 hs]
      exact (calledT2a s _ _ hT.aa (fun _ _ _ _ => rfl) hd.aa).change a b i j

/-- All contractions join axes of the same length and all sums have equal shapes, so `numpy` raises no error. -/
theorem C69_shapes (X : Ints) :
    let P := getPreCcsIntermediates X amplitudes stored true
    let H := getCcsIntermediatesOpt P amplitudes stored true
    ((residualT1a amplitudes P stored).okClosed = true ∧ (residualT1a amplitudes P stored).axes = [1, 0])
    ∧ ((residualT2a amplitudes H stored).okClosed = true ∧ (residualT2a amplitudes H stored).axes = [1, 1, 0, 0])
    ∧ ((residualT2b amplitudes H stored).okClosed = true ∧ (residualT2b amplitudes H stored).axes = [1, 3, 0, 2]) := by
  intro P H
  have t1a : residualT1a amplitudes P stored = residualT1a amplitudes preR stored := rfl
  have t2a : residualT2a amplitudes H stored = residualT2a amplitudes hbarR stored := rfl
  have t2b : residualT2b amplitudes H stored = residualT2b amplitudes hbarR stored := rfl
  rw [t1a, t2a, t2b]
  decide +kernel

/-! ### Examples -/

/-- Two electrons of each spin in four orbitals. -/
def closedOrbitals : Orbitals ℕ := ⟨4, 2, 2, fun p => 2 * p, fun p => 2 * p + 1⟩
def closedIntegrals : Fock.Integrals :=
  let v (p q r s : ℕ) : ℚ := ((p : ℚ) - q) * ((r : ℚ) - s) * (1 + p * q + 2 * (r * s))
  let z (p q : ℕ) : ℚ := p * 10 + q + 1
  ⟨z, z, v, fun p q r s => p + q - 3 * (r * p) - 3 * (s * q) + 2 * (r + s) + 1, v⟩
def closedCluster : Cluster :=
  let t (p q r s : ℕ) : ℚ := ((p : ℚ) - q) * ((r : ℚ) - s) * (2 + p * q + r * s)
  let u (a i : ℕ) : ℚ := a + 2 * i + 1
  ⟨u, u, t, fun a b i j => a * i + b * j - 2 * (a + b) + 1, t⟩

theorem closedOrbitals_proper : closedOrbitals.Proper where
  up_inj := fun p q h => by simp only [closedOrbitals] at h; omega
  down_inj := fun p q h => by simp only [closedOrbitals] at h; omega
  ne := fun p q h => by simp only [closedOrbitals] at h; omega
  ha := by decide
  hb := by decide

theorem closedIntegrals_antisym : closedIntegrals.Antisym := by
  constructor <;> intro p q r s <;> constructor <;> simp only [closedIntegrals] <;> ring
theorem closedCluster_antisym : closedCluster.Antisym := by
  constructor <;> intro p q r s <;> constructor <;> simp only [closedCluster] <;> ring
theorem closed_shell : ClosedShell closedOrbitals closedIntegrals where
  electrons := rfl
  z := rfl
  same := rfl
  mixed := fun p q r s => by simp only [closedIntegrals]; ring
theorem closedCluster_symmetric : closedCluster.Symmetric where
  a := rfl
  aa := rfl
  ab := fun a b i j => by simp only [closedCluster]; ring

/-- The hypotheses of C69 hold, and the projections are not zero. -/
example : closedOrbitals.element (closedOrbitals.doubleAB 0 1 0 0) (transformed closedOrbitals closedIntegrals closedCluster) ≠ 0 := by
  rw [← C69_t2b closedOrbitals_proper closed_shell closedIntegrals_antisym closedCluster_antisym closedCluster_symmetric 0 stored
    (by decide) (by decide) (by decide) (by decide)]
  decide +kernel

/-- Two electrons in two orbitals with `2 + t - t² = 0` for both of them. -/
def pairOrbitals : Orbitals ℕ := ⟨2, 1, 1, fun p => 2 * p, fun p => 2 * p + 1⟩
def pairIntegrals : Fock.Integrals :=
  let z (p q : ℕ) : ℚ := if p = 1 ∧ q = 0 then 2 else if p = 0 ∧ q = 0 then 0 else 1
  ⟨z, z, fun _ _ _ _ => 0, fun _ _ _ _ => 0, fun _ _ _ _ => 0⟩
def pairCluster : Cluster := ⟨fun _ _ => 2, fun _ _ => 2, fun _ _ _ _ => 0, fun _ _ _ _ => 0, fun _ _ _ _ => 0⟩

theorem pairOrbitals_proper : pairOrbitals.Proper where
  up_inj := fun p q h => by simp only [pairOrbitals] at h; omega
  down_inj := fun p q h => by simp only [pairOrbitals] at h; omega
  ne := fun p q h => by simp only [pairOrbitals] at h; omega
  ha := by decide
  hb := by decide
theorem pairIntegrals_antisym : pairIntegrals.Antisym := by
  constructor <;> intro p q r s <;> constructor <;> rfl
theorem pairCluster_antisym : pairCluster.Antisym := by
  constructor <;> intro p q r s <;> constructor <;> rfl
theorem pair_shell : ClosedShell pairOrbitals pairIntegrals := ⟨rfl, rfl, rfl, fun _ _ _ _ => rfl⟩
theorem pairCluster_symmetric : pairCluster.Symmetric := ⟨rfl, rfl, fun _ _ _ _ => rfl⟩

theorem below_one {a : ℕ} (h : a < 1) : a = 0 := by omega

theorem pair_denominators : Denominators (setup pairOrbitals pairIntegrals 0) := by
  constructor
  · intro a i h₁ h₂
    rw [below_one h₁, below_one h₂]; decide +kernel
  · intro a i h₁ h₂
    rw [below_one h₁, below_one h₂]; decide +kernel
  · intro a b i j h₁ h₂ h₃ h₄
    rw [below_one h₁, below_one h₂, below_one h₃, below_one h₄]; decide +kernel
  · intro a b i j h₁ h₂ h₃ h₄
    rw [below_one h₁, below_one h₂, below_one h₃, below_one h₄]; decide +kernel
  · intro a b i j h₁ h₂ h₃ h₄
    rw [below_one h₁, below_one h₂, below_one h₃, below_one h₄]; decide +kernel

/-- The amplitudes solve the equations, and the restricted iteration keeps them. -/
theorem pair_solved : SolvesCCSD pairOrbitals pairIntegrals pairCluster := by
  constructor
  · intro a i h₁ h₂
    rw [← C61_t1a pairOrbitals_proper pairIntegrals_antisym pairCluster_antisym 0 stored h₁ h₂, below_one h₁, below_one h₂]
    decide +kernel
  · intro a i h₁ h₂
    rw [← C61_t1b pairOrbitals_proper pairIntegrals_antisym pairCluster_antisym 0 stored h₁ h₂, below_one h₁, below_one h₂]
    decide +kernel
  · intro a b i j h₁ h₂ h₃ h₄
    rw [← C61_t2a pairOrbitals_proper pairIntegrals_antisym pairCluster_antisym 0 stored h₁ h₂ h₃ h₄, below_one h₁, below_one h₂,
      below_one h₃, below_one h₄]
    decide +kernel
  · intro a b i j h₁ h₂ h₃ h₄
    rw [← C61_t2b pairOrbitals_proper pairIntegrals_antisym pairCluster_antisym 0 stored h₁ h₂ h₃ h₄, below_one h₁, below_one h₂,
      below_one h₃, below_one h₄]
    decide +kernel
  · intro a b i j h₁ h₂ h₃ h₄
    rw [← C61_t2c pairOrbitals_proper pairIntegrals_antisym pairCluster_antisym 0 stored h₁ h₂ h₃ h₄, below_one h₁, below_one h₂,
      below_one h₃, below_one h₄]
    decide +kernel

example : ∀ k, 6 ≤ k → k ≤ 10 → updateRhf (setup pairOrbitals pairIntegrals 0) stored pairCluster.amp (k + 5) = pairCluster.amp k :=
  (C69_fixed_point pairOrbitals_proper pair_shell pairIntegrals_antisym pairCluster_antisym pairCluster_symmetric 0 stored
    pair_denominators).2 pair_solved

/-! ### Symmetry between iterations -/

/-- Orbital energies `0, 10, 20, 30` and a repulsion that only moves electrons between the orbitals 0, 2 and between 1, 3. -/
def movingIntegrals : Fock.Integrals :=
  let f (p q : ℕ) : ℚ := if p + q = 2 ∧ p ≠ q then 1 else if p + q = 4 ∧ p ≠ q then 2 else 0
  let z (p q : ℕ) : ℚ := if p = q then 10 * p else 0
  let v (p q r s : ℕ) : ℚ := f p r * f q s - f p s * f q r
  ⟨z, z, v, fun p q r s => f p r * f q s, v⟩

/-- One iteration from zero amplitudes does not keep `t_ab[a, b, i, j] = t_ab[b, a, j, i]`: the new amplitudes of spin up enter the
equation of the opposite spins together with the old ones of spin down.  So C69 describes the solutions, not the amplitudes of an
unfinished iteration. -/
theorem C69_symmetry_fails : ∃ (S : Orbitals ℕ) (Z : Fock.Integrals), S.Proper ∧ ClosedShell S Z ∧ Z.Antisym
    ∧ Denominators (setup S Z 0) ∧ Cluster.zero.Symmetric ∧
    ∃ a b i j, a < S.ua ∧ b < S.ub ∧ i < S.na ∧ j < S.nb ∧
      updateRhf (setup S Z 0) stored Cluster.zero.amp 14 [b, a, j, i] ≠ updateRhf (setup S Z 0) stored Cluster.zero.amp 14 [a, b, i, j] := by
  refine ⟨closedOrbitals, movingIntegrals, closedOrbitals_proper, ⟨rfl, rfl, rfl, fun p q r s => ?_⟩, ?_, ?_,
    ⟨rfl, rfl, fun _ _ _ _ => rfl⟩, 0, 1, 0, 1, by decide, by decide, by decide, by decide, ?_⟩
  · simp only [movingIntegrals]; ring
  · constructor <;> intro p q r s <;> constructor <;> simp only [movingIntegrals] <;> ring
  · have d₁ : ∀ a < 2, ∀ i < 2, (setup closedOrbitals movingIntegrals 0).dA a i ≠ 0
        ∧ (setup closedOrbitals movingIntegrals 0).dB a i ≠ 0 := by decide +kernel
    have d₂ : ∀ a < 2, ∀ b < 2, ∀ i < 2, ∀ j < 2, (setup closedOrbitals movingIntegrals 0).dAA a b i j ≠ 0 := by decide +kernel
    have d₃ : ∀ a < 2, ∀ b < 2, ∀ i < 2, ∀ j < 2, (setup closedOrbitals movingIntegrals 0).dAB a b i j ≠ 0 := by decide +kernel
    have d₄ : ∀ a < 2, ∀ b < 2, ∀ i < 2, ∀ j < 2, (setup closedOrbitals movingIntegrals 0).dBB a b i j ≠ 0 := by decide +kernel
    exact ⟨fun a i h₁ h₂ => (d₁ a h₁ i h₂).1, fun a i h₁ h₂ => (d₁ a h₁ i h₂).2,
      fun a b i j h₁ h₂ h₃ h₄ => d₂ a h₁ b h₂ i h₃ j h₄, fun a b i j h₁ h₂ h₃ h₄ => d₃ a h₁ b h₂ i h₃ j h₄,
      fun a b i j h₁ h₂ h₃ h₄ => d₄ a h₁ b h₂ i h₃ j h₄⟩
  · decide +kernel

end Ccpy.Ccsd
