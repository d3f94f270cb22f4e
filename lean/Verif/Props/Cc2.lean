import Verif.Lemmas.Cc2
import Verif.Props.Ccd

/-! **C80** CC2: the residuals are the projections of `e^{-T} H e^{T} |Φ⟩` on the singly excited determinants and of
`(e^{-T₁} H e^{T₁} + [F, T₂]) |Φ⟩` on the doubly excited ones, and the amplitudes that one iteration leaves unchanged are exactly the
solutions of the CC2 equations.

The program is `/repo/ccpy/cc/cc2.py` with `flag_RHF=False`; the equations are those of `Spec/ApproximateCC.lean`. -/

namespace Ccpy.Cc2
open Ccpy.Fock Ccpy.Tensor Ccpy.Engine Ccpy.HbarCcs
open Ccpy.Ccsd (denote_anti setup Denominators)

variable {ι : Type*} [LinearOrder ι]

/-- The intermediates of one iteration when the amplitudes stay the same, from any earlier intermediates. -/
abbrev intermediates (X : Ints) : Ints := getPreCcsIntermediates X amplitudes stored false
abbrev transformedIntegrals (X : Ints) : Ints :=
  addVvvv (getCcsIntermediatesOpt (intermediates X) amplitudes stored false) amplitudes stored false

section
variable {S : Orbitals ι} (h : S.Proper) {Z : Fock.Integrals} (hZ : Z.Antisym) {T : Cluster} (hT : T.Antisym) (shift : ℚ) (X : Ints)
include h hZ hT

theorem C80_t1a {a i : ℕ} (ha : a < S.ua) (hi : i < S.na) :
    (setup S Z shift).eval T.amp (residualT1a amplitudes stored (intermediates X)) [a, i]
      = S.element (S.singleA a i) (transformed S Z T) :=
  value_t1a h hZ hT (fun _ _ _ => rfl) ha hi

theorem C80_t1b {a i : ℕ} (ha : a < S.ub) (hi : i < S.nb) :
    (setup S Z shift).eval T.amp (residualT1b amplitudes stored (intermediates X)) [a, i]
      = S.element (S.singleB a i) (transformed S Z T) :=
  value_t1b h hZ hT (fun _ _ _ => rfl) ha hi

/-- For equal spins the sum over exchanges that the kernel forms is the projection. -/
theorem C80_t2a {a b i j : ℕ} (ha : a < S.ua) (hb : b < S.ua) (hi : i < S.na) (hj : j < S.na) :
    let R := (setup S Z shift).eval T.amp (residualT2a amplitudes (transformedIntegrals X) stored)
    R [a, b, i, j] - R [b, a, i, j] - R [a, b, j, i] + R [b, a, j, i] = S.element (S.doubleAA a b i j) (cc2Doubles S Z T) :=
  (denote_anti _ _ _ a b i j).symm.trans (value_t2a h hZ hT (fun _ _ _ => rfl) ha hb hi hj)

theorem C80_t2b {a b i j : ℕ} (ha : a < S.ua) (hb : b < S.ub) (hi : i < S.na) (hj : j < S.nb) :
    (setup S Z shift).eval T.amp (residualT2b amplitudes (transformedIntegrals X) stored) [a, b, i, j]
      = S.element (S.doubleAB a b i j) (cc2Doubles S Z T) :=
  value_t2b h hZ hT (fun _ _ _ => rfl) ha hb hi hj

theorem C80_t2c {a b i j : ℕ} (ha : a < S.ub) (hb : b < S.ub) (hi : i < S.nb) (hj : j < S.nb) :
    let R := (setup S Z shift).eval T.amp (residualT2c amplitudes (transformedIntegrals X) stored)
    R [a, b, i, j] - R [b, a, i, j] - R [a, b, j, i] + R [b, a, j, i] = S.element (S.doubleBB a b i j) (cc2Doubles S Z T) :=
  (denote_anti _ _ _ a b i j).symm.trans (value_t2c h hZ hT (fun _ _ _ => rfl) ha hb hi hj)

/-- The amplitude arrays 11 to 15 after the iteration are equal to the arrays 6 to 10 before it if and only if the amplitudes
satisfy the CC2 equations, although the program uses amplitudes that are already updated. -/
theorem C80_fixed_point (hd : Denominators (setup S Z shift)) :
    (∀ k, 6 ≤ k → k ≤ 10 → update (setup S Z shift) X T.amp (k + 5) = T.amp k) ↔ SolvesCC2 S Z T := by
  let Q : ℕ → Prop := fun n => match n with
    | 1 => ∀ a i, a < S.ua → i < S.na → S.element (S.singleA a i) (transformed S Z T) = 0
    | 2 => ∀ a i, a < S.ub → i < S.nb → S.element (S.singleB a i) (transformed S Z T) = 0
    | 3 => ∀ a b i j, a < S.ua → b < S.ua → i < S.na → j < S.na → S.element (S.doubleAA a b i j) (cc2Doubles S Z T) = 0
    | 4 => ∀ a b i j, a < S.ua → b < S.ub → i < S.na → j < S.nb → S.element (S.doubleAB a b i j) (cc2Doubles S Z T) = 0
    | 5 => ∀ a b i j, a < S.ub → b < S.ub → i < S.nb → j < S.nb → S.element (S.doubleBB a b i j) (cc2Doubles S Z T) = 0
    | _ => True
  have main := stages_fixed (m₀ := T.amp) (Q := Q) (program (setup S Z shift) X) T.amp (k := 1) le_rfl
    (show 1 + 5 ≤ 10 by omega) (fun _ _ => rfl) (fun n => by
      have : backName (1 - 1) n = n := by unfold backName; split_ifs <;> omega
      rw [this]) (fun j hj m' hm hk => by
    have hj : j < 5 := hj
    interval_cases j
    · exact rest_t1a h hZ hT hd X hm hk
    · exact rest_t1b h hZ hT hd X hm hk
    · exact rest_t2a h hZ hT hd X hm hk
    · exact rest_t2b h hZ hT hd X hm hk
    · exact rest_t2c h hZ hT hd X hm hk)
  rw [← update_eq] at main
  have hlen : (program (setup S Z shift) X).length = 5 := rfl
  rw [hlen] at main
  refine Iff.trans ⟨fun g j hj => ?_, fun g k h₁ h₂ => ?_⟩ (main.trans ⟨fun g => ?_, fun g j hj => ?_⟩)
  · interval_cases j
    · exact g 6 (by omega) (by omega)
    · exact g 7 (by omega) (by omega)
    · exact g 8 (by omega) (by omega)
    · exact g 9 (by omega) (by omega)
    · exact g 10 (by omega) (by omega)
  · interval_cases k
    · exact g 0 (by omega)
    · exact g 1 (by omega)
    · exact g 2 (by omega)
    · exact g 3 (by omega)
    · exact g 4 (by omega)
  · exact ⟨g 0 (by omega), g 1 (by omega), g 2 (by omega), g 3 (by omega), g 4 (by omega)⟩
  · interval_cases j
    · exact g.a
    · exact g.b
    · exact g.aa
    · exact g.ab
    · exact g.bb
end

/-- The arrays 16 to 20, whose norm decides on convergence, are the differences of new and old amplitudes. -/
theorem C80_increments (s : Setup) (hd : Denominators s) {T : Cluster} (hT : T.Antisym) (X : Ints) :
    let m := update s X T.amp
    (∀ k, k = 6 ∨ k = 7 → ∀ a i, m (k + 10) [a, i] = m (k + 5) [a, i] - T.amp k [a, i])
    ∧ (∀ k, k = 8 ∨ k = 9 ∨ k = 10 → ∀ a b i j,
        m (k + 10) [a, b, i, j] = m (k + 5) [a, b, i, j] - T.amp k [a, b, i, j]) := by
  refine ⟨fun k hk a i => ?_, fun k hk a b i j => ?_⟩
  · rcases hk with rfl | rfl
    · exact (calledT1a s _ _ hd.a).change a i
    · exact (calledT1b s _ _ hd.b).change a i
  · rcases hk with rfl | rfl | rfl
    · exact (calledT2a s _ _ hT.aa (fun _ _ _ _ => rfl) hd.aa).change a b i j
    · exact (calledT2b s _ _ hd.ab).change a b i j
    · exact (calledT2c s _ _ hT.bb (fun _ _ _ _ => rfl) hd.bb).change a b i j

/-- All contractions join axes of the same orbital space and all sums have equal shapes, so `numpy` raises no error. -/
theorem C80_shapes (X : Ints) :
    ((residualT1a amplitudes stored (intermediates X)).ok = true ∧ (residualT1a amplitudes stored (intermediates X)).axes = [1, 0])
    ∧ ((residualT1b amplitudes stored (intermediates X)).ok = true ∧ (residualT1b amplitudes stored (intermediates X)).axes = [3, 2])
    ∧ ((residualT2a amplitudes (transformedIntegrals X) stored).ok = true
      ∧ (residualT2a amplitudes (transformedIntegrals X) stored).axes = [1, 1, 0, 0])
    ∧ ((residualT2b amplitudes (transformedIntegrals X) stored).ok = true
      ∧ (residualT2b amplitudes (transformedIntegrals X) stored).axes = [1, 3, 0, 2])
    ∧ ((residualT2c amplitudes (transformedIntegrals X) stored).ok = true
      ∧ (residualT2c amplitudes (transformedIntegrals X) stored).axes = [3, 3, 2, 2]) := by
  have t1a : residualT1a amplitudes stored (intermediates X) = residualT1a amplitudes stored pre := rfl
  have t1b : residualT1b amplitudes stored (intermediates X) = residualT1b amplitudes stored pre := rfl
  have t2a : residualT2a amplitudes (transformedIntegrals X) stored = residualT2a amplitudes hbar stored := rfl
  have t2b : residualT2b amplitudes (transformedIntegrals X) stored = residualT2b amplitudes hbar stored := rfl
  have t2c : residualT2c amplitudes (transformedIntegrals X) stored = residualT2c amplitudes hbar stored := rfl
  rw [t1a, t1b, t2a, t2b, t2c]
  decide +kernel

/-! ### Examples -/

/-- The hypotheses hold, and the projections are not zero. -/
example : Ccsd.exampleOrbitals.element (Ccsd.exampleOrbitals.doubleAB 0 1 0 0)
    (cc2Doubles Ccsd.exampleOrbitals Ccsd.exampleIntegrals Ccsd.exampleCluster) ≠ 0 := by
  rw [← C80_t2b Ccsd.exampleOrbitals_proper Ccsd.exampleIntegrals_antisym Ccsd.exampleCluster_antisym 0 stored (by decide) (by decide)
    (by decide) (by decide)]
  decide +kernel

/-- Two electrons of each spin in four orbitals.  The repulsion integrals excite pairs of equal spin and act between the virtual
orbitals: the single amplitudes `t_ai = δ_ai` and no doubles solve the CC2 equations. -/
def solvedIntegrals : Fock.Integrals :=
  let z (p q : ℕ) : ℚ := if p = q ∧ 2 ≤ p then 1 else if p = q + 2 then -1 else 0
  let s (p q : ℕ) : ℚ := if p = 2 ∧ q = 3 then 1 else if p = 3 ∧ q = 2 then -1 else 0
  let r (p q : ℕ) : ℚ := if p = 0 ∧ q = 1 then -1 else if p = 1 ∧ q = 0 then 1 else 0
  let v (p q p' q' : ℕ) : ℚ := s p q * (s p' q' + r p' q')
  ⟨z, z, v, fun _ _ _ _ => 0, v⟩
def solvedCluster : Cluster :=
  let t (a i : ℕ) : ℚ := if a = i then 1 else 0
  ⟨t, t, fun _ _ _ _ => 0, fun _ _ _ _ => 0, fun _ _ _ _ => 0⟩

theorem swap_pair (p q a b : ℕ) (h : a ≠ b) (x : ℚ) : (if q = a ∧ p = b then x else if q = b ∧ p = a then -x else 0)
    = -(if p = a ∧ q = b then x else if p = b ∧ q = a then -x else 0) := by
  split_ifs <;> first | omega | simp

theorem solvedIntegrals_antisym : solvedIntegrals.Antisym := by
  have e₁ := fun p q => swap_pair p q 2 3 (by decide) 1
  have e₂ := fun p q => swap_pair p q 0 1 (by decide) (-1)
  simp only [neg_neg] at e₂
  constructor <;> intro p q r s <;> constructor <;> simp only [solvedIntegrals]
  · rw [e₁ p q]; ring
  · rw [e₁ r s, e₂ r s]; ring
  · rw [e₁ p q]; ring
  · rw [e₁ r s, e₂ r s]; ring
theorem solvedCluster_antisym : solvedCluster.Antisym := by
  constructor <;> intro p q r s <;> constructor <;> rfl

theorem solved_denominators : Denominators (setup Ccsd.closedOrbitals solvedIntegrals 0) := by
  have d₁ : ∀ a < 2, ∀ i < 2, (setup Ccsd.closedOrbitals solvedIntegrals 0).dA a i ≠ 0
      ∧ (setup Ccsd.closedOrbitals solvedIntegrals 0).dB a i ≠ 0 := by decide +kernel
  have d₂ : ∀ a < 2, ∀ b < 2, ∀ i < 2, ∀ j < 2, (setup Ccsd.closedOrbitals solvedIntegrals 0).dAA a b i j ≠ 0 := by decide +kernel
  have d₃ : ∀ a < 2, ∀ b < 2, ∀ i < 2, ∀ j < 2, (setup Ccsd.closedOrbitals solvedIntegrals 0).dAB a b i j ≠ 0 := by decide +kernel
  have d₄ : ∀ a < 2, ∀ b < 2, ∀ i < 2, ∀ j < 2, (setup Ccsd.closedOrbitals solvedIntegrals 0).dBB a b i j ≠ 0 := by decide +kernel
  exact ⟨fun a i h₁ h₂ => (d₁ a h₁ i h₂).1, fun a i h₁ h₂ => (d₁ a h₁ i h₂).2,
    fun a b i j h₁ h₂ h₃ h₄ => d₂ a h₁ b h₂ i h₃ j h₄, fun a b i j h₁ h₂ h₃ h₄ => d₃ a h₁ b h₂ i h₃ j h₄,
    fun a b i j h₁ h₂ h₃ h₄ => d₄ a h₁ b h₂ i h₃ j h₄⟩

theorem exchange_zero (R : List ℕ → ℚ) (d : R [0, 1, 0, 1] - R [1, 0, 0, 1] - R [0, 1, 1, 0] + R [1, 0, 1, 0] = 0) {a b i j : ℕ}
    (h₁ : a < 2) (h₂ : b < 2) (h₃ : i < 2) (h₄ : j < 2) :
    R [a, b, i, j] - R [b, a, i, j] - R [a, b, j, i] + R [b, a, j, i] = 0 := by
  interval_cases a <;> interval_cases b <;> interval_cases i <;> interval_cases j <;>
    linarith

theorem solved_equations : SolvesCC2 Ccsd.closedOrbitals solvedIntegrals solvedCluster := by
  constructor
  · intro a i h₁ h₂
    rw [← C80_t1a Ccsd.closedOrbitals_proper solvedIntegrals_antisym solvedCluster_antisym 0 stored h₁ h₂]
    have d : ∀ a < 2, ∀ i < 2, (setup Ccsd.closedOrbitals solvedIntegrals 0).eval solvedCluster.amp
        (residualT1a amplitudes stored (intermediates stored)) [a, i] = 0 := by decide +kernel
    exact d a h₁ i h₂
  · intro a i h₁ h₂
    rw [← C80_t1b Ccsd.closedOrbitals_proper solvedIntegrals_antisym solvedCluster_antisym 0 stored h₁ h₂]
    have d : ∀ a < 2, ∀ i < 2, (setup Ccsd.closedOrbitals solvedIntegrals 0).eval solvedCluster.amp
        (residualT1b amplitudes stored (intermediates stored)) [a, i] = 0 := by decide +kernel
    exact d a h₁ i h₂
  · intro a b i j h₁ h₂ h₃ h₄
    rw [← C80_t2a Ccsd.closedOrbitals_proper solvedIntegrals_antisym solvedCluster_antisym 0 stored h₁ h₂ h₃ h₄]
    exact exchange_zero _ (by decide +kernel) h₁ h₂ h₃ h₄
  · intro a b i j h₁ h₂ h₃ h₄
    rw [← C80_t2b Ccsd.closedOrbitals_proper solvedIntegrals_antisym solvedCluster_antisym 0 stored h₁ h₂ h₃ h₄]
    have d : ∀ a < 2, ∀ b < 2, ∀ i < 2, ∀ j < 2, (setup Ccsd.closedOrbitals solvedIntegrals 0).eval solvedCluster.amp
        (residualT2b amplitudes (transformedIntegrals stored) stored) [a, b, i, j] = 0 := by decide +kernel
    exact d a h₁ b h₂ i h₃ j h₄
  · intro a b i j h₁ h₂ h₃ h₄
    rw [← C80_t2c Ccsd.closedOrbitals_proper solvedIntegrals_antisym solvedCluster_antisym 0 stored h₁ h₂ h₃ h₄]
    exact exchange_zero _ (by decide +kernel) h₁ h₂ h₃ h₄

/-- The iteration keeps these amplitudes. -/
example : ∀ k, 6 ≤ k → k ≤ 10 →
    update (setup Ccsd.closedOrbitals solvedIntegrals 0) stored solvedCluster.amp (k + 5) = solvedCluster.amp k :=
  (C80_fixed_point Ccsd.closedOrbitals_proper solvedIntegrals_antisym solvedCluster_antisym 0 stored solved_denominators).2
    solved_equations

end Ccpy.Cc2
