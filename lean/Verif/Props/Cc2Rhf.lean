import Verif.Props.Cc2

/-! **C81** The restricted CC2 iteration for closed shells (`flag_RHF=True`).

The singles equations and the doubles equations for opposite spins are those of CC2.  The doubles equations for equal spins are not:
`/repo/ccpy/cc/cc2.py:26-29` adds the contribution of four virtual orbitals in place to `X.aa.vvov` and to `X.bb.vvov`, which are the
same array (`/repo/ccpy/hbar/hbar_ccs.py:43`), so it counts twice.  The iteration solves equations with the additional term
`Σ_ef v_abef t_ei t_fj`. -/

namespace Ccpy.Cc2
open Ccpy.Fock Ccpy.Tensor Ccpy.Engine Ccpy.HbarCcs
open Ccpy.Ccsd (denote_anti setup Denominators store3_amp clean_amp copied_t1 copied_t2)
open Ccpy.Ccsdt (eval_clean')

variable {ι : Type*} [LinearOrder ι]

abbrev intermediatesRhf (X : Ints) : Ints := getPreCcsIntermediates X amplitudes stored true
abbrev transformedIntegralsRhf (X : Ints) : Ints :=
  addVvvv (getCcsIntermediatesOpt (intermediatesRhf X) amplitudes stored true) amplitudes stored true

section
variable {S : Orbitals ι} (h : S.Proper) {Z : Fock.Integrals} (hC : ClosedShell S Z) (hZ : Z.Antisym) {T : Cluster} (hT : T.Antisym)
  (hs : T.Symmetric) (shift : ℚ) (X : Ints)
include h hC hZ hT hs

theorem C81_t1a {a i : ℕ} (ha : a < S.ua) (hi : i < S.na) :
    (setup S Z shift).eval T.amp (residualT1a amplitudes stored (intermediatesRhf X)) [a, i]
      = S.element (S.singleA a i) (transformed S Z T) := by
  rw [← value_t1a h hZ hT (store3_amp T) ha hi, ← closed_t1a hC hZ hT hs]
  exact congrFun (eval_clean' (clean_amp fun _ _ => rfl) cleanR_t1a) [a, i]

theorem C81_t2b {a b i j : ℕ} (ha : a < S.ua) (hb : b < S.ub) (hi : i < S.na) (hj : j < S.nb) :
    (setup S Z shift).eval T.amp (residualT2b amplitudes (transformedIntegralsRhf X) stored) [a, b, i, j]
      = S.element (S.doubleAB a b i j) (cc2Doubles S Z T) := by
  rw [← value_t2b h hZ hT (store3_amp T) ha hb hi hj, ← closed_t2b hC hZ hT hs]
  exact congrFun (eval_clean' (clean_amp fun _ _ => rfl) cleanR_t2b) [a, b, i, j]

/-- The property asks for the projection alone; the program adds the contribution of four virtual orbitals a second time. -/
theorem C81_t2a_partial {a b i j : ℕ} (ha : a < S.ua) (hb : b < S.ua) (hi : i < S.na) (hj : j < S.na) :
    let R := (setup S Z shift).eval T.amp (residualT2a amplitudes (transformedIntegralsRhf X) stored)
    R [a, b, i, j] - R [b, a, i, j] - R [a, b, j, i] + R [b, a, j, i] = S.element (S.doubleAA a b i j) (cc2Doubles S Z T)
      + ∑ e ∈ Finset.range S.ua, ∑ f ∈ Finset.range S.ua,
          Z.vAA (S.na + a) (S.na + b) (S.na + e) (S.na + f) * T.tA e i * T.tA f j := by
  intro R
  have e : R = value S Z (store3 [T] []) (residualT2a amplitudes hbarR stored) :=
    eval_clean' (clean_amp fun _ _ => rfl) cleanR_t2a
  rw [← value_t2a h hZ hT (store3_amp T) ha hb hi hj, ← value_twice, ← closed_t2a hC hZ hT hs, e]
  exact (denote_anti _ _ _ a b i j).symm

/-- The amplitudes that the restricted iteration keeps solve the CC2 equations of the singles and of the doubles of opposite spins,
and equations with an additional term for the doubles of equal spins. -/
theorem C81_fixed_point_partial (hd : Denominators (setup S Z shift)) :
    (∀ k, 6 ≤ k → k ≤ 10 → updateRhf (setup S Z shift) X T.amp (k + 5) = T.amp k) ↔
    (∀ a i, a < S.ua → i < S.na → S.element (S.singleA a i) (transformed S Z T) = 0)
    ∧ (∀ a b i j, a < S.ua → b < S.ua → i < S.na → j < S.na → S.element (S.doubleAA a b i j) (cc2Doubles S Z T)
        + ∑ e ∈ Finset.range S.ua, ∑ f ∈ Finset.range S.ua,
          Z.vAA (S.na + a) (S.na + b) (S.na + e) (S.na + f) * T.tA e i * T.tA f j = 0)
    ∧ ∀ a b i j, a < S.ua → b < S.ub → i < S.na → j < S.nb → S.element (S.doubleAB a b i j) (cc2Doubles S Z T) = 0 := by
  let Q : ℕ → Prop := fun n => match n with
    | 1 => ∀ a i, a < S.ua → i < S.na → S.element (S.singleA a i) (transformed S Z T) = 0
    | 3 => ∀ a b i j, a < S.ua → b < S.ua → i < S.na → j < S.na → S.element (S.doubleAA a b i j) (cc2Doubles S Z T)
        + ∑ e ∈ Finset.range S.ua, ∑ f ∈ Finset.range S.ua,
          Z.vAA (S.na + a) (S.na + b) (S.na + e) (S.na + f) * T.tA e i * T.tA f j = 0
    | 4 => ∀ a b i j, a < S.ua → b < S.ub → i < S.na → j < S.nb → S.element (S.doubleAB a b i j) (cc2Doubles S Z T) = 0
    | _ => True
  have main := stages_fixed (m₀ := T.amp) (Q := Q) (programR (setup S Z shift) X) T.amp (k := 1) le_rfl
    (show 1 + 5 ≤ 10 by omega) (fun _ _ => rfl) (fun n => by
      have : backName (1 - 1) n = n := by unfold backName; split_ifs <;> omega
      rw [this]) (fun j hj m' hm hk => by
    have hj : j < 5 := hj
    interval_cases j
    · exact restR_t1a h hC hZ hT hs hd X hm hk
    · refine iff_of_true ?_ trivial
      show m' 11 = T.amp 7
      rw [hk 11, show backName (1 + 1 - 1) 11 = 6 from rfl, hm 6 (by unfold Reserved; omega)]
      exact copied_t1 hs
    · exact restR_t2a h hC hZ hT hs hd X hm hk
    · exact restR_t2b h hC hZ hT hs hd X hm hk
    · refine iff_of_true ?_ trivial
      show m' 13 = T.amp 10
      rw [hk 13, show backName (1 + 4 - 1) 13 = 8 from rfl, hm 8 (by unfold Reserved; omega)]
      exact copied_t2 hs)
  rw [← updateRhf_eq] at main
  have hlen : (programR (setup S Z shift) X).length = 5 := rfl
  rw [hlen] at main
  refine Iff.trans ⟨fun g j hj => ?_, fun g k h₁ h₂ => ?_⟩ (main.trans ⟨fun g => ?_, fun g j hj => ?_⟩)
  · interval_cases j
    · exact g 6 (by omega) (by omega)
    · exact g 7 (by omega) (by omega)
    · exact g 8 (by omega) (by omega)
    · exact g 9 (by omega) (by omega)
    · exact g 10 (by omega) (by omega)
  · interval_cases k
    · exact g 0 (by omega)
    · exact g 1 (by omega)
    · exact g 2 (by omega)
    · exact g 3 (by omega)
    · exact g 4 (by omega)
  · exact ⟨g 0 (by omega), g 2 (by omega), g 3 (by omega)⟩
  · interval_cases j
    · exact g.1
    · trivial
    · exact g.2.1
    · exact g.2.2
    · trivial

end

/-- All contractions join axes of the same length and all sums have equal shapes, so `numpy` raises no error. -/
theorem C81_shapes (X : Ints) :
    ((residualT1a amplitudes stored (intermediatesRhf X)).okClosed = true
      ∧ (residualT1a amplitudes stored (intermediatesRhf X)).axes = [1, 0])
    ∧ ((residualT2a amplitudes (transformedIntegralsRhf X) stored).okClosed = true
      ∧ (residualT2a amplitudes (transformedIntegralsRhf X) stored).axes = [1, 1, 0, 0])
    ∧ ((residualT2b amplitudes (transformedIntegralsRhf X) stored).okClosed = true
      ∧ (residualT2b amplitudes (transformedIntegralsRhf X) stored).axes = [1, 3, 0, 2]) := by
  have t1a : residualT1a amplitudes stored (intermediatesRhf X) = residualT1a amplitudes stored preR := rfl
  have t2a : residualT2a amplitudes (transformedIntegralsRhf X) stored = residualT2a amplitudes hbarR stored := rfl
  have t2b : residualT2b amplitudes (transformedIntegralsRhf X) stored = residualT2b amplitudes hbarR stored := rfl
  rw [t1a, t2a, t2b]
  decide +kernel

theorem solved_shell : ClosedShell Ccsd.closedOrbitals solvedIntegrals := ⟨rfl, rfl, rfl, fun _ _ _ _ => rfl⟩
theorem solvedCluster_symmetric : solvedCluster.Symmetric := ⟨rfl, rfl, fun _ _ _ _ => rfl⟩

/-- For a closed shell whose amplitudes solve the CC2 equations, the unrestricted iteration keeps them and the restricted iteration,
which the driver uses by default, does not. -/
theorem C81_fixed_point_fails : ∃ (S : Orbitals ℕ) (Z : Fock.Integrals) (T : Cluster), S.Proper ∧ ClosedShell S Z ∧ Z.Antisym
    ∧ T.Antisym ∧ T.Symmetric ∧ Denominators (setup S Z 0) ∧ SolvesCC2 S Z T
    ∧ (∀ k, 6 ≤ k → k ≤ 10 → update (setup S Z 0) stored T.amp (k + 5) = T.amp k)
    ∧ updateRhf (setup S Z 0) stored T.amp 13 [0, 1, 0, 1] ≠ T.amp 8 [0, 1, 0, 1] :=
  ⟨Ccsd.closedOrbitals, solvedIntegrals, solvedCluster, Ccsd.closedOrbitals_proper, solved_shell, solvedIntegrals_antisym,
    solvedCluster_antisym, solvedCluster_symmetric, solved_denominators, solved_equations,
    (C80_fixed_point Ccsd.closedOrbitals_proper solvedIntegrals_antisym solvedCluster_antisym 0 stored solved_denominators).2
      solved_equations, by decide +kernel⟩

/-- A case that satisfies the hypotheses, in which the additional term is not zero. -/
example : ∑ e ∈ Finset.range 2, ∑ f ∈ Finset.range 2,
    solvedIntegrals.vAA 2 3 (2 + e) (2 + f) * solvedCluster.tA e 0 * solvedCluster.tA f 1 = 1 := by decide +kernel

end Ccpy.Cc2
