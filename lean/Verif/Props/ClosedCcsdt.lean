import Verif.Lemmas.ClosedCcsdt
import Verif.Props.ClosedShell
import Verif.Props.Ccsdt

/-! **C70** The CCSDT program for closed shells (`flag_RHF=True`, the default of the driver when the numbers of electrons of both
spins agree): its residuals are the projections of `e^{-T} H e^{T} |Φ⟩` with `T = T₁ + T₂ + T₃`, and the amplitudes that an iteration
leaves unchanged are exactly the solutions of the CCSDT equations for both spins.

The programs are `/repo/ccpy/cc/ccsdt.py`, `/repo/ccpy/hbar/hbar_ccs.py` and `/repo/ccpy/hbar/hbar_ccsd.py`
(`get_ccsd_intermediates`), branch `flag_RHF=True`. -/

namespace Ccpy.Ccsdt
open Ccpy.Fock Ccpy.Tensor Ccpy.HbarCcs Ccpy.Spec Ccpy.Ccsd

variable {ι : Type*} [LinearOrder ι]

/-- The intermediates at the three points of the restricted program. -/
def atSinglesR (X : Ints) : Ints := getPreCcsIntermediates X amplitudes3.toAmps stored true
def atDoublesR (X : Ints) : Ints := getCcsIntermediatesOpt (atSinglesR X) amplitudes3.toAmps stored true
def atTriplesR (X : Ints) : Ints := HbarCcsd.getCcsdIntermediates amplitudes3.toAmps (atDoublesR X) stored true

section
variable {S : Orbitals ι} (h : S.Proper) {Z : Fock.Integrals} (hC : ClosedShell S Z) (hZ : Z.Antisym) {T : Cluster} (hT : T.Antisym)
  (hs : T.Symmetric) {T₃ : Triples} (hT₃ : T₃.Antisym) (hs₃ : T₃.Symmetric) (shift : ℚ) (X : Ints)
include h hC hZ hT hs hT₃ hs₃

theorem C70_t1a {a i : ℕ} (ha : a < S.ua) (hi : i < S.na) :
    (setup S Z shift).eval (store3 [T] [T₃]) (residualT1a amplitudes3 (atSinglesR X) stored) [a, i]
      = S.element (S.singleA a i) (transformed3 S Z T T₃) :=
  (closed_t1a hC hZ hT hs hT₃ hs₃ a i).trans ((antisymmetrize_one _ _ _).symm.trans (value_t1a h hZ hT hT₃ ha hi))

theorem C70_t2a {a b i j : ℕ} (ha : a < S.ua) (hb : b < S.ua) (hi : i < S.na) (hj : j < S.na) :
    let R := (setup S Z shift).eval (store3 [T] [T₃]) (residualT2a amplitudes3 (atDoublesR X) stored)
    R [a, b, i, j] - R [b, a, i, j] - R [a, b, j, i] + R [b, a, j, i] = S.element (S.doubleAA a b i j) (transformed3 S Z T T₃) := by
  intro R
  have e : R = value S Z (store3 [T] [T₃]) (residualT2a amplitudes3 hbar1R stored) := rfl
  rw [e]
  simp only [closed_t2a hC hZ hT hs hT₃ hs₃]
  exact (antisymmetrize_two _ _ _ _ _ _).symm.trans (value_t2a h hZ hT hT₃ ha hb hi hj)

theorem C70_t2b {a b i j : ℕ} (ha : a < S.ua) (hb : b < S.ub) (hi : i < S.na) (hj : j < S.nb) :
    (setup S Z shift).eval (store3 [T] [T₃]) (residualT2b amplitudes3 (atDoublesR X) stored) [a, b, i, j]
      = S.element (S.doubleAB a b i j) (transformed3 S Z T T₃) :=
  (closed_t2b hC hZ hT hs hT₃ hs₃ a b i j).trans ((antisymmetrize_ab _ _).symm.trans (value_t2b h hZ hT hT₃ ha hb hi hj))

theorem C70_t3a {a b c i j k : ℕ} (ha : a < S.ua) (hb : b < S.ua) (hc : c < S.ua) (hi : i < S.na) (hj : j < S.na) (hk : k < S.na) :
    antisymmetrize ![false, false, false] ![false, false, false] (fun k =>
      (setup S Z shift).eval (store3 [T] [T₃]) (residualT3a amplitudes3 (atTriplesR X) stored) (listed k))
      (![a, b, c], ![i, j, k]) = S.element (S.tripleAAA a b c i j k) (transformed3 S Z T T₃) := by
  rw [← value_t3a h hZ hT hT₃ ha hb hc hi hj hk]
  exact congrArg (fun f => antisymmetrize ![false, false, false] ![false, false, false] f (![a, b, c], ![i, j, k])) (funext fun x =>
    closed_t3a hC hZ hT hs hT₃ hs₃ (x.1 0) (x.1 1) (x.1 2) (x.2 0) (x.2 1) (x.2 2))

theorem C70_t3b {a b c i j k : ℕ} (ha : a < S.ua) (hb : b < S.ua) (hc : c < S.ub) (hi : i < S.na) (hj : j < S.na) (hk : k < S.nb) :
    antisymmetrize ![false, false, true] ![false, false, true] (fun k =>
      (setup S Z shift).eval (store3 [T] [T₃]) (residualT3b amplitudes3 (atTriplesR X) stored) (listed k))
      (![a, b, c], ![i, j, k]) = S.element (S.tripleAAB a b c i j k) (transformed3 S Z T T₃) := by
  rw [← value_t3b h hZ hT hT₃ ha hb hc hi hj hk]
  exact congrArg (fun f => antisymmetrize ![false, false, true] ![false, false, true] f (![a, b, c], ![i, j, k])) (funext fun x =>
    closed_t3b hC hZ hT hs hT₃ hs₃ (x.1 0) (x.1 1) (x.1 2) (x.2 0) (x.2 1) (x.2 2))

/-- The amplitude arrays 11 to 15 and 110 to 113 after the restricted iteration are equal to the arrays 6 to 10 and 106 to 109
before it if and only if the amplitudes satisfy the CCSDT equations for both spins. -/
theorem C70_fixed_point (hd : Denominators3 (setup S Z shift)) :
    (let m := updateRhf (setup S Z shift) X (store3 [T] [T₃])
    (∀ k, 6 ≤ k → k ≤ 10 → m (k + 5) = T.amp k) ∧ ∀ k, 106 ≤ k → k ≤ 109 → m (k + 4) = T₃.amp k)
      ↔ SolvesCCSDT S Z T T₃ := by
  have hu : S.ub = S.ua := by unfold Orbitals.ub Orbitals.ua; rw [hC.electrons]
  have hn := hC.electrons
  let Q : ℕ → Prop := fun n => match n with
    | 1 => ∀ a i, a < S.ua → i < S.na →
        S.element (S.singleA a i) (transformed3 S Z T T₃) = 0
    | 3 => ∀ a b i j, a < S.ua → b < S.ua → i < S.na → j < S.na →
        S.element (S.doubleAA a b i j) (transformed3 S Z T T₃) = 0
    | 4 => ∀ a b i j, a < S.ua → b < S.ub → i < S.na → j < S.nb →
        S.element (S.doubleAB a b i j) (transformed3 S Z T T₃) = 0
    | 6 => ∀ a b c i j k, a < S.ua → b < S.ua → c < S.ua → i < S.na → j < S.na → k < S.na →
        S.element (S.tripleAAA a b c i j k) (transformed3 S Z T T₃) = 0
    | 7 => ∀ a b c i j k, a < S.ua → b < S.ua → c < S.ub → i < S.na → j < S.na → k < S.nb →
        S.element (S.tripleAAB a b c i j k) (transformed3 S Z T T₃) = 0
    | _ => True
  have main := stages_fixed (m₀ := store3 [T] [T₃]) (Q := Q) (programR (setup S Z shift) X) (store3 [T] [T₃]) (k := 1) le_rfl
    (show 1 + 9 ≤ 10 by omega) (fun _ _ => rfl) (fun n => by
      have : backName (1 - 1) n = n := by unfold backName; split_ifs <;> omega
      rw [this]) (fun j hj m' hm hk => by
    have hj : j < 9 := hj
    interval_cases j
    · exact restR_t1a h hC hZ hT hs hT₃ hs₃ hd X hm hk
    · refine iff_of_true ?_ trivial
      show m' 11 = store3 [T] [T₃] 7
      rw [hk 11, show backName (1 + 1 - 1) 11 = 6 from rfl, hm 6 (by unfold Reserved; omega)]
      exact copied_t1 hs
    · exact restR_t2a h hC hZ hT hs hT₃ hs₃ hd X hm hk
    · exact restR_t2b h hC hZ hT hs hT₃ hs₃ hd X hm hk
    · refine iff_of_true ?_ trivial
      show m' 13 = store3 [T] [T₃] 10
      rw [hk 13, show backName (1 + 4 - 1) 13 = 8 from rfl, hm 8 (by unfold Reserved; omega)]
      exact copied_t2 hs
    · exact restR_t3a h hC hZ hT hs hT₃ hs₃ hd X hm hk
    · exact restR_t3b h hC hZ hT hs hT₃ hs₃ hd X hm hk
    · refine iff_of_true ?_ trivial
      show reversed (m' 111) = store3 [T] [T₃] 108
      rw [hk 111, show backName (1 + 7 - 1) 111 = 107 from rfl, hm 107 (by unfold Reserved; omega)]
      exact copied_t3b hT₃ hs₃
    · refine iff_of_true ?_ trivial
      show m' 110 = store3 [T] [T₃] 109
      rw [hk 110, show backName (1 + 8 - 1) 110 = 106 from rfl, hm 106 (by unfold Reserved; omega)]
      exact copied_t3a hs₃)
  rw [← updateRhf_eq] at main
  have hlen : (programR (setup S Z shift) X).length = 9 := rfl
  rw [hlen] at main
  refine Iff.trans ⟨fun g j hj => ?_, fun g => ⟨fun k h₁ h₂ => ?_, fun k h₁ h₂ => ?_⟩⟩ (main.trans ⟨fun g => ?_, fun g j hj => ?_⟩)
  · interval_cases j
    · exact (g.1 6 (by omega) (by omega)).trans rfl
    · exact (g.1 7 (by omega) (by omega)).trans rfl
    · exact (g.1 8 (by omega) (by omega)).trans rfl
    · exact (g.1 9 (by omega) (by omega)).trans rfl
    · exact (g.1 10 (by omega) (by omega)).trans rfl
    · exact (g.2 106 (by omega) (by omega)).trans rfl
    · exact (g.2 107 (by omega) (by omega)).trans rfl
    · exact (g.2 108 (by omega) (by omega)).trans rfl
    · exact (g.2 109 (by omega) (by omega)).trans rfl
  · interval_cases k
    · exact (g 0 (by omega)).trans rfl
    · exact (g 1 (by omega)).trans rfl
    · exact (g 2 (by omega)).trans rfl
    · exact (g 3 (by omega)).trans rfl
    · exact (g 4 (by omega)).trans rfl
  · interval_cases k
    · exact (g 5 (by omega)).trans rfl
    · exact (g 6 (by omega)).trans rfl
    · exact (g 7 (by omega)).trans rfl
    · exact (g 8 (by omega)).trans rfl
  · have g₁ : Q 1 := g 0 (by omega)
    have g₃ : Q 3 := g 2 (by omega)
    have g₆ : Q 6 := g 5 (by omega)
    have g₇ : Q 7 := g 6 (by omega)
    exact ⟨g₁, fun a i ha hi => (reversed_t1 hC hZ hT hs hT₃ hs₃ h (hu ▸ ha) (hn ▸ hi)).trans (g₁ a i (hu ▸ ha) (hn ▸ hi)),
      g₃, g 3 (by omega),
      fun a b i j ha hb hi hj => (reversed_t2 hC hZ hT hs hT₃ hs₃ h (hu ▸ ha) (hu ▸ hb) (hn ▸ hi) (hn ▸ hj)).trans
        (g₃ a b i j (hu ▸ ha) (hu ▸ hb) (hn ▸ hi) (hn ▸ hj)),
      g₆, g₇,
      fun a b c i j k ha hb hc hi hj hk => (reversed_t3' hC hZ hT hs hT₃ hs₃ h ha hb hc hi hj hk).trans
        (g₇ b c a j k i (hu ▸ hb) (hu ▸ hc) (hu.symm ▸ ha) (hn ▸ hj) (hn ▸ hk) (hn.symm ▸ hi)),
      fun a b c i j k ha hb hc hi hj hk => (reversed_t3 hC hZ hT hs hT₃ hs₃ h (hu ▸ ha) (hu ▸ hb) (hu ▸ hc) (hn ▸ hi) (hn ▸ hj)
        (hn ▸ hk)).trans (g₆ a b c i j k (hu ▸ ha) (hu ▸ hb) (hu ▸ hc) (hn ▸ hi) (hn ▸ hj) (hn ▸ hk))⟩
  · interval_cases j
    · exact g.a
    · trivial
    · exact g.aa
    · exact g.ab
    · trivial
    · exact g.aaa
    · exact g.aab
    · trivial
    · trivial

end

/-- All contractions join axes of the same length and all sums have equal shapes, so `numpy` raises no error. -/
theorem C70_shapes (X : Ints) :
    ((residualT1a amplitudes3 (atSinglesR X) stored).okClosed = true ∧ (residualT1a amplitudes3 (atSinglesR X) stored).axes = [1, 0])
    ∧ ((residualT2a amplitudes3 (atDoublesR X) stored).okClosed = true
      ∧ (residualT2a amplitudes3 (atDoublesR X) stored).axes = [1, 1, 0, 0])
    ∧ ((residualT2b amplitudes3 (atDoublesR X) stored).okClosed = true
      ∧ (residualT2b amplitudes3 (atDoublesR X) stored).axes = [1, 3, 0, 2])
    ∧ ((residualT3a amplitudes3 (atTriplesR X) stored).okClosed = true
      ∧ (residualT3a amplitudes3 (atTriplesR X) stored).axes = [1, 1, 1, 0, 0, 0])
    ∧ ((residualT3b amplitudes3 (atTriplesR X) stored).okClosed = true
      ∧ (residualT3b amplitudes3 (atTriplesR X) stored).axes = [1, 1, 3, 0, 0, 2]) := by
  have t1a : residualT1a amplitudes3 (atSinglesR X) stored = residualT1a amplitudes3 preR stored := rfl
  have t2a : residualT2a amplitudes3 (atDoublesR X) stored = residualT2a amplitudes3 hbar1R stored := rfl
  have t2b : residualT2b amplitudes3 (atDoublesR X) stored = residualT2b amplitudes3 hbar1R stored := rfl
  have t3a : residualT3a amplitudes3 (atTriplesR X) stored = residualT3a amplitudes3 hbar2R stored := rfl
  have t3b : residualT3b amplitudes3 (atTriplesR X) stored = residualT3b amplitudes3 hbar2R stored := rfl
  rw [t1a, t2a, t2b, t3a, t3b]
  decide +kernel

/-! ### Examples -/

def closedTriples : Triples :=
  let t (p q r : ℕ) : ℚ := ((p : ℚ) - q) * ((p : ℚ) - r) * ((q : ℚ) - r)
  let d (p q : ℕ) : ℚ := (p : ℚ) - q
  ⟨fun a b c i j k => t a b c * t i j k, fun a b c i j k => d a b * d i j * (c + 2 * k + 1),
    fun a b c i j k => d b c * d j k * (a + 2 * i + 1), fun a b c i j k => t a b c * t i j k⟩

theorem closedTriples_antisym : closedTriples.Antisym := by
  constructor <;> intro a b c i j k <;> refine ⟨?_, ?_⟩ <;> (try refine ⟨?_, ?_, ?_⟩) <;> simp only [closedTriples] <;> ring
theorem closedTriples_symmetric : closedTriples.Symmetric := ⟨rfl, fun _ _ _ _ _ _ => rfl⟩

/-- The hypotheses of C70 hold, and the projections are not zero. -/
example : closedOrbitals.element (closedOrbitals.singleA 0 1)
    (transformed3 closedOrbitals closedIntegrals closedCluster closedTriples) ≠ 0 := by
  rw [← C70_t1a closedOrbitals_proper closed_shell closedIntegrals_antisym closedCluster_antisym closedCluster_symmetric
    closedTriples_antisym closedTriples_symmetric 0 stored (by decide) (by decide)]
  decide +kernel

theorem pair_denominators3 : Denominators3 (setup pairOrbitals pairIntegrals 0) := by
  refine ⟨pair_denominators, ?_, ?_, ?_, ?_⟩ <;>
  · rintro ⟨P, H⟩ ⟨h₁, h₂⟩
    have e₁ : P = fun _ => 0 := funext fun x => zero_of_lt_one (by have := h₁ x; fin_cases x <;> exact this)
    have e₂ : H = fun _ => 0 := funext fun x => zero_of_lt_one (by have := h₂ x; fin_cases x <;> exact this)
    rw [e₁, e₂]
    decide +kernel

theorem zero_symmetric : Triples.zero.Symmetric := ⟨rfl, fun _ _ _ _ _ _ => rfl⟩

/-- A case in which the equations hold with non-zero amplitudes: the restricted iteration keeps these amplitudes. -/
example :
    let m := updateRhf (setup pairOrbitals pairIntegrals 0) stored (store3 [pairCluster] [Triples.zero])
    (∀ k, 6 ≤ k → k ≤ 10 → m (k + 5) = pairCluster.amp k) ∧ ∀ k, 106 ≤ k → k ≤ 109 → m (k + 4) = Triples.zero.amp k := by
  rw [C70_fixed_point pairOrbitals_proper pair_shell pairIntegrals_antisym pairCluster_antisym pairCluster_symmetric triples_zero
    zero_symmetric 0 stored pair_denominators3]
  constructor
  · intro a i h₁ h₂
    rw [← C66_t1a pairOrbitals_proper pairIntegrals_antisym pairCluster_antisym triples_zero 0 stored h₁ h₂,
      zero_of_lt_one h₁, zero_of_lt_one h₂]
    decide +kernel
  · intro a i h₁ h₂
    rw [← C66_t1b pairOrbitals_proper pairIntegrals_antisym pairCluster_antisym triples_zero 0 stored h₁ h₂,
      zero_of_lt_one h₁, zero_of_lt_one h₂]
    decide +kernel
  · intro a b i j h₁ h₂ h₃ h₄
    rw [← C66_t2a pairOrbitals_proper pairIntegrals_antisym pairCluster_antisym triples_zero 0 stored h₁ h₂ h₃ h₄,
      zero_of_lt_one h₁, zero_of_lt_one h₂, zero_of_lt_one h₃, zero_of_lt_one h₄]
    decide +kernel
  · intro a b i j h₁ h₂ h₃ h₄
    rw [← C66_t2b pairOrbitals_proper pairIntegrals_antisym pairCluster_antisym triples_zero 0 stored h₁ h₂ h₃ h₄,
      zero_of_lt_one h₁, zero_of_lt_one h₂, zero_of_lt_one h₃, zero_of_lt_one h₄]
    decide +kernel
  · intro a b i j h₁ h₂ h₃ h₄
    rw [← C66_t2c pairOrbitals_proper pairIntegrals_antisym pairCluster_antisym triples_zero 0 stored h₁ h₂ h₃ h₄,
      zero_of_lt_one h₁, zero_of_lt_one h₂, zero_of_lt_one h₃, zero_of_lt_one h₄]
    decide +kernel
  · intro a b c i j k h₁ h₂ h₃ h₄ h₅ h₆
    rw [zero_of_lt_one h₁, zero_of_lt_one h₂]
    show inner (cre _ (cre _ _)) _ = 0
    rw [cre_twice, inner_zero_left]
  · intro a b c i j k h₁ h₂ h₃ h₄ h₅ h₆
    rw [zero_of_lt_one h₁, zero_of_lt_one h₂]
    show inner (cre _ (cre _ _)) _ = 0
    rw [cre_twice, inner_zero_left]
  · intro a b c i j k h₁ h₂ h₃ h₄ h₅ h₆
    rw [zero_of_lt_one h₂, zero_of_lt_one h₃]
    show inner (cre _ (cre _ (cre _ _))) _ = 0
    rw [cre_twice, map_zero, inner_zero_left]
  · intro a b c i j k h₁ h₂ h₃ h₄ h₅ h₆
    rw [zero_of_lt_one h₁, zero_of_lt_one h₂]
    show inner (cre _ (cre _ _)) _ = 0
    rw [cre_twice, inner_zero_left]

end Ccpy.Ccsdt
