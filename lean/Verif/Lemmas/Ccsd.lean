import Verif.Lemmas.CcElements
import Verif.Model.Ccsd

/-! The comparisons for the CCSD equations. -/

namespace Ccpy.Ccsd
open Ccpy.Fock Ccpy.Tensor Ccpy.Engine Ccpy.HbarCcs

variable {ι : Type*} [LinearOrder ι]

/-- The intermediates, without update of the amplitudes in between. -/
def pre : Ints := getPreCcsIntermediates stored amplitudes stored false
def hbar : Ints := getCcsIntermediatesOpt pre amplitudes stored false

/-- The signed sum over the exchanges of the first two and of the last two axes. -/
def anti (x : Ex) : Ex := x - transpose [1, 0, 2, 3] x - transpose [0, 1, 3, 2] x + transpose [1, 0, 3, 2] x

def tableT : List (ℕ × List ℕ) := [(3, [2, 2]), (5, [2, 2]), (8, [2, 2]), (10, [2, 2])]

section
set_option maxRecDepth 100000
theorem check_t1a : check (groups tableT) listT listH (residualT1a amplitudes pre stored) [1, 4]
    (left [(true, 4), (false, 1)]) = true := by decide +kernel
theorem check_t1b : check (groups tableT) listT listH (residualT1b amplitudes pre stored) [3, 6]
    (left [(true, 6), (false, 3)]) = true := by decide +kernel
theorem check_t2a : check (groups tableT) listT listH (anti (residualT2a amplitudes hbar stored)) [1, 5, 8, 12]
    (left [(true, 8), (true, 12), (false, 5), (false, 1)]) = true := by decide +kernel
theorem check_t2b : check (groups tableT) listT listH (residualT2b amplitudes hbar stored) [1, 7, 8, 14]
    (left [(true, 8), (true, 14), (false, 7), (false, 1)]) = true := by decide +kernel
theorem check_t2c : check (groups tableT) listT listH (anti (residualT2c amplitudes hbar stored)) [3, 7, 10, 14]
    (left [(true, 10), (true, 14), (false, 7), (false, 3)]) = true := by decide +kernel
end

theorem antiSym_T {na nb : ℕ} {f : Integrals.OneBody ℚ} {Z : Fock.Integrals} {T : Cluster} (hZ : Z.Antisym) (hT : T.Antisym)
    {amp : ℕ → List ℕ → ℚ} (ha : ∀ n, 6 ≤ n → n ≤ 10 → amp n = T.amp n) :
    AntiSym (groups tableT) (elements na nb f (stV Z) amp) := by
  refine antiSym_groups fun e he => ?_
  simp only [tableT, List.mem_cons, List.not_mem_nil, or_false] at he
  rcases he with rfl | rfl | rfl | rfl
  · exact anti_aa hZ.aa
  · exact anti_bb hZ.bb
  · refine anti_amp (n := 2) hT.aa (fun a b i j => by rw [ha _ (by decide) (by decide)]; rfl) fun l hl => ?_
    rw [ha _ (by decide) (by decide)]
    match l, hl with
    | [], _ | [_], _ | [_, _], _ | [_, _, _], _ | _ :: _ :: _ :: _ :: _ :: _, _ => rfl
    | [_, _, _, _], h => exact absurd rfl h
  · refine anti_amp (n := 4) hT.bb (fun a b i j => by rw [ha _ (by decide) (by decide)]; rfl) fun l hl => ?_
    rw [ha _ (by decide) (by decide)]
    match l, hl with
    | [], _ | [_], _ | [_, _], _ | [_, _, _], _ | _ :: _ :: _ :: _ :: _ :: _, _ => rfl
    | [_, _, _, _], h => exact absurd rfl h

theorem holds_of {T : Cluster} {amp : ℕ → List ℕ → ℚ} (ha : ∀ n, 6 ≤ n → n ≤ 10 → amp n = T.amp n) : Holds T amp := by
  constructor <;> intros <;> rw [ha _ (by decide) (by decide)] <;> rfl

section
variable {S : Orbitals ι} (h : S.Proper) {Z : Fock.Integrals} (hZ : Z.Antisym) {T : Cluster} (hT : T.Antisym)
  {amp : ℕ → List ℕ → ℚ} (ha : ∀ n, 6 ≤ n → n ≤ 10 → amp n = T.amp n)
include h hZ hT ha

theorem value_left {x : Ex} {ext : List ℕ} {bra : List Op} (hb : ∀ o ∈ bra, o.2 ∈ ext)
    (hx : check (groups tableT) listT listH x ext (left bra) = true) {ρ : Env} (hρ : ExtOk (dimS S) ext ρ) :
    value S Z amp x (ext.map ρ) = expect S (evalO (opX S) ρ bra * transformed S Z T) :=
  check_left h (antiSym_T hZ hT ha) (fun m ρ => evalS_listT S T (holds_of ha) m ρ) (cluster_nilpotent h T) hb hx hρ

theorem value_t1a {a i : ℕ} (ha' : a < S.ua) (hi : i < S.na) :
    value S Z amp (residualT1a amplitudes pre stored) [a, i] = S.element (S.singleA a i) (transformed S Z T) := by
  have hρ : ExtOk (dimS S) [1, 4] (env [1, 4] [a, i]) := fun v hv => by
    simp only [List.mem_cons, List.not_mem_nil, or_false] at hv
    rcases hv with rfl | rfl <;> assumption
  refine (value_left h hZ hT ha (by decide) check_t1a hρ).trans ?_
  rw [evalO_two, element_single]
  rfl

theorem value_t1b {a i : ℕ} (ha' : a < S.ub) (hi : i < S.nb) :
    value S Z amp (residualT1b amplitudes pre stored) [a, i] = S.element (S.singleB a i) (transformed S Z T) := by
  have hρ : ExtOk (dimS S) [3, 6] (env [3, 6] [a, i]) := fun v hv => by
    simp only [List.mem_cons, List.not_mem_nil, or_false] at hv
    rcases hv with rfl | rfl <;> assumption
  refine (value_left h hZ hT ha (by decide) check_t1b hρ).trans ?_
  rw [evalO_two, element_single]
  rfl

theorem value_t2a {a b i j : ℕ} (h₁ : a < S.ua) (h₂ : b < S.ua) (h₃ : i < S.na) (h₄ : j < S.na) :
    value S Z amp (anti (residualT2a amplitudes hbar stored)) [a, b, i, j]
      = S.element (S.doubleAA a b i j) (transformed S Z T) := by
  have hρ : ExtOk (dimS S) [1, 5, 8, 12] (env [1, 5, 8, 12] [a, b, i, j]) := fun v hv => by
    simp only [List.mem_cons, List.not_mem_nil, or_false] at hv
    rcases hv with rfl | rfl | rfl | rfl <;> assumption
  refine (value_left h hZ hT ha (by decide) check_t2a hρ).trans ?_
  rw [evalO_four, element_double]
  rfl

theorem value_t2b {a b i j : ℕ} (h₁ : a < S.ua) (h₂ : b < S.ub) (h₃ : i < S.na) (h₄ : j < S.nb) :
    value S Z amp (residualT2b amplitudes hbar stored) [a, b, i, j]
      = S.element (S.doubleAB a b i j) (transformed S Z T) := by
  have hρ : ExtOk (dimS S) [1, 7, 8, 14] (env [1, 7, 8, 14] [a, b, i, j]) := fun v hv => by
    simp only [List.mem_cons, List.not_mem_nil, or_false] at hv
    rcases hv with rfl | rfl | rfl | rfl <;> assumption
  refine (value_left h hZ hT ha (by decide) check_t2b hρ).trans ?_
  rw [evalO_four, element_double]
  rfl

theorem value_t2c {a b i j : ℕ} (h₁ : a < S.ub) (h₂ : b < S.ub) (h₃ : i < S.nb) (h₄ : j < S.nb) :
    value S Z amp (anti (residualT2c amplitudes hbar stored)) [a, b, i, j]
      = S.element (S.doubleBB a b i j) (transformed S Z T) := by
  have hρ : ExtOk (dimS S) [3, 7, 10, 14] (env [3, 7, 10, 14] [a, b, i, j]) := fun v hv => by
    simp only [List.mem_cons, List.not_mem_nil, or_false] at hv
    rcases hv with rfl | rfl | rfl | rfl <;> assumption
  refine (value_left h hZ hT ha (by decide) check_t2c hρ).trans ?_
  rw [evalO_four, element_double]
  rfl
end

end Ccpy.Ccsd
