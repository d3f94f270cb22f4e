import Verif.Engine.SubClusters
import Verif.Lemmas.ClosedCcsd
import Verif.Model.Ccd

/-! The comparisons for the CCD equations, and the stages of one iteration. -/

namespace Ccpy.Ccd
open Ccpy.Fock Ccpy.Tensor Ccpy.Engine
open Ccpy.Ccsd (anti tableT antiSym_T holds_of denote_anti setup store_new store_old)

variable {ι : Type*} [LinearOrder ι]

section
set_option maxRecDepth 100000
theorem check_t2a : check (groups tableT) (listDoubles 0) listH (anti (residualT2a amplitudes stored)) [1, 5, 8, 12]
    (left [(true, 8), (true, 12), (false, 5), (false, 1)]) = true := by decide +kernel
theorem check_t2b : check (groups tableT) (listDoubles 0) listH (residualT2b amplitudes stored) [1, 7, 8, 14]
    (left [(true, 8), (true, 14), (false, 7), (false, 1)]) = true := by decide +kernel
theorem check_t2c : check (groups tableT) (listDoubles 0) listH (anti (residualT2c amplitudes stored)) [3, 7, 10, 14]
    (left [(true, 10), (true, 14), (false, 7), (false, 3)]) = true := by decide +kernel
end

theorem holds_zero {T : Cluster} {amp : ℕ → List ℕ → ℚ} (h : Holds T amp) : Holds T fun name => amp (0 + name) := by
  simpa only [Nat.zero_add] using h

section
variable {S : Orbitals ι} (h : S.Proper) {Z : Fock.Integrals} (hZ : Z.Antisym) {T : Cluster} (hT : T.Antisym)
  {amp : ℕ → List ℕ → ℚ} (ha : ∀ n, 6 ≤ n → n ≤ 10 → amp n = T.amp n)
include h hZ hT ha

theorem value_left {x : Ex} {ext : List ℕ} {bra : List Op} (hb : ∀ o ∈ bra, o.2 ∈ ext)
    (hx : check (groups tableT) (listDoubles 0) listH x ext (left bra) = true) {ρ : Env} (hρ : ExtOk (dimS S) ext ρ) :
    value S Z amp x (ext.map ρ) = expect S (evalO (opX S) ρ bra * transformed S Z T.doubles) :=
  check_left h (antiSym_T hZ hT ha) (fun m ρ => evalS_listDoubles S T (holds_zero (holds_of ha)) m ρ) (cluster_nilpotent h T.doubles) hb hx hρ

theorem value_t2a {a b i j : ℕ} (h₁ : a < S.ua) (h₂ : b < S.ua) (h₃ : i < S.na) (h₄ : j < S.na) :
    value S Z amp (anti (residualT2a amplitudes stored)) [a, b, i, j]
      = S.element (S.doubleAA a b i j) (transformed S Z T.doubles) := by
  have hρ : ExtOk (dimS S) [1, 5, 8, 12] (env [1, 5, 8, 12] [a, b, i, j]) := fun v hv => by
    simp only [List.mem_cons, List.not_mem_nil, or_false] at hv
    rcases hv with rfl | rfl | rfl | rfl <;> assumption
  refine (value_left h hZ hT ha (by decide) check_t2a hρ).trans ?_
  rw [evalO_four, element_double]
  rfl

theorem value_t2b {a b i j : ℕ} (h₁ : a < S.ua) (h₂ : b < S.ub) (h₃ : i < S.na) (h₄ : j < S.nb) :
    value S Z amp (residualT2b amplitudes stored) [a, b, i, j]
      = S.element (S.doubleAB a b i j) (transformed S Z T.doubles) := by
  have hρ : ExtOk (dimS S) [1, 7, 8, 14] (env [1, 7, 8, 14] [a, b, i, j]) := fun v hv => by
    simp only [List.mem_cons, List.not_mem_nil, or_false] at hv
    rcases hv with rfl | rfl | rfl | rfl <;> assumption
  refine (value_left h hZ hT ha (by decide) check_t2b hρ).trans ?_
  rw [evalO_four, element_double]
  rfl

theorem value_t2c {a b i j : ℕ} (h₁ : a < S.ub) (h₂ : b < S.ub) (h₃ : i < S.nb) (h₄ : j < S.nb) :
    value S Z amp (anti (residualT2c amplitudes stored)) [a, b, i, j]
      = S.element (S.doubleBB a b i j) (transformed S Z T.doubles) := by
  have hρ : ExtOk (dimS S) [3, 7, 10, 14] (env [3, 7, 10, 14] [a, b, i, j]) := fun v hv => by
    simp only [List.mem_cons, List.not_mem_nil, or_false] at hv
    rcases hv with rfl | rfl | rfl | rfl <;> assumption
  refine (value_left h hZ hT ha (by decide) check_t2c hρ).trans ?_
  rw [evalO_four, element_double]
  rfl
end

/-! ### Stages -/

def T₁ : Amps := { amplitudes with aa := .arr 13 [1, 1, 0, 0] }
def T₂ : Amps := { T₁ with ab := .arr 14 [1, 3, 0, 2] }

/-- The new amplitudes are identified with the old ones. -/
def back (n : ℕ) : ℕ := if n = 13 then 8 else if n = 14 then 9 else n

set_option maxRecDepth 100000 in
theorem rename_t2b : (residualT2b T₁ stored).rename back = residualT2b amplitudes stored := by rfl
set_option maxRecDepth 100000 in
theorem rename_t2c : (residualT2c T₂ stored).rename back = residualT2c amplitudes stored := by rfl
set_option maxRecDepth 100000 in
theorem rename_t2b' : (residualT2b T₁ stored).rename (fun n => if n = 13 then 8 else n) = residualT2b amplitudes stored := by rfl

theorem eval_back (s : Setup) (m : Memory) (h₁ : m 13 = m 8) (h₂ : m 14 = m 9) (x : Ex) :
    s.eval m x = s.eval m (x.rename back) := by
  refine s.eval_rename m (fun n h => by unfold back; split_ifs <;> omega) (fun n h => ?_) x
  unfold back
  split_ifs with e e
  · exact ⟨by omega, by rw [e, h₁]⟩
  · exact ⟨by omega, by rw [e, h₂]⟩
  · exact ⟨h, rfl⟩

theorem eval_back' (s : Setup) (m : Memory) (h₁ : m 13 = m 8) (x : Ex) :
    s.eval m x = s.eval m (x.rename (fun n => if n = 13 then 8 else n)) := by
  refine s.eval_rename m (fun n h => by split_ifs <;> omega) (fun n h => ?_) x
  split_ifs with e
  · exact ⟨by omega, by rw [e, h₁]⟩
  · exact ⟨h, rfl⟩

section
variable (s : Setup) (m : Memory)
def m₁ : Memory := m.store 13 (callT2a s (s.eval m (residualT2a amplitudes stored)) (m 8))
def m₂ : Memory := (m₁ s m).store 14 (callT2b s (s.eval (m₁ s m) (residualT2b T₁ stored)) (m₁ s m 9))
theorem update_eq : update s m = (m₂ s m).store 15 (callT2c s (s.eval (m₂ s m) (residualT2c T₂ stored)) (m₂ s m 10)) := rfl
theorem updateRhf_eq : updateRhf s m = (m₂ s m).store 15 (m₂ s m 13, m₂ s m 18) := rfl
end

end Ccpy.Ccd
