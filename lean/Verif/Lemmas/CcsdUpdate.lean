import Verif.Lemmas.Ccsd
import Verif.Lemmas.KernelCalls
import Verif.Model.CcsdUpdate

/-! The stages of one CCSD iteration. -/

namespace Ccpy.Ccsd
open Ccpy.Fock Ccpy.Tensor Ccpy.Engine Ccpy.HbarCcs

/-- The first `k` new amplitude arrays are identified with the old ones. -/
def back (k n : ℕ) : ℕ := if 11 ≤ n ∧ n ≤ 10 + k then n - 5 else n

def T₁ : Amps := { amplitudes with a := .arr 11 [1, 0] }
def T₂ : Amps := { T₁ with b := .arr 12 [3, 2] }
def T₃ : Amps := { T₂ with aa := .arr 13 [1, 1, 0, 0] }
def T₄ : Amps := { T₃ with ab := .arr 14 [1, 3, 0, 2] }

set_option maxRecDepth 100000 in
theorem rename_t1b (X : Ints) : (residualT1b T₁ (getPreCcsIntermediates X amplitudes stored false) stored).rename (back 1)
    = residualT1b amplitudes pre stored := by rfl
set_option maxRecDepth 100000 in
theorem rename_t2a (X : Ints) : (residualT2a T₂ (getCcsIntermediatesOpt (getPreCcsIntermediates X amplitudes stored false) T₂ stored
    false) stored).rename (back 2) = residualT2a amplitudes hbar stored := by rfl
set_option maxRecDepth 100000 in
theorem rename_t2b (X : Ints) : (residualT2b T₃ (getCcsIntermediatesOpt (getPreCcsIntermediates X amplitudes stored false) T₂ stored
    false) stored).rename (back 3) = residualT2b amplitudes hbar stored := by rfl
set_option maxRecDepth 100000 in
theorem rename_t2c (X : Ints) : (residualT2c T₄ (getCcsIntermediatesOpt (getPreCcsIntermediates X amplitudes stored false) T₂ stored
    false) stored).rename (back 4) = residualT2c amplitudes hbar stored := by rfl

theorem back_low (k n : ℕ) (h : n < 6) : back k n = n := if_neg (by omega)

section
variable (s : Setup) (X : Ints) (m : Memory)

def m₁ : Memory := m.store 11 (callT1a s (s.eval m (residualT1a amplitudes (getPreCcsIntermediates X amplitudes stored false) stored)) (m 6))
def m₂ : Memory := (m₁ s X m).store 12 (callT1b s (s.eval (m₁ s X m) (residualT1b T₁ (getPreCcsIntermediates X amplitudes stored false) stored)) (m₁ s X m 7))
def m₃ : Memory := (m₂ s X m).store 13 (callT2a s (s.eval (m₂ s X m) (residualT2a T₂ (getCcsIntermediatesOpt (getPreCcsIntermediates X amplitudes stored false) T₂ stored
    false) stored)) (m₂ s X m 8))
def m₄ : Memory := (m₃ s X m).store 14 (callT2b s (s.eval (m₃ s X m) (residualT2b T₃ (getCcsIntermediatesOpt (getPreCcsIntermediates X amplitudes stored false) T₂ stored
    false) stored)) (m₃ s X m 9))

theorem update_eq : update s X m = (m₄ s X m).store 15 (callT2c s (s.eval (m₄ s X m) (residualT2c T₄ (getCcsIntermediatesOpt (getPreCcsIntermediates X amplitudes stored false) T₂ stored
    false) stored)) (m₄ s X m 10)) := rfl
end

theorem store_new (m : Memory) (k : ℕ) (r) : m.store k r k = r.1 := by
  simp [Memory.store, Function.update]
theorem store_change (m : Memory) (k : ℕ) (r) : m.store k r (k + 5) = r.2 := by
  simp [Memory.store]
theorem store_old (m : Memory) (k : ℕ) (r) {n : ℕ} (h : n ≠ k) (h' : n ≠ k + 5) : m.store k r n = m n := by
  simp [Memory.store, Function.update, h, h']

/-- Evaluation after `k` stages. -/
theorem eval_back (s : Setup) (m : Memory) {k : ℕ} (hk : ∀ n, 11 ≤ n → n ≤ 10 + k → m n = m (n - 5)) (x : Ex) :
    s.eval m x = s.eval m (x.rename (back k)) := by
  refine s.eval_rename m (fun n h => back_low k n h) (fun n h => ?_) x
  unfold back
  split_ifs with hn
  · exact ⟨by omega, (hk n hn.1 hn.2).symm⟩
  · exact ⟨h, rfl⟩

end Ccpy.Ccsd

namespace Ccpy.Ccsd
open Ccpy.Fock Ccpy.Tensor Ccpy.Engine Ccpy.HbarCcs

theorem denote_anti (dim : ℕ → ℕ) (I : ℕ → List (ℕ × ℕ) → ℚ) (x : Ex) (a b i j : ℕ) :
    (anti x).denote dim I [a, b, i, j] = exchange (x.denote dim I) a b i j := by
  have e₁ := denote_transpose4 dim I x (p := 1) (q := 0) (r := 2) (s := 3) (by decide) [a, b, i, j]
  have e₂ := denote_transpose4 dim I x (p := 0) (q := 1) (r := 3) (s := 2) (by decide) [a, b, i, j]
  have e₃ := denote_transpose4 dim I x (p := 1) (q := 0) (r := 3) (s := 2) (by decide) [a, b, i, j]
  have e : (anti x).denote dim I [a, b, i, j] = x.denote dim I [a, b, i, j]
    + (if true then -1 else 1) * ((1 : ℕ) / (1 : ℕ)) * (transpose [1, 0, 2, 3] x).denote dim I [a, b, i, j]
    + (if true then -1 else 1) * ((1 : ℕ) / (1 : ℕ)) * (transpose [0, 1, 3, 2] x).denote dim I [a, b, i, j]
    + (transpose [1, 0, 3, 2] x).denote dim I [a, b, i, j] := by rfl
  rw [e, e₁, e₂, e₃]
  have d₁ : (List.range 4).map (look ([1, 0, 2, 3].zip [a, b, i, j])) = [b, a, i, j] := rfl
  have d₂ : (List.range 4).map (look ([0, 1, 3, 2].zip [a, b, i, j])) = [a, b, j, i] := rfl
  have d₃ : (List.range 4).map (look ([1, 0, 3, 2].zip [a, b, i, j])) = [b, a, j, i] := rfl
  rw [d₁, d₂, d₃]
  unfold exchange
  simp
  try ring
end Ccpy.Ccsd
