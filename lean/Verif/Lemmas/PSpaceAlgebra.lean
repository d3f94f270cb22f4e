import Verif.Lemmas.PSpaceBlocks
import Verif.Model.PSpaceCalls
import Verif.Spec.PSpace
import Mathlib.Algebra.BigOperators.Ring.Finset
import Mathlib.Tactic.LinearCombination

/-! Sums over Kronecker's symbols. -/

namespace Ccpy.PSpace
open Ccpy.Fock

theorem delta_comm (x y : ℕ) : same1 x y = same1 y x := by simp [same1, eq_comm]

theorem delta_succ (x y : ℕ) : same1 (x + 1) (y + 1) = same1 x y := by simp [same1]

theorem ite_delta (x y : ℕ) (v : ℚ) : (if x = y then v else 0) = same1 x y * v := by simp [same1]

theorem ite_and_delta (x y : ℕ) (P : Prop) [Decidable P] (v : ℚ) :
    (if x = y ∧ P then v else 0) = same1 x y * (if P then v else 0) := by
  unfold same1; split_ifs <;> simp_all

theorem alternating2_ordered {x y p q : ℕ} (h : x < y) (h' : p < q) : alternating2 x y p q = same1 x p * same1 y q := by
  unfold alternating2 same1
  split_ifs <;> first | omega | simp

theorem alternating3_ordered {x y z p q r : ℕ} (h₁ : x < y) (h₂ : y < z) (h₃ : p < q) (h₄ : q < r) :
    alternating3 x y z p q r = same1 x p * same1 y q * same1 z r := by
  unfold alternating3
  rw [alternating2_ordered h₂ h₄, alternating2_ordered h₂ (h₃.trans h₄), alternating2_ordered h₂ h₃]
  unfold same1
  split_ifs <;> first | omega | simp

theorem delta_reversed {x y p q : ℕ} (h : x < y) (h' : q < p) : same1 x p * same1 y q = 0 := by
  unfold same1
  split_ifs <;> first | omega | simp

theorem sum_delta {n p : ℕ} (hp : p < n) (f : ℕ → ℚ) : ∑ z ∈ Finset.range n, f z * same1 z p = f p := by
  simp [same1, hp]

theorem alternating3_rotate (x y z p q r : ℕ) : alternating3 x y z p q r = alternating3 z x y p q r := by
  unfold alternating3 alternating2; ring

theorem alternating2_swap (x y p q : ℕ) : alternating2 y x p q = -alternating2 x y p q := by
  unfold alternating2; ring

theorem alternating3_swap (x y z p q r : ℕ) : alternating3 y x z p q r = -alternating3 x y z p q r := by
  unfold alternating3 alternating2; ring

theorem alternating3_swap' (x y z p q r : ℕ) : alternating3 x z y p q r = -alternating3 x y z p q r := by
  unfold alternating3 alternating2; ring

theorem alternating3_last (x y z p q r : ℕ) : alternating3 x y z p q r
    = alternating2 x y p q * same1 z r - alternating2 x y p r * same1 z q + alternating2 x y q r * same1 z p := by
  unfold alternating3 alternating2; ring

section
variable {n p q r : ℕ} (hp : p < n) (hq : q < n) (hr : r < n)
include hp hq

theorem sum_alternating2 (f : ℕ → ℚ) (x : ℕ) :
    ∑ z ∈ Finset.range n, f z * alternating2 x z p q = f q * same1 x p - f p * same1 x q := by
  simp only [alternating2, mul_sub, Finset.sum_sub_distrib]
  rw [← sum_delta hp (fun z => f z * same1 x q), ← sum_delta hq (fun z => f z * same1 x p)]
  simp only [mul_assoc]

theorem sum_alternating2_first (f : ℕ → ℚ) (x : ℕ) :
    ∑ z ∈ Finset.range n, f z * alternating2 z x p q = f p * same1 x q - f q * same1 x p := by
  have := sum_alternating2 hp hq f x
  simp only [alternating2_swap x, mul_neg, Finset.sum_neg_distrib, this]
  ring

include hr

theorem sum_alternating3 (f : ℕ → ℚ) (x y : ℕ) :
    ∑ z ∈ Finset.range n, f z * alternating3 x y z p q r
      = f r * alternating2 x y p q - f q * alternating2 x y p r + f p * alternating2 x y q r := by
  simp only [alternating3_last, mul_sub, mul_add, Finset.sum_sub_distrib, Finset.sum_add_distrib]
  rw [← sum_delta hp (fun z => f z * alternating2 x y q r), ← sum_delta hq (fun z => f z * alternating2 x y p r),
    ← sum_delta hr (fun z => f z * alternating2 x y p q)]
  simp only [mul_assoc]

/-- Two summation indices at the end. -/
theorem sum_sum_alternating3 (f : ℕ → ℕ → ℚ) (x : ℕ) :
    ∑ y ∈ Finset.range n, ∑ z ∈ Finset.range n, f y z * alternating3 x y z p q r
      = (f q r - f r q) * same1 x p - (f p r - f r p) * same1 x q + (f p q - f q p) * same1 x r := by
  have e : ∀ y, ∑ z ∈ Finset.range n, f y z * alternating3 x y z p q r
      = f y r * alternating2 x y p q - f y q * alternating2 x y p r + f y p * alternating2 x y q r :=
    fun y => sum_alternating3 hp hq hr (f y) x y
  simp only [e, Finset.sum_add_distrib, Finset.sum_sub_distrib]
  rw [sum_alternating2 hp hq, sum_alternating2 hp hr, sum_alternating2 hq hr]
  ring

/-- Two summation indices in front. -/
theorem sum_sum_alternating3_first (f : ℕ → ℕ → ℚ) (x : ℕ) :
    ∑ y ∈ Finset.range n, ∑ z ∈ Finset.range n, f y z * alternating3 y z x p q r
      = (f q r - f r q) * same1 x p - (f p r - f r p) * same1 x q + (f p q - f q p) * same1 x r := by
  rw [← sum_sum_alternating3 hp hq hr]
  simp only [alternating3_rotate _ _ x]

end

/-- `P(z/xy)`: the index `z` is exchanged with `x` and `y`. -/
def pick3 (F : ℕ → ℕ → ℕ → ℚ) (x y z : ℕ) : ℚ := F x y z - F x z y + F y z x

/-- `P(xy)` -/
def pick2 (F : ℕ → ℕ → ℚ) (x y : ℕ) : ℚ := F x y - F y x

end Ccpy.PSpace
