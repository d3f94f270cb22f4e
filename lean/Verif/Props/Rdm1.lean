import Verif.Model.Rdm1
import Mathlib.Algebra.Field.Rat
import Mathlib.Tactic.Ring
import Mathlib.Tactic.LinearCombination
import Mathlib.Algebra.BigOperators.Group.Finset.Sigma
import Mathlib.Algebra.BigOperators.Ring.Finset

/-! The one-particle density matrices trace to the numbers of electrons (C36). -/

namespace Ccpy.Amplitudes
open Finset

variable {K : Type*} [Field K]

section
variable {M : Type*} [AddCommMonoid M] (A B C D E F : Finset ℕ)

theorem move2 (X : ℕ → ℕ → ℕ → M) :
    ∑ i ∈ C, ∑ e ∈ A, ∑ f ∈ B, X e f i = ∑ e ∈ A, ∑ f ∈ B, ∑ i ∈ C, X e f i := by
  rw [sum_comm]
  exact sum_congr rfl fun _ _ => sum_comm

theorem move3 (X : ℕ → ℕ → ℕ → ℕ → M) :
    ∑ i ∈ D, ∑ e ∈ A, ∑ f ∈ B, ∑ g ∈ C, X e f g i = ∑ e ∈ A, ∑ f ∈ B, ∑ g ∈ C, ∑ i ∈ D, X e f g i := by
  rw [sum_comm]
  exact sum_congr rfl fun _ _ => move2 _ _ _ _

theorem move5 (X : ℕ → ℕ → ℕ → ℕ → ℕ → ℕ → M) :
    ∑ i ∈ F, ∑ a ∈ A, ∑ b ∈ B, ∑ c ∈ C, ∑ d ∈ D, ∑ e ∈ E, X a b c d e i =
      ∑ a ∈ A, ∑ b ∈ B, ∑ c ∈ C, ∑ d ∈ D, ∑ e ∈ E, ∑ i ∈ F, X a b c d e i := by
  rw [sum_comm]
  refine sum_congr rfl fun _ _ => ?_
  rw [sum_comm]
  exact sum_congr rfl fun _ _ => move3 _ _ _ _ _

end

/-- Number of electrons in a density matrix. -/
def trace (nocc nunocc : ℕ) (g : DensityBlocks K) : K :=
  ∑ i ∈ range nocc, g.oo i i + ∑ a ∈ range nunocc, g.vv a a

/-- The alpha and beta density matrices trace to the numbers of alpha and beta electrons, for all
amplitudes and whether or not the triples are included. -/
theorem C36_trace (d : Dims) (orderT orderL : ℕ) (T L : Amplitudes K) :
    trace d.noa d.nua (calcRdm1 d orderT orderL T L).1 = d.noa ∧
    trace d.nob d.nub (calcRdm1 d orderT orderL T L).2 = d.nob := by
  have ha : ∑ i ∈ range d.noa, rdm_a_oo d T L i i + ∑ a ∈ range d.nua, rdm_a_vv d T L a a = d.noa := by
    have h1 := sum_comm (s := d.oa) (t := d.va) (f := fun i e => L.a e i * T.a e i)
    have h2 := move2 d.va d.va d.oa fun e f i => ∑ n ∈ d.oa, L.aa e f i n * T.aa e f i n
    have h3 := move2 d.va d.vb d.oa fun e f i => ∑ n ∈ d.ob, L.ab e f i n * T.ab e f i n
    simp only [rdm_a_oo, rdm_a_vv, if_true, sum_add_distrib, sum_sub_distrib, sum_neg_distrib, ← mul_sum,
      sum_const, card_range, nsmul_eq_mul, mul_one]
    linear_combination -h1 - 1 / 2 * h2 - h3
  have hb : ∑ i ∈ range d.nob, rdm_b_oo d T L i i + ∑ a ∈ range d.nub, rdm_b_vv d T L a a = d.nob := by
    have h1 := sum_comm (s := d.ob) (t := d.vb) (f := fun i e => L.b e i * T.b e i)
    have h2 := move2 d.vb d.vb d.ob fun e f i => ∑ n ∈ d.ob, L.bb e f i n * T.bb e f i n
    have h3 := move3 d.va d.vb d.oa d.ob fun e f n i => L.ab e f n i * T.ab e f n i
    have h4 := sum_comm (s := d.vb) (t := d.va) (f := fun a f => ∑ n ∈ d.oa, ∑ m ∈ d.ob,
      L.ab f a n m * T.ab f a n m)
    simp only [rdm_b_oo, rdm_b_vv, if_true, sum_add_distrib, sum_sub_distrib, sum_neg_distrib, ← mul_sum,
      sum_const, card_range, nsmul_eq_mul, mul_one]
    linear_combination -h1 - 1 / 2 * h2 - h3 + h4
  have ta : ∑ i ∈ range d.noa, rdmTriples_a_oo d T L i i + ∑ a ∈ range d.nua, rdmTriples_a_vv d T L a a = 0 := by
    have h1 := move3 d.va d.va d.va d.oa fun e f g i => ∑ n ∈ d.oa, ∑ o ∈ d.oa, L.aaa e f g i n o * T.aaa e f g i n o
    have h2 := move3 d.va d.va d.vb d.oa fun e f g i => ∑ n ∈ d.oa, ∑ o ∈ d.ob, L.aab e f g i n o * T.aab e f g i n o
    have h3 := move3 d.va d.vb d.vb d.oa fun e f g i => ∑ n ∈ d.ob, ∑ o ∈ d.ob, L.abb e f g i n o * T.abb e f g i n o
    simp only [rdmTriples_a_oo, rdmTriples_a_vv, sum_add_distrib, sum_sub_distrib, ← mul_sum]
    linear_combination -1 / 12 * h1 - 1 / 2 * h2 - 1 / 4 * h3
  have tb : ∑ i ∈ range d.nob, rdmTriples_b_oo d T L i i + ∑ a ∈ range d.nub, rdmTriples_b_vv d T L a a = 0 := by
    have h1 := move5 d.vb d.vb d.vb d.ob d.ob d.ob fun e f g o n i => L.bbb e f g o n i * T.bbb e f g o n i
    have h2 := move5 d.va d.vb d.vb d.oa d.ob d.ob fun e f g o n i => L.abb e f g o n i * T.abb e f g o n i
    have h3 := move5 d.va d.va d.vb d.oa d.oa d.ob fun e f g o n i => L.aab e f g o n i * T.aab e f g o n i
    have g1 := move2 d.vb d.vb d.vb fun e f g => ∑ o ∈ d.ob, ∑ n ∈ d.ob, ∑ i ∈ d.ob, L.bbb e f g o n i * T.bbb e f g o n i
    have g2 := move2 d.va d.vb d.vb fun e f g => ∑ o ∈ d.oa, ∑ n ∈ d.ob, ∑ i ∈ d.ob, L.abb e f g o n i * T.abb e f g o n i
    have g3 := move2 d.va d.va d.vb fun e f g => ∑ o ∈ d.oa, ∑ n ∈ d.oa, ∑ i ∈ d.ob, L.aab e f g o n i * T.aab e f g o n i
    simp only [rdmTriples_b_oo, rdmTriples_b_vv, sum_add_distrib, sum_sub_distrib, ← mul_sum]
    linear_combination -1 / 12 * (h1 - g1) - 1 / 2 * (h2 - g2) - 1 / 4 * (h3 - g3)
  unfold trace calcRdm1
  by_cases h : orderT = 3 ∧ orderL = 3
  · simp only [h, and_self, if_true, sum_add_distrib]
    constructor
    · linear_combination ha + ta
    · linear_combination hb + tb
  · simp only [if_neg h, sum_add_distrib, sum_const_zero, add_zero]
    exact ⟨ha, hb⟩

/-- Amplitudes for the example. -/
def exT (k : ℚ) : Amplitudes ℚ where
  a a i := k * a + i + 1
  b a i := a - k * i
  aa a b i j := (a - b) * (i - j) * (k + a + b)
  ab a b i j := k * a + b - i + 2 * j
  bb a b i j := (a - b) * (i - j) * (i + j)
  aaa a b c i j l := (a - b) * (b - c) * (a - c) * (i - j) * (j - l) * (i - l) * k
  aab a b c i j l := (a - b) * (i - j) * (c + l)
  abb a b c i j l := (b - c) * (j - l) * (a + k * i)
  bbb a b c i j l := (a - b) * (b - c) * (a - c) * (i - j) * (j - l) * (i - l)

-- two alpha and one beta electrons: the occupied blocks alone do not have these traces
example : (trace 2 2 (calcRdm1 ⟨2, 1, 2, 3⟩ 3 3 (exT 2) (exT 3)).1, trace 1 3 (calcRdm1 ⟨2, 1, 2, 3⟩ 3 3 (exT 2) (exT 3)).2) =
    (2, 1) := by decide +kernel
example : ∑ i ∈ range 2, (calcRdm1 ⟨2, 1, 2, 3⟩ 3 3 (exT 2) (exT 3)).1.oo i i ≠ 2 := by decide +kernel

end Ccpy.Amplitudes
