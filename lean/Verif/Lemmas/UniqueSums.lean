import Verif.Spec.UniqueSums
import Mathlib.Algebra.BigOperators.Group.Finset.Sigma
import Mathlib.Algebra.BigOperators.Ring.Finset
import Mathlib.Algebra.Field.Defs
import Mathlib.Algebra.CharZero.Defs
import Mathlib.Tactic.Ring
import Mathlib.Tactic.LinearCombination

/-! Sums over all index tuples against sums over ordered ones. -/

namespace Ccpy.Spec
open Finset

variable {K : Type*} [Field K]

theorem sum_uniquePairs (n : ℕ) (F : ℕ → ℕ → K) :
    ∑ x ∈ uniquePairs n, F x.1 x.2 = ∑ f ∈ range n, ∑ e ∈ range f, F e f := by
  unfold uniquePairs
  rw [sum_filter, sum_product, sum_comm]
  refine sum_congr rfl fun f hf => ?_
  rw [← sum_filter]
  congr 1
  ext e
  simp only [mem_filter, mem_range] at hf ⊢
  omega

theorem sum_uniqueTriples (n : ℕ) (F : ℕ → ℕ → ℕ → K) :
    ∑ x ∈ uniqueTriples n, F x.1 x.2.1 x.2.2 = ∑ g ∈ range n, ∑ f ∈ range g, ∑ e ∈ range f, F e f g := by
  unfold uniqueTriples
  rw [sum_filter, sum_product]
  simp only [sum_product]
  have h1 : ∀ e, ∑ f ∈ range n, ∑ g ∈ range n, (if e < f ∧ f < g then F e f g else 0) =
      ∑ g ∈ range n, ∑ f ∈ range g, if e < f then F e f g else 0 := by
    intro e
    rw [sum_comm]
    refine sum_congr rfl fun g hg => ?_
    rw [show range g = (range n).filter (· < g) from by ext f; simp only [mem_filter, mem_range] at hg ⊢; omega,
      sum_filter]
    refine sum_congr rfl fun f _ => ?_
    by_cases h : e < f <;> by_cases h' : f < g <;> simp [h, h']
  simp only [h1]
  rw [sum_comm]
  refine sum_congr rfl fun g hg => ?_
  rw [sum_comm]
  refine sum_congr rfl fun f hf => ?_
  rw [← sum_filter]
  congr 1
  ext e
  simp only [mem_filter, mem_range] at hf hg ⊢
  omega

theorem sum_pairs {n : ℕ} {F : ℕ → ℕ → K} (h : ∀ a b, F b a = F a b) (h0 : ∀ a, F a a = 0) :
    ∑ a ∈ range n, ∑ b ∈ range n, F a b = 2 * ∑ x ∈ uniquePairs n, F x.1 x.2 := by
  rw [sum_uniquePairs]
  induction n with
  | zero => simp
  | succ n ih =>
    rw [sum_range_succ, sum_range_succ (n := n) (f := fun f => ∑ e ∈ range f, F e f)]
    simp only [sum_range_succ (n := n), sum_add_distrib, h0]
    rw [ih]
    have : ∑ b ∈ range n, F n b = ∑ a ∈ range n, F a n := sum_congr rfl fun a _ => h a n
    rw [this]
    ring

theorem sum_triples {n : ℕ} {F : ℕ → ℕ → ℕ → K} (h1 : ∀ a b c, F b a c = F a b c)
    (h2 : ∀ a b c, F a c b = F a b c) (h0 : ∀ a b, F a a b = 0) :
    ∑ a ∈ range n, ∑ b ∈ range n, ∑ c ∈ range n, F a b c =
      6 * ∑ x ∈ uniqueTriples n, F x.1 x.2.1 x.2.2 := by
  rw [sum_uniqueTriples]
  have h0' : ∀ a b, F a b b = 0 := fun a b => by rw [← h1, ← h2, h0]
  have h0'' : ∀ a b, F a b a = 0 := fun a b => by rw [← h2, h0]
  induction n with
  | zero => simp
  | succ n ih =>
    rw [sum_range_succ, sum_range_succ (n := n) (f := fun g => ∑ f ∈ range g, ∑ e ∈ range f, F e f g)]
    simp only [sum_range_succ (n := n), sum_add_distrib, h0, h0', h0'', sum_const_zero, add_zero]
    rw [ih]
    have p := sum_pairs (n := n) (F := fun a b => F a b n) (fun a b => h1 a b n) (fun a => h0 a n)
    rw [sum_uniquePairs n fun a b => F a b n] at p
    have e1 : ∑ a ∈ range n, ∑ b ∈ range n, F n a b = ∑ a ∈ range n, ∑ b ∈ range n, F a b n :=
      sum_congr rfl fun a _ => sum_congr rfl fun b _ => by rw [h1, h2]
    have e2 : ∑ a ∈ range n, ∑ c ∈ range n, F a n c = ∑ a ∈ range n, ∑ b ∈ range n, F a b n :=
      sum_congr rfl fun a _ => sum_congr rfl fun b _ => h2 a b n
    rw [e1, e2]
    linear_combination 3 * p

variable [CharZero K]

theorem Antisym2.diag {t : ℕ → ℕ → K} (h : Antisym2 t) (a : ℕ) : t a a = 0 := by
  have := h a a
  have h2 : (2 : K) ≠ 0 := OfNat.ofNat_ne_zero 2
  have h' : 2 * t a a = 0 := by linear_combination this
  exact (mul_eq_zero.mp h').resolve_left h2

theorem Antisym3.diag {t : ℕ → ℕ → ℕ → K} (h : Antisym3 t) (a b : ℕ) : t a a b = 0 := by
  have := (h a a b).1
  have h2 : (2 : K) ≠ 0 := OfNat.ofNat_ne_zero 2
  have h' : 2 * t a a b = 0 := by linear_combination this
  exact (mul_eq_zero.mp h').resolve_left h2

/-- Overlap of two antisymmetric pair functions. -/
theorem overlap_pairs (n : ℕ) {s t : ℕ → ℕ → K} (hs : Antisym2 s) (ht : Antisym2 t) :
    ∑ a ∈ range n, ∑ b ∈ range n, s a b * t a b = 2 * ∑ x ∈ uniquePairs n, s x.1 x.2 * t x.1 x.2 := by
  refine sum_pairs ?_ ?_
  · intro a b; rw [hs, ht]; ring
  · intro a; rw [hs.diag]; ring

/-- Overlap of two antisymmetric functions of three indices. -/
theorem overlap_triples (n : ℕ) {s t : ℕ → ℕ → ℕ → K} (hs : Antisym3 s) (ht : Antisym3 t) :
    ∑ a ∈ range n, ∑ b ∈ range n, ∑ c ∈ range n, s a b c * t a b c =
      6 * ∑ x ∈ uniqueTriples n, s x.1 x.2.1 x.2.2 * t x.1 x.2.1 x.2.2 := by
  refine sum_triples ?_ ?_ ?_
  · intro a b c; rw [(hs a b c).1, (ht a b c).1]; ring
  · intro a b c; rw [(hs a b c).2, (ht a b c).2]; ring
  · intro a b; rw [hs.diag]; ring

end Ccpy.Spec
