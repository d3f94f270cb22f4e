import Verif.Lemmas.PSpaceBlocks
import Mathlib.Algebra.Ring.Parity

/-! The tables and `loc_arr` of the P-space kernels are large enough. -/

namespace Ccpy.PSpace
open Ccpy.Blocks Ccpy.Spec

theorem mul_pred_half (x n : ℕ) : x * n * (n - 1) / 2 = x * (n * (n - 1) / 2) := by
  rw [mul_assoc, Nat.mul_div_assoc _ (Nat.even_mul_pred_self n).two_dvd]

theorem mul_pred_pred_half (x n : ℕ) : x * (n - 1) * (n - 2) / 2 = x * ((n - 1) * (n - 2) / 2) := by
  rw [mul_assoc, Nat.mul_div_assoc]
  have := (Nat.even_mul_pred_self (n - 1)).two_dvd
  rwa [Nat.sub_sub] at this

theorem ready_triple {b : Block} {n m : ℕ} (h1 : b.rng1 = (1, (n : ℤ) - 2)) (h2 : b.rng2 = (-1, (n : ℤ) - 1))
    (h3 : b.rng3 = (-1, (n : ℤ))) (h4 : 0 < b.rng4.1 ∧ b.rng4.2 ≤ m) (hn : b.n1 = n ∧ b.n2 = n ∧ b.n3 = n ∧ b.n4 = m)
    (hl : b.nloc = n * (n - 1) * (n - 2) / 6 * m) : b.Ready where
  supported := by
    rw [h1, h2, h3]
    exact ⟨by simp, Or.inl ⟨by simp, by simp, h4.1⟩⟩
  bounds := by
    rw [h1, h2, h3, hn.1, hn.2.1, hn.2.2.1, hn.2.2.2]
    exact ⟨by simp, by simp, by simp, h4.2⟩
  count := by
    rw [h1, h2, h3, hl, length_tuples4_triple n _ h4.1]
    exact Nat.mul_le_mul_left _ (by omega)

theorem ready_pairs {b : Block} {n m c e : ℕ} (h : PairPattern n b.rng1 b.rng2 c) (h' : PairPattern m b.rng3 b.rng4 e)
    (hn : b.n1 = n ∧ b.n2 = n ∧ b.n3 = m ∧ b.n4 = m) (hl : b.nloc = c * e) : b.Ready := by
  obtain ⟨a1, a2, a3, a4⟩ := h.signs
  obtain ⟨b1, b2, b3, b4⟩ := h'.signs
  refine ⟨⟨a1, Or.inr (Or.inl ⟨a2, b1, b2⟩)⟩, ?_, ?_⟩
  · rw [hn.1, hn.2.1, hn.2.2.1, hn.2.2.2]
    exact ⟨a3, a4, b3, b4⟩
  · rw [length_tuples4_pairs _ _ _ _ a1 a2 b1 b2, h.count, h'.count, hl]

theorem ready_pair {b : Block} {n m l c : ℕ} (h : PairPattern n b.rng1 b.rng2 c) (h3 : 0 < b.rng3.1 ∧ b.rng3.2 ≤ m)
    (h4 : 0 < b.rng4.1 ∧ b.rng4.2 ≤ l) (hn : b.n1 = n ∧ b.n2 = n ∧ m ≤ b.n3 ∧ l ≤ b.n4) (hl : b.nloc = c * (m * l)) : b.Ready := by
  obtain ⟨a1, a2, a3, a4⟩ := h.signs
  refine ⟨⟨a1, Or.inr (Or.inr (Or.inl ⟨a2, h3.1, h4.1⟩))⟩, ?_, ?_⟩
  · rw [hn.1, hn.2.1]
    exact ⟨a3, a4, by have := hn.2.2.1; omega, by have := hn.2.2.2; omega⟩
  · rw [length_tuples4_pair _ _ _ _ a1 a2 h3.1 h4.1, h.count, hl]
    exact Nat.mul_le_mul_left _ (Nat.mul_le_mul (by omega) (by omega))

theorem ready_free {b : Block} {n m l k : ℕ} (h1 : 0 < b.rng1.1 ∧ b.rng1.2 ≤ n) (h2 : 0 < b.rng2.1 ∧ b.rng2.2 ≤ m)
    (h3 : 0 < b.rng3.1 ∧ b.rng3.2 ≤ l) (h4 : 0 < b.rng4.1 ∧ b.rng4.2 ≤ k) (hn : b.n1 = n ∧ b.n2 = m ∧ b.n3 = l ∧ b.n4 = k)
    (hl : b.nloc = n * (m * (l * k))) : b.Ready := by
  refine ⟨⟨h1.1, Or.inr (Or.inr (Or.inr ⟨h2.1, h3.1, h4.1⟩))⟩, ?_, ?_⟩
  · rw [hn.1, hn.2.1, hn.2.2.1, hn.2.2.2]
    exact ⟨h1.2, h2.2, h3.2, h4.2⟩
  · rw [length_tuples4_free _ _ _ _ h1.1 h2.1, hl]
    exact Nat.mul_le_mul (by omega) (Nat.mul_le_mul (by omega) (Nat.mul_le_mul (by omega) (by omega)))

end Ccpy.PSpace
