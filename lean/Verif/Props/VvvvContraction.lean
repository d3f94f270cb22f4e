import Verif.Lemmas.VvvvContraction
import Mathlib.Tactic.Linarith
import Mathlib.Data.Rat.Defs

/-! C88: the four-particle terms of the Cholesky variants. -/

namespace Ccpy.Vvvv
open Finset (range)

variable {K : Type*} [Field K]

/-- Equal spins: whatever else is in the residual and however the pairs are distributed over threads, after the
antisymmetrisation the residual is the one with the term `0.125 * einsum("abef,efij->abij", v, r)` of the conventional
program, `v` being the antisymmetrised integrals of the Cholesky vectors. -/
theorem C88_same [CharZero K] {schedule : List (List ℕ)} {nu : ℕ} (hs : Distributes schedule (nu * (nu - 1) / 2)) (nx : ℕ)
    (chol : ℕ → ℕ → ℕ → K) (r X : Arr4 K) (h₁ : ∀ e f i j, r f e i j = -r e f i j) (h₂ : ∀ e f i j, r e f j i = -r e f i j)
    {a b : ℕ} (ha : a < nu) (hb : b < nu) (i j : ℕ) :
    antisymmetrize (fun a b i j => X a b i j + sameTerm schedule nu nx chol r a b i j) a b i j =
      antisymmetrize (fun a b i j => X a b i j + 1 / 8 * ∑ e ∈ range nu, ∑ f ∈ range nu, anti nx chol a b e f * r e f i j) a b i j := by
  have h := half_term (sameTerm schedule nu nx chol r) (fun a b i j => ∑ e ∈ range nu, ∑ f ∈ range nu, anti nx chol a b e f * r e f i j)
    (fun a b i j => 1 / 8 * ∑ e ∈ range nu, ∑ f ∈ range nu, anti nx chol a b e f * r e f i j) (nu := nu)
    (fun a b i j hb => by
      unfold sameTerm
      rw [sym_term hs _ r h₁ nx a b i j hb]
      simp only [batch_right])
    (fun a b i j => by simp only [anti_swap nx chol a b, neg_mul, Finset.sum_neg_distrib])
    (fun a b i j => by simp only [h₂ _ _ i j, mul_neg, Finset.sum_neg_distrib]) (fun _ _ _ _ => rfl) ha hb i j
  simp only [antisymmetrize]
  linear_combination h

/-- Equal spins, left equations: the term is the one of the conventional program with `v_efab`. -/
theorem C88_same_left [CharZero K] {schedule : List (List ℕ)} {nu : ℕ} (hs : Distributes schedule (nu * (nu - 1) / 2)) (nx : ℕ)
    (chol : ℕ → ℕ → ℕ → K) (l X : Arr4 K) (h₁ : ∀ e f i j, l f e i j = -l e f i j) (h₂ : ∀ e f i j, l e f j i = -l e f i j)
    {a b : ℕ} (ha : a < nu) (hb : b < nu) (i j : ℕ) :
    antisymmetrizeLeft (fun a b i j => X a b i j + sameTermLeft schedule nu nx chol l a b i j) a b i j =
      antisymmetrizeLeft (fun a b i j => X a b i j + 1 / 8 * ∑ e ∈ range nu, ∑ f ∈ range nu, anti nx chol e f a b * l e f i j) a b i j := by
  have h := half_term (sameTermLeft schedule nu nx chol l) (fun a b i j => ∑ e ∈ range nu, ∑ f ∈ range nu, anti nx chol e f a b * l e f i j)
    (fun a b i j => 1 / 8 * ∑ e ∈ range nu, ∑ f ∈ range nu, anti nx chol e f a b * l e f i j) (nu := nu)
    (fun a b i j hb => by
      unfold sameTermLeft
      rw [sym_term hs _ l h₁ nx a b i j hb]
      simp only [batch_left])
    (fun a b i j => by simp only [anti_swap' nx chol _ _ a b, neg_mul, Finset.sum_neg_distrib])
    (fun a b i j => by simp only [h₂ _ _ i j, mul_neg, Finset.sum_neg_distrib]) (fun _ _ _ _ => rfl) ha hb i j
  simp only [antisymmetrizeLeft]
  linear_combination h

/-- Mixed spins: the term is `einsum("abef,efij->abij", v, r)`, however the iterations are distributed. -/
theorem C88_mixed {schedule : List (List ℕ)} {nua : ℕ} (hs : Distributes schedule nua) (nub nx : ℕ) (ca cb : ℕ → ℕ → ℕ → K)
    (r : Arr4 K) {a b : ℕ} (ha : a < nua) (hb : b < nub) (i j : ℕ) :
    mixedTerm schedule nua nub nx ca cb r a b i j = ∑ e ∈ range nua, ∑ f ∈ range nub, plain nx ca cb a b e f * r e f i j := by
  unfold mixedTerm back4
  rw [vvvvT2_eq hs _ _ _ _ _ _ _ _ _ (by omega) (by omega) (by omega) (by omega)]
  simp only [sum_shift, dgemmTn, pass3, swap3, pass4, plain, Nat.add_sub_cancel]
  refine Finset.sum_congr rfl fun e _ => Finset.sum_congr rfl fun f _ => ?_
  congr 1
  exact Finset.sum_congr rfl fun x _ => mul_comm _ _

/-- Mixed spins, left equations. -/
theorem C88_mixed_left {schedule : List (List ℕ)} {nua : ℕ} (hs : Distributes schedule nua) (nub nx : ℕ) (ca cb : ℕ → ℕ → ℕ → K)
    (l : Arr4 K) {a b : ℕ} (ha : a < nua) (hb : b < nub) (i j : ℕ) :
    mixedTermLeft schedule nua nub nx ca cb l a b i j = ∑ e ∈ range nua, ∑ f ∈ range nub, plain nx ca cb e f a b * l e f i j := by
  unfold mixedTermLeft back4
  rw [vvvvT2_eq hs _ _ _ _ _ _ _ _ _ (by omega) (by omega) (by omega) (by omega)]
  simp only [sum_shift, dgemmTn, pass3, pass4, plain, Nat.add_sub_cancel]
  refine Finset.sum_congr rfl fun e _ => Finset.sum_congr rfl fun f _ => ?_
  congr 1
  exact Finset.sum_congr rfl fun x _ => mul_comm _ _

/-- The numbers `vvvv_index` gives are different for different pairs `a < b`, for one pair `c < d`. Missing: that they are
also different for different pairs `c < d`, which is false. -/
theorem C88_index_partial {nu a b a' b' : ℤ} (c d : ℤ) (ha : 1 ≤ a) (hab : a < b) (hb : b ≤ nu) (ha' : 1 ≤ a') (hab' : a' < b')
    (hb' : b' ≤ nu) (h : vvvvIndex a b c d nu = vvvvIndex a' b' c d nu) : a = a' ∧ b = b' := by
  have two : ∀ a : ℤ, (2 * nu - 2 - a) * (a - 1) / 2 * 2 = (2 * nu - 2 - a) * (a - 1) := fun a => by
    refine Int.ediv_mul_cancel ?_
    have : (2 * nu - 2 - a) * (a - 1) = 2 * ((nu - 1) * (a - 1)) - (a - 1) * (a - 1 + 1) := by ring
    rw [this]
    exact dvd_sub (dvd_mul_right _ _) (Int.even_mul_succ_self (a - 1)).two_dvd
  have n0 : nu * (nu - 1) / 2 ≠ 0 := by
    have e : nu * (nu - 1) / 2 * 2 = nu * (nu - 1) := Int.ediv_mul_cancel (by
      have := (Int.even_mul_succ_self (nu - 1)).two_dvd
      rwa [sub_add_cancel, mul_comm] at this)
    intro z
    rw [z] at e
    rcases mul_eq_zero.1 (by linarith : nu * (nu - 1) = 0) with q | q <;> omega
  have e : (2 * nu - 2 - a) * (a - 1) / 2 + b - 2 = (2 * nu - 2 - a') * (a' - 1) / 2 + b' - 2 := by
    simp only [vvvvIndex] at h
    exact mul_left_cancel₀ n0 (by linarith)
  have k := two a
  have k' := two a'
  have key : ∀ {a b a' b' : ℤ}, b ≤ nu → a' < b' → b' ≤ nu → a < a' →
      (2 * nu - 2 - a) * (a - 1) + 2 * b < (2 * nu - 2 - a') * (a' - 1) + 2 * b' := by
    intro a b a' b' hb h' hb' lt
    obtain ⟨d, rfl⟩ : ∃ d, a' = a + 1 + d := ⟨a' - a - 1, by ring⟩
    obtain ⟨m, rfl⟩ : ∃ m, nu = a + 1 + d + 1 + m := ⟨nu - (a + 1 + d + 1), by ring⟩
    have d0 : 0 ≤ d := by omega
    have m0 : 0 ≤ m := by omega
    nlinarith [mul_nonneg d0 m0, mul_nonneg d0 d0]
  rcases lt_trichotomy a a' with q | q | q
  · have := key (b := b) hb hab' hb' q; omega
  · subst q; omega
  · have := key (b := b') hb' hab hb q; omega

/-- `vvvv_index` uses `d` where the number of the pair `(c,d)` needs `c`: of four orbitals the integrals `<12||14>` and
`<12||23>` get the same place. The routine is only called by `contract_vt2_pppp`, whose accumulating statement is
commented out. -/
theorem C88_index_fails : ∃ nu a b c d c' d' : ℤ, (1 ≤ a ∧ a < b ∧ b ≤ nu) ∧ (1 ≤ c ∧ c < d ∧ d ≤ nu) ∧
    (1 ≤ c' ∧ c' < d' ∧ d' ≤ nu) ∧ (c, d) ≠ (c', d') ∧ vvvvIndex a b c d nu = vvvvIndex a b c' d' nu :=
  ⟨4, 1, 2, 1, 4, 2, 3, by decide, by decide, by decide, by decide, by decide⟩

/-! ### Cases -/

/-- Three orbitals, three pairs on two threads. -/
example : Distributes [[2], [3, 1]] (3 * (3 - 1) / 2) := by unfold Distributes; decide

/-- Vectors that are not symmetric. -/
def exampleChol : ℕ → ℕ → ℕ → ℚ := fun x p q => (x + 1) * (p + 2) + q * q

/-- An antisymmetric array. -/
def exampleR : Arr4 ℚ := fun a b i j => ((a : ℚ) - b) * (a + b + 1) * ((i : ℚ) - j)

example : (∀ e f i j, exampleR f e i j = -exampleR e f i j) ∧ (∀ e f i j, exampleR e f j i = -exampleR e f i j) :=
  ⟨fun _ _ _ _ => by unfold exampleR; ring, fun _ _ _ _ => by unfold exampleR; ring⟩

example : sameTerm [[2], [3, 1]] 3 2 exampleChol exampleR 0 1 0 1 ≠ 0 := by decide +kernel

example : sameTermLeft [[2], [3, 1]] 3 2 exampleChol exampleR 0 1 0 1 ≠ 0 := by decide +kernel

example : mixedTerm [[2], [1]] 2 3 2 exampleChol exampleChol exampleR 1 2 0 1 ≠
    mixedTermLeft [[2], [1]] 2 3 2 exampleChol exampleChol exampleR 1 2 0 1 := by decide +kernel

example : Distributes [[2], [], [1]] 2 := by unfold Distributes; decide

example : vvvvIndex 1 2 1 2 4 = 1 ∧ vvvvIndex 2 4 1 2 4 = 25 := by decide

end Ccpy.Vvvv
