import Mathlib.Data.Nat.Notation

/-! Combinations in lexicographic order. -/

namespace Ccpy.Spec

/-- The first `r` entries are a combination of `r` of the items `1..n`, in increasing order. -/
def IsCombination (n r : ℕ) (c : ℕ → ℕ) : Prop :=
  (∀ k < r, 1 ≤ c k ∧ c k ≤ n) ∧ ∀ k, k + 1 < r → c k < c (k + 1)

/-- Agreement of the first `r` entries. -/
def Same (r : ℕ) (c d : ℕ → ℕ) : Prop := ∀ k < r, c k = d k

/-- Lexicographic order of the first `r` entries. -/
def LexBefore (r : ℕ) (c d : ℕ → ℕ) : Prop := ∃ q < r, (∀ k < q, c k = d k) ∧ c q < d q

end Ccpy.Spec
