import Mathlib.Data.List.Basic
import Mathlib.Algebra.Order.Group.Nat
import Mathlib.Order.Lattice

/-! What it means that a table numbers a set of index tuples, and that a table of ranges addresses
the rows of a list by their number. -/

namespace Ccpy.Spec

/-- `table` gives the tuples in `S` the numbers 1..n, each exactly once, and 0 to all others. -/
structure Numbers {τ : Type*} (table : τ → ℕ) (S : τ → Prop) (n : ℕ) : Prop where
  outside : ∀ t, table t = 0 ↔ ¬ S t
  bound : ∀ t, S t → 1 ≤ table t ∧ table t ≤ n
  injective : ∀ t u, S t → S u → table t = table u → t = u
  onto : ∀ k, 1 ≤ k → k ≤ n → ∃ t, S t ∧ table t = k

/-- The range recorded for every number 1..nloc is exactly the set of (1-based) row positions whose
row has that number. -/
def AddressesBlocks (loc : ℕ → ℕ × ℕ) (nloc : ℕ) (numbers : List ℕ) : Prop :=
  ∀ t, 1 ≤ t → t ≤ nloc → ∀ x, ((loc t).1 ≤ x ∧ x ≤ (loc t).2) ↔
    (1 ≤ x ∧ numbers[x - 1]? = some t)

/-- A loop bound pair `(lo, hi)`: a positive `lo` is an ordinary lower bound, a negative one means
"at least `-lo` above the previous index". -/
def lowest (rng : ℤ × ℤ) (previous : ℤ) : ℤ := if rng.1 < 0 then previous - rng.1 else rng.1

/-- Tuples allowed by the bound pairs. -/
def InRanges : List (ℤ × ℤ) → ℤ → List ℤ → Prop
  | [], _, [] => True
  | rng :: rngs, previous, p :: ps => lowest rng previous ≤ p ∧ p ≤ rng.2 ∧ InRanges rngs p ps
  | _, _, _ => False

/-- The sign patterns that the four-index table is called with. -/
def Supported4 (r1 r2 r3 r4 : ℤ × ℤ) : Prop :=
  0 < r1.1 ∧ ((r2.1 < 0 ∧ r3.1 < 0 ∧ 0 < r4.1) ∨ (r2.1 < 0 ∧ 0 < r3.1 ∧ r4.1 < 0) ∨
    (r2.1 < 0 ∧ 0 < r3.1 ∧ 0 < r4.1) ∨ (0 < r2.1 ∧ 0 < r3.1 ∧ 0 < r4.1))

def Supported3 (r1 r2 r3 : ℤ × ℤ) : Prop :=
  0 < r1.1 ∧ ((r2.1 < 0 ∧ r3.1 < 0) ∨ (0 < r2.1 ∧ r3.1 < 0) ∨ (r2.1 < 0 ∧ 0 < r3.1) ∨
    (0 < r2.1 ∧ 0 < r3.1))

def Supported2 (r1 r2 : ℤ × ℤ) : Prop := 0 < r1.1 ∧ r2.1 ≠ 0

/-- The loop pairs used by the kernels, with their number of turns: all pairs `p < q`, or those
pairs that leave room for one more index above, between or below. -/
def PairPattern (n : ℕ) (r1 r2 : ℤ × ℤ) (c : ℕ) : Prop :=
  (r1 = (1, (n : ℤ) - 1) ∧ r2 = (-1, (n : ℤ)) ∧ c = n * (n - 1) / 2) ∨
  (r1 = (1, (n : ℤ) - 2) ∧ r2 = (-1, (n : ℤ) - 1) ∧ c = (n - 1) * (n - 2) / 2) ∨
  (r1 = (1, (n : ℤ) - 2) ∧ r2 = (-2, (n : ℤ)) ∧ c = (n - 1) * (n - 2) / 2) ∨
  (r1 = (2, (n : ℤ) - 1) ∧ r2 = (-1, (n : ℤ)) ∧ c = (n - 1) * (n - 2) / 2)

end Ccpy.Spec
