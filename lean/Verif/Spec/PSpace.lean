import Verif.Spec.Triples

/-! Specification: triple excitations given by lists.  A list has rows `[a, b, c, i, j, k]` of 1-based orbital numbers with
one amplitude each; all triple excitations that are not in the list have the amplitude zero. -/

namespace Ccpy.Fock

/-- Kronecker's symbol. -/
def same1 (x y : ℕ) : ℚ := if x = y then 1 else 0

/-- The sign of the permutation that takes `p q` to `x y`, zero if there is none. -/
def alternating2 (x y p q : ℕ) : ℚ := same1 x p * same1 y q - same1 x q * same1 y p

/-- The sign of the permutation that takes `p q r` to `x y z`, zero if there is none. -/
def alternating3 (x y z p q r : ℕ) : ℚ :=
  same1 x p * alternating2 y z q r - same1 x q * alternating2 y z p r + same1 x r * alternating2 y z p q

/-- The excitations that may be listed: orbitals of equal spin in increasing order. -/
def ListedAAA (ua na : ℕ) (row : List ℕ) : Prop :=
  ∃ a b c i j k, row = [a + 1, b + 1, c + 1, i + 1, j + 1, k + 1] ∧ a < b ∧ b < c ∧ c < ua ∧ i < j ∧ j < k ∧ k < na
def ListedAAB (ua ub na nb : ℕ) (row : List ℕ) : Prop :=
  ∃ a b c i j k, row = [a + 1, b + 1, c + 1, i + 1, j + 1, k + 1] ∧ a < b ∧ b < ua ∧ c < ub ∧ i < j ∧ j < na ∧ k < nb
def ListedABB (ua ub na nb : ℕ) (row : List ℕ) : Prop :=
  ∃ a b c i j k, row = [a + 1, b + 1, c + 1, i + 1, j + 1, k + 1] ∧ a < ua ∧ b < c ∧ c < ub ∧ i < na ∧ j < k ∧ k < nb

/-- A list of excitations with their amplitudes. -/
abbrev TripleList := List (List ℕ × ℚ)

/-- The amplitude of an excitation is that of the row with the same orbitals, with the sign of the permutation. -/
def TripleList.ofThree (t : TripleList) (a b c i j k : ℕ) : ℚ :=
  (t.map fun x => alternating3 (a + 1) (b + 1) (c + 1) (x.1.getD 0 0) (x.1.getD 1 0) (x.1.getD 2 0)
    * alternating3 (i + 1) (j + 1) (k + 1) (x.1.getD 3 0) (x.1.getD 4 0) (x.1.getD 5 0) * x.2).sum
def TripleList.ofTwoOne (t : TripleList) (a b c i j k : ℕ) : ℚ :=
  (t.map fun x => alternating2 (a + 1) (b + 1) (x.1.getD 0 0) (x.1.getD 1 0) * same1 (c + 1) (x.1.getD 2 0)
    * (alternating2 (i + 1) (j + 1) (x.1.getD 3 0) (x.1.getD 4 0) * same1 (k + 1) (x.1.getD 5 0)) * x.2).sum
def TripleList.ofOneTwo (t : TripleList) (a b c i j k : ℕ) : ℚ :=
  (t.map fun x => same1 (a + 1) (x.1.getD 0 0) * alternating2 (b + 1) (c + 1) (x.1.getD 1 0) (x.1.getD 2 0)
    * (same1 (i + 1) (x.1.getD 3 0) * alternating2 (j + 1) (k + 1) (x.1.getD 4 0) (x.1.getD 5 0)) * x.2).sum

/-- The triple excitations of four lists. -/
def listed3 (aaa aab abb bbb : TripleList) : Triples := ⟨aaa.ofThree, aab.ofTwoOne, abb.ofOneTwo, bbb.ofThree⟩

end Ccpy.Fock
