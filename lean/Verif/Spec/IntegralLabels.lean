import Verif.Model.IntegralFiles
import Mathlib.Data.Sym.Sym2

/-! Specification: what a file of integrals over real orbitals says.  The integral `(ab|cd)` does not change when `a` and `b`,
`c` and `d`, or the two pairs are exchanged: it belongs to an unordered pair of unordered pairs. -/

namespace Ccpy.Spec
open Ccpy.IntegralFiles

variable {α : Type}

/-- The integral `(ab|cd)`; orbitals are counted from 1 in the file. -/
def twoLabel (a b c d : ℕ) : Sym2 (Sym2 ℕ) := s(s(a, b), s(c, d))

/-- The lines of a regular file of `n` orbitals: integrals `(ab|cd)`, integrals `(a|h|b)` with two zeros, and the constant
with four zeros. -/
inductive Regular (n : ℕ) : Line α → Prop
  | two {x a b c d} (ha : 1 ≤ a ∧ a ≤ n) (hb : 1 ≤ b ∧ b ≤ n) (hc : 1 ≤ c ∧ c ≤ n) (hd : 1 ≤ d ∧ d ≤ n) :
      Regular n ⟨x, a, b, c, d⟩
  | one {x a b} (ha : 1 ≤ a ∧ a ≤ n) (hb : 1 ≤ b ∧ b ≤ n) : Regular n ⟨x, a, b, 0, 0⟩
  | const {x} : Regular n ⟨x, 0, 0, 0, 0⟩

/-- The value the file gives for something: the last line about it counts, and without one the value is `none`. -/
def lastValue (about : Line α → Prop) [DecidablePred about] (lines : List (Line α)) : Option α :=
  ((lines.filter fun l => about l).getLast?).map Line.val

/-- The line is about the integral `(ab|cd)`. -/
def AboutTwo (a b c d : ℕ) (l : Line α) : Prop := l.c ≠ 0 ∧ l.d ≠ 0 ∧ twoLabel l.a l.b l.c l.d = twoLabel a b c d
def AboutOne (a b : ℕ) (l : Line α) : Prop := l.a ≠ 0 ∧ l.c = 0 ∧ l.d = 0 ∧ s(l.a, l.b) = s(a, b)
def AboutConst (l : Line α) : Prop := l.a = 0 ∧ l.b = 0 ∧ l.c = 0 ∧ l.d = 0

instance (a b c d : ℕ) : DecidablePred (AboutTwo (α := α) a b c d) := fun _ => by unfold AboutTwo twoLabel; infer_instance
instance (a b : ℕ) : DecidablePred (AboutOne (α := α) a b) := fun _ => by unfold AboutOne; infer_instance
instance : DecidablePred (AboutConst (α := α)) := fun _ => by unfold AboutConst; infer_instance

end Ccpy.Spec
