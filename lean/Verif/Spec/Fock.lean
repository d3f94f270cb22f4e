import Mathlib.Data.Finset.Sort
import Mathlib.Algebra.Group.Int.Defs
import Mathlib.Algebra.Order.Monoid.Unbundled.Pow

/-! Specification: fermionic creation and annihilation operators acting on determinants.
A determinant is the set of its occupied spin-orbitals, understood as the product of creation
operators in ascending order on the vacuum.  `none` is the zero vector. -/

namespace Ccpy.Spec

/-- Number of occupied orbitals that the operator has to pass. -/
def below (D : Finset ℕ) (p : ℕ) : ℕ := (D.filter (· < p)).card

/-- `a_p` on `sign * |D>`. -/
def annihilate (x : ℤ × Finset ℕ) (p : ℕ) : Option (ℤ × Finset ℕ) :=
  if p ∈ x.2 then some (x.1 * (-1) ^ below x.2 p, x.2.erase p) else none

/-- `a†_p` on `sign * |D>`. -/
def create (x : ℤ × Finset ℕ) (p : ℕ) : Option (ℤ × Finset ℕ) :=
  if p ∈ x.2 then none else some (x.1 * (-1) ^ below x.2 p, insert p x.2)

/-- `a†_{u1} a†_{u2} ... a†_{un} a_{on} ... a_{o2} a_{o1} |D>`: the rightmost operator acts first. -/
def excite (us os : List ℕ) (D : Finset ℕ) : Option (ℤ × Finset ℕ) :=
  (os.foldlM annihilate (1, D)).bind (fun x => us.reverse.foldlM create x)

end Ccpy.Spec
