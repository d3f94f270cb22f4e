import Mathlib.Algebra.BigOperators.Group.Finset.Basic
import Mathlib.Algebra.Field.Defs
import Mathlib.Data.Fintype.BigOperators

/-! Specification: spin-orbital tensors and their spin blocks.  A spin orbital is a spin (`false` alpha,
`true` beta) and an orbital number. -/

namespace Ccpy.Spec

/-- Spin orbital. -/
abbrev SO := Bool × ℕ

variable {K : Type*}

/-- Sum over the spin orbitals with `n s` orbitals of spin `s`. -/
def soSum [AddCommMonoid K] (n : Bool → ℕ) (f : SO → K) : K :=
  ∑ s : Bool, ∑ p ∈ Finset.range (n s), f (s, p)

/-- The antisymmetrised spin-orbital tensor with like-spin blocks `aa`, `bb` and mixed-spin block `ab`:
spin is conserved, and exchanging the first or the last two arguments changes the sign. -/
def spinOrbital4 [Ring K] (aa ab bb : ℕ → ℕ → ℕ → ℕ → K) : SO → SO → SO → SO → K
  | (false, p), (false, q), (false, r), (false, s) => aa p q r s
  | (false, p), (true, q), (false, r), (true, s) => ab p q r s
  | (false, p), (true, q), (true, r), (false, s) => -ab p q s r
  | (true, p), (false, q), (false, r), (true, s) => -ab q p r s
  | (true, p), (false, q), (true, r), (false, s) => ab q p s r
  | (true, p), (true, q), (true, r), (true, s) => bb p q r s
  | _, _, _, _ => 0

/-- The spin-orbital matrix with the given spin blocks. -/
def spinOrbital2 [Ring K] (a b : ℕ → ℕ → K) : SO → SO → K
  | (false, p), (false, q) => a p q
  | (true, p), (true, q) => b p q
  | _, _ => 0

end Ccpy.Spec
