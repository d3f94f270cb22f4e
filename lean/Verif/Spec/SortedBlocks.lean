import Mathlib.Data.Nat.Notation
import Mathlib.Data.List.Forall2

/-! Specification: occupied (`o`) and virtual (`v`) index ranges of one block of a tensor. -/

namespace Ccpy.Spec

/-- number of orbitals of the given kind -/
def kindSize (nocc norb : ℕ) (c : Char) : ℕ := if c = 'o' then nocc else norb - nocc

/-- orbital number of the `i`-th orbital of the given kind -/
def kindOrbital (nocc : ℕ) (c : Char) (i : ℕ) : ℕ := if c = 'o' then i else nocc + i

/-- `idx` are valid indices for an array of the given shape. -/
def WithinShape (shape idx : List ℕ) : Prop := List.Forall₂ (· < ·) idx shape

/-- `attr` is a word in the letters `o` and `v`. -/
def IsKinds (n : ℕ) (attr : List Char) : Prop := attr.length = n ∧ ∀ c ∈ attr, c = 'o' ∨ c = 'v'

/-- Shape of the block `attr` of a tensor whose axes belong to the given spins. -/
def blockShape (nocc : Char → ℕ) (norb : ℕ) (spins attr : List Char) : List ℕ :=
  List.zipWith (fun c k => kindSize (nocc c) norb k) spins attr

/-- Orbital numbers of the element `idx` of the block `attr`. -/
def blockOrbitals (nocc : Char → ℕ) (spins attr : List Char) (idx : List ℕ) : List ℕ :=
  List.zipWith (fun ck i => kindOrbital (nocc ck.1) ck.2 i) (spins.zip attr) idx

end Ccpy.Spec
