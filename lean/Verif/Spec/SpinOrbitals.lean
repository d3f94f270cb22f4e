import Verif.Spec.Excitations
import Mathlib.Data.Finset.Union
import Mathlib.Data.Finset.Range
import Mathlib.Data.Finset.Card
import Mathlib.Algebra.Order.Group.Nat

/-! Determinants as sets of spin-orbitals.  Spin-orbitals are numbered from 1, alternating between
alpha (odd) and beta (even); spatial orbitals are numbered from 0. -/

namespace Ccpy.Spec

/-- The number of a spin-orbital. -/
def spinOrbital : Spin → ℕ → ℕ
  | .α, p => 2 * p + 1
  | .β, p => 2 * p + 2

/-- The reference determinant: the lowest orbitals of each spin. -/
def reference (S : Space) : Finset ℕ :=
  (Finset.range (S.occ .α)).image (spinOrbital .α) ∪
  (Finset.range (S.occ .β)).image (spinOrbital .β)

/-- The determinant obtained by removing the holes and adding the particles; a particle index of
spin σ counts from the first orbital unoccupied in spin σ. -/
def excitedDeterminant (S : Space) (pSpins hSpins : List Spin) (ps hs : List ℕ) : Finset ℕ :=
  (reference S \ ((hSpins.zip hs).map fun q => spinOrbital q.1 q.2).toFinset) ∪
    ((pSpins.zip ps).map fun q => spinOrbital q.1 (q.2 + S.occ q.1)).toFinset

/-- A determinant of the right number of electrons of each spin within `norb` spatial orbitals. -/
structure Physical (S : Space) (norb : ℕ) (D : Finset ℕ) : Prop where
  range : ∀ x ∈ D, 1 ≤ x ∧ x ≤ 2 * norb
  alpha : (D.filter (fun x => x % 2 = 1)).card = S.occ .α
  beta : (D.filter (fun x => x % 2 = 0)).card = S.occ .β

end Ccpy.Spec
