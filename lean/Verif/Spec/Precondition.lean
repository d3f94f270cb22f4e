import Mathlib.Algebra.BigOperators.Group.Finset.Defs
import Mathlib.Algebra.Ring.Defs
import Mathlib.GroupTheory.Perm.Sign

/-! Specification: division of an excitation amplitude block by energy minus orbital-energy
difference.  A block is described by the kind of orbital of each index. -/

namespace Ccpy.Spec

/-- The kind of orbital an index runs over; spin `false` is alpha. -/
inductive Orb
  | occ (spin : Bool)
  | vir (spin : Bool)
  deriving DecidableEq

/-- Number of orbitals of a kind. -/
def Orb.count (no nv : Bool → ℕ) : Orb → ℕ
  | .occ s => no s
  | .vir s => nv s

/-- Energy needed to empty (occupied) or fill (virtual) an orbital. -/
def Orb.cost {R : Type*} [Neg R] (eo ev : Bool → ℕ → R) : Orb → ℕ → R
  | .occ s, i => -eo s i
  | .vir s, a => ev s a

section
variable {n : ℕ} {R : Type*} [Ring R]

/-- Zeroth-order energy of the excitation with index tuple `k`. -/
def excitationEnergy (kind : Fin n → Orb) (eo ev : Bool → ℕ → R) (k : Fin n → ℕ) : R :=
  ∑ l, (kind l).cost eo ev (k l)

/-- All (1-based) indices lie in their ranges. -/
def InBlock (kind : Fin n → Orb) (no nv : Bool → ℕ) (k : Fin n → ℕ) : Prop :=
  ∀ l, 1 ≤ k l ∧ k l ≤ (kind l).count no nv

/-- No orbital is used twice. -/
def Exclusion (kind : Fin n → Orb) (k : Fin n → ℕ) : Prop :=
  ∀ l l', l ≠ l' → kind l = kind l' → k l ≠ k l'

/-- `r'` is `r` divided by `omega` minus the excitation energy, wherever that difference is not zero;
elements using an orbital twice stay zero and nothing outside the block is touched. -/
structure Preconditioned (kind : Fin n → Orb) (no nv : Bool → ℕ) (eo ev : Bool → ℕ → R) (omega : R)
    (r r' : (Fin n → ℕ) → R) : Prop where
  divided : ∀ k, InBlock kind no nv k → Exclusion kind k → omega - excitationEnergy kind eo ev k ≠ 0 →
    (omega - excitationEnergy kind eo ev k) * r' k = r k
  repeated : ∀ k, ¬ Exclusion kind k → r k = 0 → r' k = 0
  outside : ∀ k, ¬ InBlock kind no nv k → r' k = r k

/-- Sign change under exchange of indices of the same kind. -/
def BlockAntisym (kind : Fin n → Orb) (r : (Fin n → ℕ) → R) : Prop :=
  ∀ g : Equiv.Perm (Fin n), (∀ l, kind (g l) = kind l) → ∀ k, r (k ∘ g) = (Equiv.Perm.sign g : ℤ) • r k

end

end Ccpy.Spec
