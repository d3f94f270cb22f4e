import Mathlib.Algebra.BigOperators.Group.Finset.Basic
import Mathlib.Algebra.Ring.Defs
import Mathlib.Data.Finset.Prod

/-! Specification: excitations counted once, and antisymmetric amplitude tensors. -/

namespace Ccpy.Spec

/-- Pairs `e < f` of orbitals below `n`. -/
def uniquePairs (n : ℕ) : Finset (ℕ × ℕ) :=
  (Finset.range n ×ˢ Finset.range n).filter fun x => x.1 < x.2

/-- Triples `e < f < g` of orbitals below `n`. -/
def uniqueTriples (n : ℕ) : Finset (ℕ × ℕ × ℕ) :=
  (Finset.range n ×ˢ Finset.range n ×ˢ Finset.range n).filter fun x => x.1 < x.2.1 ∧ x.2.1 < x.2.2

variable {K : Type*} [Ring K]

/-- Antisymmetric in a pair of arguments. -/
def Antisym2 (t : ℕ → ℕ → K) : Prop := ∀ a b, t b a = -t a b

/-- Antisymmetric in three arguments. -/
def Antisym3 (t : ℕ → ℕ → ℕ → K) : Prop := ∀ a b c, t b a c = -t a b c ∧ t a c b = -t a b c

/-- Like-spin doubles: antisymmetric in particles and in holes. -/
structure AntisymD (t : ℕ → ℕ → ℕ → ℕ → K) : Prop where
  particles : ∀ i j, Antisym2 fun a b => t a b i j
  holes : ∀ a b, Antisym2 fun i j => t a b i j

/-- Like-spin triples: antisymmetric in particles and in holes. -/
structure AntisymT (t : ℕ → ℕ → ℕ → ℕ → ℕ → ℕ → K) : Prop where
  particles : ∀ i j k, Antisym3 fun a b c => t a b c i j k
  holes : ∀ a b c, Antisym3 fun i j k => t a b c i j k

/-- Triples with two alpha electrons: antisymmetric in the first two particles and holes. -/
structure AntisymAab (t : ℕ → ℕ → ℕ → ℕ → ℕ → ℕ → K) : Prop where
  particles : ∀ c i j k, Antisym2 fun a b => t a b c i j k
  holes : ∀ a b c k, Antisym2 fun i j => t a b c i j k

/-- Triples with two beta electrons: antisymmetric in the last two particles and holes. -/
structure AntisymAbb (t : ℕ → ℕ → ℕ → ℕ → ℕ → ℕ → K) : Prop where
  particles : ∀ a i j k, Antisym2 fun b c => t a b c i j k
  holes : ∀ a b c i, Antisym2 fun j k => t a b c i j k

end Ccpy.Spec
