import Mathlib.GroupTheory.Perm.Sign
import Mathlib.Algebra.Group.Defs

/-! Specification: antisymmetry of excitation tensors.  `G` lists the simultaneous permutations of
particle and of hole positions that exchange identical (same-spin) particles and holes. -/

namespace Ccpy.Spec
open Equiv

/-- `T` changes sign like the permutation of particles times the permutation of holes. -/
def AntisymUnder {m n : ℕ} {R : Type*} [AddCommGroup R] (G : Set (Perm (Fin m) × Perm (Fin n)))
    (T : (Fin m → ℕ) × (Fin n → ℕ) → R) : Prop :=
  ∀ g ∈ G, ∀ (P : Fin m → ℕ) (H : Fin n → ℕ),
    T (P ∘ g.1, H ∘ g.2) = ((Perm.sign g.1 * Perm.sign g.2 : ℤˣ) : ℤ) • T (P, H)

/-- All permutations: spin cases `aa`, `bb`, `aaa`, `bbb`. -/
def likeSpin (n : ℕ) : Set (Perm (Fin n) × Perm (Fin n)) := Set.univ

/-- Only the identity: spin case `ab`. -/
def distinctSpin (n : ℕ) : Set (Perm (Fin n) × Perm (Fin n)) := {g | g = 1}

/-- Spin case `aab`: exchange of the first two particles and of the first two holes. -/
def spinAab : Set (Perm (Fin 3) × Perm (Fin 3)) := {g | g.1 2 = 2 ∧ g.2 2 = 2}

/-- Spin case `abb`: exchange of the last two particles and of the last two holes. -/
def spinAbb : Set (Perm (Fin 3) × Perm (Fin 3)) := {g | g.1 0 = 0 ∧ g.2 0 = 0}

/-- `T'` is `T` with the amplitude `x` stored for the excitation `(P, H)`: every permutation of
identical particles and holes holds the signed amplitude, every other element is untouched, and
antisymmetry is not destroyed. -/
structure StoresAmplitude {m n : ℕ} {R : Type*} [AddCommGroup R]
    (G : Set (Perm (Fin m) × Perm (Fin n))) (P : Fin m → ℕ) (H : Fin n → ℕ) (x : R)
    (T T' : (Fin m → ℕ) × (Fin n → ℕ) → R) : Prop where
  stored : ∀ g ∈ G, T' (P ∘ g.1, H ∘ g.2) = ((Perm.sign g.1 * Perm.sign g.2 : ℤˣ) : ℤ) • x
  untouched : ∀ key, (∀ g ∈ G, key ≠ (P ∘ g.1, H ∘ g.2)) → T' key = T key
  antisym : AntisymUnder G T → AntisymUnder G T'

end Ccpy.Spec
