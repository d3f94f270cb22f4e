import Verif.Spec.Exchange
import Mathlib.Algebra.BigOperators.Group.Finset.Basic
import Mathlib.Data.Fintype.Perm
import Mathlib.Algebra.Field.Defs

/-! Specification: one shifted Jacobi (quasi-Newton) step for an excitation tensor. -/

namespace Ccpy.Spec
open Equiv

/-- Choose by spin; `false` is alpha. -/
def bySpin {α : Type*} (alpha beta : α) : Bool → α := fun s => if s then beta else alpha

/-- 1-based indices inside orbital spaces with `nv` virtual and `no` occupied orbitals per spin. -/
def InRange {m n : ℕ} (sp : Fin m → Bool) (sh : Fin n → Bool) (nv no : Bool → ℕ)
    (k : (Fin m → ℕ) × (Fin n → ℕ)) : Prop :=
  (∀ i, 1 ≤ k.1 i ∧ k.1 i ≤ nv (sp i)) ∧ ∀ i, 1 ≤ k.2 i ∧ k.2 i ≤ no (sh i)

/-- The signed sum of `X` over all exchanges of same-spin particles and of same-spin holes. -/
def antisymmetrize {m n : ℕ} {R : Type*} [Ring R] (sp : Fin m → Bool) (sh : Fin n → Bool)
    (X : (Fin m → ℕ) × (Fin n → ℕ) → R) (k : (Fin m → ℕ) × (Fin n → ℕ)) : R :=
  ∑ g : Perm (Fin m) × Perm (Fin n),
    if (∀ i, sp (g.1 i) = sp i) ∧ ∀ i, sh (g.2 i) = sh i then
      ((Perm.sign g.1 * Perm.sign g.2 : ℤˣ) : ℤ) • X (k.1 ∘ g.1, k.2 ∘ g.2) else 0

/-- Sum of the occupied minus sum of the virtual orbital energies of an excitation. -/
def energyDifference {m n : ℕ} {R : Type*} [Ring R] (sp : Fin m → Bool) (sh : Fin n → Bool)
    (eo ev : Bool → ℕ → R) (k : (Fin m → ℕ) × (Fin n → ℕ)) : R :=
  ∑ i, eo (sh i) (k.2 i) - ∑ i, ev (sp i) (k.1 i)

/-- `T'` results from `T` by one Jacobi step with the residual `X` and `D` is the recorded change:
every amplitude changes by the antisymmetrised residual over the shifted energy difference. -/
structure JacobiStep {m n : ℕ} {R : Type*} [Ring R] (sp : Fin m → Bool) (sh : Fin n → Bool)
    (nv no : Bool → ℕ) (eo ev : Bool → ℕ → R) (shift : R)
    (X T T' D : (Fin m → ℕ) × (Fin n → ℕ) → R) : Prop where
  step : ∀ k, InRange sp sh nv no k →
    (energyDifference sp sh eo ev k - shift) * (T' k - T k) = antisymmetrize sp sh X k
  change : ∀ k, D k = T' k - T k
  outside : ∀ k, ¬ InRange sp sh nv no k → T' k = T k
  antisym : AntisymUnder (SpinExchange sp sh) T'

end Ccpy.Spec
