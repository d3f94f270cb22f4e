import Verif.Spec.Update
import Mathlib.GroupTheory.Perm.Sign
import Mathlib.Algebra.Ring.Defs
import Mathlib.Data.List.OfFn

/-! Specification: the exponential ansatz `C = exp(T)` for excitation amplitudes of any rank.

An amplitude is a function of a list of particle and a list of hole spin-orbitals.  The coefficient
of `exp(T)` at an excitation is the signed sum over all ways to distribute its particles and holes
over cluster amplitudes; `expAmp` groups the terms by the cluster that holds the first particle. -/

namespace Ccpy.Spec

/-- Spin (`false` is alpha) and 1-based spatial index. -/
abbrev SpinOrb := Bool × ℕ

/-- Amplitudes of all ranks. -/
abbrev Amplitudes (R : Type*) := List SpinOrb → List SpinOrb → R

/-- All ways to split a list in two sublists, with the sign of moving the first before the second. -/
def unshuffle {α : Type*} : List α → List (List α × List α × ℤ)
  | [] => [([], [], 1)]
  | x :: xs => (unshuffle xs).flatMap fun (A, B, s) =>
      [(x :: A, B, s), (A, x :: B, s * (-1) ^ A.length)]

/-- Coefficient of `exp(T)`, for at most `n` particles. -/
def expAux {R : Type*} [Ring R] (T : Amplitudes R) : ℕ → Amplitudes R
  | _, [], h => if h = [] then 1 else 0
  | 0, _ :: _, _ => 0
  | n + 1, x :: p, h =>
      ((unshuffle p).map fun (A, B, s) =>
        ((unshuffle h).map fun (H, K, s') =>
          if H.length = A.length + 1 then (s * s') • (T (x :: A) H * expAux T n B K) else 0).sum).sum

/-- Coefficient of `exp(T)` at the excitation from the holes `h` to the particles `p`. -/
def expAmp {R : Type*} [Ring R] (T : Amplitudes R) : Amplitudes R := fun p h => expAux T p.length p h

/-- Amplitudes of a spin-conserving excitation operator: antisymmetric in the particles, antisymmetric
in the holes, zero unless the numbers of beta particles and beta holes agree. -/
structure IsExcitation {R : Type*} [Ring R] (T : Amplitudes R) : Prop where
  particles : ∀ (n : ℕ) (p : Fin n → SpinOrb) (g : Equiv.Perm (Fin n)) (h : List SpinOrb),
    T (List.ofFn (p ∘ g)) h = (Equiv.Perm.sign g : ℤ) • T (List.ofFn p) h
  holes : ∀ (n : ℕ) (p : List SpinOrb) (h : Fin n → SpinOrb) (g : Equiv.Perm (Fin n)),
    T p (List.ofFn (h ∘ g)) = (Equiv.Perm.sign g : ℤ) • T p (List.ofFn h)
  spin : ∀ p h, (p.filter (·.1)).length ≠ (h.filter (·.1)).length → T p h = 0

/-- The block of amplitudes with the given spins, as an array of spatial indices. -/
def block {m n : ℕ} {R : Type*} (sp : Fin m → Bool) (sh : Fin n → Bool) (T : Amplitudes R)
    (k : (Fin m → ℕ) × (Fin n → ℕ)) : R :=
  T (List.ofFn fun i => (sp i, k.1 i)) (List.ofFn fun i => (sh i, k.2 i))

/-- `C = exp(T)` through excitation rank `n`. -/
def ExponentialUpTo {R : Type*} [Ring R] (n : ℕ) (C T : Amplitudes R) : Prop :=
  ∀ p h, p.length = h.length → p.length ≤ n → C p h = expAmp T p h

/-- The array `t` holds the amplitudes of `T` at the in-range excitations that are present in `C`, and
zeros elsewhere. -/
structure ClusterBlock {m n : ℕ} {R : Type*} [Ring R] (sp : Fin m → Bool) (sh : Fin n → Bool)
    (nv no : Bool → ℕ) (C T : Amplitudes R) (t : (Fin m → ℕ) × (Fin n → ℕ) → R) : Prop where
  present : ∀ k, InRange sp sh nv no k → block sp sh C k ≠ 0 → t k = block sp sh T k
  absent : ∀ k, ¬ (InRange sp sh nv no k ∧ block sp sh C k ≠ 0) → t k = 0

end Ccpy.Spec
