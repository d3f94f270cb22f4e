import Verif.Spec.SpinOrbital
import Mathlib.Algebra.Field.Rat
import Mathlib.Algebra.Order.Ring.Rat
import Mathlib.Algebra.Order.AbsoluteValue.Basic

/-! Specification: the self-energy of second order, by sums over spin orbitals, and the iterates of the Dyson equation for one root.
The orbitals below `no s` are the occupied ones of spin `s`, followed by `nu s` unoccupied ones. -/

namespace Ccpy.SelfEnergy
open Ccpy.Spec

/-- The orbital energies and the antisymmetrised integrals `⟨pq‖rs⟩`, by spin, and the numbers of orbitals. -/
structure Problem where
  no : Bool → ℕ
  nu : Bool → ℕ
  fA : ℕ → ℕ → ℚ
  fB : ℕ → ℕ → ℚ
  vAA : ℕ → ℕ → ℕ → ℕ → ℚ
  vAB : ℕ → ℕ → ℕ → ℕ → ℚ
  vBB : ℕ → ℕ → ℕ → ℕ → ℚ

namespace Problem
variable (P : Problem)

/-- The sum over unoccupied spin orbitals. -/
def unocc (f : SO → ℚ) : ℚ := soSum P.nu fun a => f (a.1, P.no a.1 + a.2)

/-- The energy of a spin orbital, a diagonal element of the Fock matrix. -/
def energy (p : SO) : ℚ := spinOrbital2 P.fA P.fB p p

/-- `⟨pq‖rs⟩`. -/
def v : SO → SO → SO → SO → ℚ := spinOrbital4 P.vAA P.vAB P.vBB

/-- The self-energy of second order,
`½ Σ ⟨mn‖pf⟩⟨qf‖mn⟩ / (ω + ε_f − ε_m − ε_n) + ½ Σ ⟨qn‖ef⟩⟨ef‖pn⟩ / (ω + ε_n − ε_e − ε_f)`, where `m`, `n` are occupied and
`e`, `f` unoccupied. -/
def sigma (ω : ℚ) (p q : SO) : ℚ :=
  1 / 2 * (soSum P.no fun m => soSum P.no fun n => P.unocc fun f =>
    P.v m n p f * P.v q f m n / (ω + P.energy f - P.energy m - P.energy n)) +
  1 / 2 * (soSum P.no fun n => P.unocc fun e => P.unocc fun f =>
    P.v q n e f * P.v e f p n / (ω + P.energy n - P.energy e - P.energy f))

/-- Exchanging the first or the last two orbitals of a like-spin integral changes its sign. -/
structure Antisymmetric : Prop where
  aaLeft : ∀ p q r s, P.vAA q p r s = -P.vAA p q r s
  aaRight : ∀ p q r s, P.vAA p q s r = -P.vAA p q r s
  bbLeft : ∀ p q r s, P.vBB q p r s = -P.vBB p q r s
  bbRight : ∀ p q r s, P.vBB p q s r = -P.vBB p q r s

/-- The energies `x 0 = ε_p`, `x (n + 1) = ε_p + Σ_pp(x n)`, for an orbital `p` of spin alpha. -/
def iterate (p : ℕ) : ℕ → ℚ
  | 0 => P.fA p p
  | n + 1 => P.fA p p + P.sigma (iterate p n) (false, p) (false, p)

end Problem

end Ccpy.SelfEnergy
