import Verif.Spec.Attachment

/-! Operators that add, remove or flip electrons.  Such an operator is a sum of parts; each part has an array of
amplitudes, and its string of creation and annihilation operators refers to the axes of the array.

Axes are numbered by the spaces of their orbitals: 0 occupied, 1 unoccupied orbitals with spin up, 2 occupied, 3 unoccupied
orbitals with spin down. -/

namespace Ccpy.Fock
open Finset

variable {ι : Type*}

/-- The number of orbitals of a space. -/
def Orbitals.size (S : Orbitals ι) (s : ℕ) : ℕ :=
  match s with
  | 0 => S.na
  | 1 => S.ua
  | 2 => S.nb
  | _ => S.ub

/-- The spin orbital `k` of a space. -/
def Orbitals.orbital (S : Orbitals ι) (s k : ℕ) : ι :=
  match s with
  | 0 => S.occA k
  | 1 => S.virA k
  | 2 => S.occB k
  | _ => S.virB k

/-- One part of an operator: the name of its array, the spaces of the axes, the number of equal terms every term occurs in,
the lengths of the groups of consecutive axes in which the array is antisymmetric, and the operators (`true` for creation) with
the axis each of them takes its orbital from. -/
structure Part where
  (name : ℕ)
  (axes : List ℕ)
  (divisor : ℕ)
  (groups : List ℕ)
  (string : List (Bool × ℕ))

/-- Sum over all index lists below the given bounds. -/
def boxSum {M : Type*} [AddCommMonoid M] : List ℕ → (List ℕ → M) → M
  | [], g => g []
  | d :: ds, g => ∑ k ∈ range d, boxSum ds fun l => g (k :: l)

/-- The positions `k` and `k + 1` belong to the same group. -/
def sameGroup : List ℕ → ℕ → Bool
  | [], _ => false
  | g :: gs, k => if k + 1 < g then true else if k < g then false else sameGroup gs (k - g)

/-- The array changes sign when two neighbouring indices of a group are exchanged. -/
def AntisymmetricIn (g : List ℕ) (J : List ℕ → ℚ) : Prop :=
  ∀ l₁ x y l₂, sameGroup g l₁.length = true → J (l₁ ++ x :: y :: l₂) = - J (l₁ ++ y :: x :: l₂)

variable [LinearOrder ι]

noncomputable section

/-- The string of a part for given indices. -/
def Part.product (p : Part) (S : Orbitals ι) (idx : List ℕ) : Operator ι :=
  (p.string.map fun o => let x := S.orbital (p.axes.getD o.2 0) (idx.getD o.2 0); if o.1 then cre x else ann x).prod

/-- The operator with the parts `ps` and the amplitudes `r`. -/
def partsOperator (S : Orbitals ι) (ps : List Part) (r : ℕ → List ℕ → ℚ) : Operator ι :=
  (ps.map fun p => (1 / p.divisor : ℚ) • boxSum (p.axes.map S.size) fun idx => r p.name idx • p.product S idx).sum

/-- The determinant that the string of a part makes out of the reference. -/
def Part.state (p : Part) (S : Orbitals ι) (idx : List ℕ) : Vec ι := p.product S idx S.ref

end

/-- The part with the adjoint string. -/
def Part.undo (p : Part) : Part := ⟨p.name, p.axes, p.divisor, p.groups, (p.string.map fun o => (!o.1, o.2)).reverse⟩

end Ccpy.Fock
