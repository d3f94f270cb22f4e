import Verif.Model.Excitations
import Verif.Spec.Excitations

/-! How the rows of the excitation lists are to be read. -/

namespace Ccpy.Excitations
open Ccpy.Spec

/-- The orbital spaces a `System` describes. -/
def Sys.space (s : Sys) : Space where
  occ := fun | .α => s.noa | .β => s.nob
  unocc := fun | .α => s.nua | .β => s.nub
  actOcc := fun | .α => s.actOA | .β => s.actOB
  actUnocc := fun | .α => s.actUA | .β => s.actUB
  irrep := s.irrep

/-- Spins of the three particles, and of the three holes, of a spin case. -/
def Case.spins : Case → List Spin
  | .aaa => [.α, .α, .α]
  | .aab => [.α, .α, .β]
  | .abb => [.α, .β, .β]
  | .bbb => [.β, .β, .β]

/-- The excitations a list stands for: none if its first row is the placeholder row of ones. -/
def realRows (width : ℕ) (rows : List (List ℕ)) : List (List ℕ) :=
  if rows.head? = some (List.replicate width 1) then [] else rows

/-- A row that stands for an ordered excitation of the given spins and of the target symmetry,
whose particles and holes meet `cond`. -/
def Allowed (s : Sys) (target : Option ℕ) (pSpins hSpins : List Spin)
    (cond : List ℕ → List ℕ → Prop) (r : List ℕ) : Prop :=
  ∃ ps hs, r = row ps hs ∧ OrderedIndices s.space.unocc pSpins ps ∧
    OrderedIndices s.space.occ hSpins hs ∧ cond ps hs ∧
    HasSymmetry s.space s.ref target pSpins ps hs

end Ccpy.Excitations
