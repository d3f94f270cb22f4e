import Verif.Spec.SpinOrbitals
import Verif.Spec.ExcitationLists

/-! How a row of a triples list stands for a determinant and for an irrep. -/

namespace Ccpy.CipsiReader
open Ccpy.Excitations Ccpy.Spec

/-- The excitation of spin case `c` written in row `r` leads to the determinant `D`. -/
def Describes (s : Sys) (c : Case) (r : List ℕ) (D : Finset ℕ) : Prop :=
  ∃ ps hs, r = row ps hs ∧ OrderedIndices s.space.unocc c.spins ps ∧
    OrderedIndices s.space.occ c.spins hs ∧ D = excitedDeterminant s.space c.spins c.spins ps hs

/-- The irrep of the state the excitation in row `r` leads to. -/
def rowIrrep (s : Sys) (c : Case) (r : List ℕ) : ℕ :=
  Nat.xor s.ref (excitationIrrep s.space c.spins ((r.take 3).map (· - 1)) ((r.drop 3).map (· - 1)))

end Ccpy.CipsiReader
