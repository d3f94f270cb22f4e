import Verif.Spec.FockSpace
import Mathlib.Order.Monotone.Basic
import Mathlib.Data.Finset.Image

/-! Specification: excitation operators, and the order of the spin orbitals in a determinant. -/

namespace Ccpy.Fock

variable {ι : Type*} [LinearOrder ι]

/-- `… a_{x₂} a_{x₁} v` -/
noncomputable def annL (l : List ι) (v : Vec ι) : Vec ι := l.foldl (fun v x => ann x v) v
/-- `a†_{x₁} a†_{x₂} … v` -/
noncomputable def creL (l : List ι) (v : Vec ι) : Vec ι := l.foldr (fun x v => cre x v) v

/-- The excitation `p₁† p₂† … q₂ q₁ v` from the spin orbitals `Q` to the spin orbitals `P`. -/
noncomputable def exciteWith (P Q : List ι) (v : Vec ι) : Vec ι := creL P (annL Q v)

/-- Spin orbitals ordered by spin first: all with spin up, then all with spin down. -/
structure Ordered (up down : ℕ → ι) : Prop where
  monoUp : StrictMono up
  monoDown : StrictMono down
  lt : ∀ p q, up p < down q

/-- The determinant in which the orbitals `A` are occupied with spin up and `B` with spin down. -/
def occupiedBy (up down : ℕ → ι) (A B : List ℕ) : Finset ι := A.toFinset.image up ∪ B.toFinset.image down

end Ccpy.Fock
