import Verif.Model.PSpace
import Verif.Spec.PSpace

/-! What the arguments and results of the P-space kernels mean: an array of rows and an array of amplitudes form a list of
excitations with their amplitudes. -/

namespace Ccpy.PSpace
open Ccpy.Fock

/-- The records of a result: excitation, new amplitude and increment. -/
def State.records (s : State) : List (List ℕ × ℚ × ℚ) := s.excits.zip (s.amps.zip s.resid)

/-- The three arrays have equal lengths. -/
structure State.Full (s : State) : Prop where
  amps : s.amps.length = s.excits.length
  resid : s.resid.length = s.excits.length

/-- A list that is used but not updated: the placeholder `[[1, 1, 1, 1, 1, 1]]` with the amplitude zero, which stands for an
empty list, or rows that all satisfy `P`. -/
structure Buffer.Usable (t : Buffer) (P : List ℕ → Prop) : Prop where
  length : t.amps.length = t.excits.length
  rows : (t.excits = [[1, 1, 1, 1, 1, 1]] ∧ t.amps = [0])
    ∨ (t.excits ≠ [] ∧ t.excits ≠ [[1, 1, 1, 1, 1, 1]] ∧ ∀ q ∈ t.excits, P q)

/-- A list with its amplitudes. -/
def Buffer.list (t : Buffer) : TripleList := t.excits.zip t.amps

/-- A function of 0-based orbitals at a row of 1-based orbitals. -/
def atRow (f : ℕ → ℕ → ℕ → ℕ → ℕ → ℕ → ℚ) (q : List ℕ) : ℚ :=
  f (q.getD 0 0 - 1) (q.getD 1 0 - 1) (q.getD 2 0 - 1) (q.getD 3 0 - 1) (q.getD 4 0 - 1) (q.getD 5 0 - 1)

end Ccpy.PSpace
