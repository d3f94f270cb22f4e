import Mathlib.Logic.Function.Basic
import Mathlib.Data.Fin.VecNotation

/-! Element assignments `A[k] = x` on tensors.  A tensor is the function from its index tuples to
its entries; an excitation tensor is indexed by a tuple of particle and a tuple of hole indices. -/

namespace Ccpy.Writes

/-- Index of a double excitation tensor `T[a,b,i,j]`: particles, then holes. -/
abbrev Key2 := (Fin 2 → ℕ) × (Fin 2 → ℕ)

/-- Index of a triple excitation tensor `T[a,b,c,i,j,k]`: particles, then holes. -/
abbrev Key3 := (Fin 3 → ℕ) × (Fin 3 → ℕ)

/-- A sequence of element assignments executed in order. -/
def applyWrites {K R : Type*} [DecidableEq K] (T : K → R) (ws : List (K × R)) : K → R :=
  ws.foldl (fun T w => Function.update T w.1 w.2) T

end Ccpy.Writes
