import Mathlib.Data.Real.Sqrt
import Mathlib.Data.Matrix.Mul

/-! `/repo/ccpy/utilities/utilities.py`, `gramschmidt`, lines 242–253.  The matrix is given by its columns;
real numbers stand for floating-point numbers. -/

namespace Ccpy.GramSchmidt

/-- A column with `N` entries. -/
abbrev Column (N : ℕ) := Fin N → ℝ

/-- Lines 250–251: `A[:, j] -= np.dot(A[:, k], A[:, j]) * A[:, k]` for the finished columns in order, each
time with the current `A[:, j]`. -/
noncomputable def project {N : ℕ} (done : List (Column N)) (v : Column N) : Column N :=
  done.foldl (fun v q => v - (q ⬝ᵥ v) • q) v

/-- `np.linalg.norm`. -/
noncomputable def norm {N : ℕ} (v : Column N) : ℝ := Real.sqrt (v ⬝ᵥ v)

/-- The loop over `j`, lines 246–252.  `none`: a column is divided by a zero norm, which fills it with
NaN. -/
noncomputable def loop {N : ℕ} (done : List (Column N)) : List (Column N) → Option (List (Column N))
  | [] => some done
  | v :: rest =>
    let w := project done v
    if norm w = 0 then none else loop (done ++ [fun i => w i / norm w]) rest

/-- `gramschmidt(A)`. -/
noncomputable def gramschmidt {N : ℕ} (A : List (Column N)) : Option (List (Column N)) := loop [] A

end Ccpy.GramSchmidt
