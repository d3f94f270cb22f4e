import Mathlib.Data.Real.Sqrt
import Mathlib.Algebra.BigOperators.Group.Finset.Basic

/-! `/repo/ccpy/cholesky/cholesky.py`, `pivoted_chol`, lines 5–69.  Real numbers stand for floating-point
numbers; `get_diag()` and `get_row(p)` are the diagonal and the rows of one matrix `A` with `N` rows.  Printing
is left out. -/

namespace Ccpy.PivotedCholesky

/-- The arrays `piv`, `d`, `R` and the number `err`. -/
structure State where
  piv : ℕ → ℕ
  d : ℕ → ℝ
  R : ℕ → ℕ → ℝ
  err : ℝ

/-- `np.argmax` of `f 0, …, f n`: the first position of the largest value. -/
noncomputable def argmax (f : ℕ → ℝ) : ℕ → ℕ
  | 0 => 0
  | n + 1 => if f (argmax f n) < f (n + 1) then n + 1 else argmax f n

/-- Lines 28–36. -/
def start (A : ℕ → ℕ → ℝ) (N : ℕ) : State :=
  { piv := fun i => i, d := fun p => A p p, R := fun _ _ => 0, err := ∑ p ∈ Finset.range N, |A p p| }

/-- Exchange of `piv[m]` and `piv[i]`, lines 43–45. -/
def exchange (piv : ℕ → ℕ) (m i : ℕ) : ℕ → ℕ :=
  Function.update (Function.update piv m (piv i)) i (piv m)

/-- The loop over `i`, lines 49–55, on row `m` of `R` and on `d`; `R` holds the rows before. -/
noncomputable def rowLoop (A : ℕ → ℕ → ℝ) (N m : ℕ) (piv : ℕ → ℕ) (R : ℕ → ℕ → ℝ)
    (row d : ℕ → ℝ) : (ℕ → ℝ) × (ℕ → ℝ) :=
  (List.range' (m + 1) (N - (m + 1))).foldl (fun acc i =>
    let ip := ∑ l ∈ Finset.range m, R l (piv m) * R l (piv i)
    let r := (A (piv m) (piv i) - ip) / acc.1 (piv m)
    (Function.update acc.1 (piv i) r, Function.update acc.2 (piv i) (acc.2 (piv i) - r ^ 2))) (row, d)

/-- One pass of the `while` loop, lines 39–58.  `none`: `np.argmax` of an empty array raises ValueError, or
a NaN arises from the square root of a negative number or from a division by zero. -/
noncomputable def step (A : ℕ → ℕ → ℝ) (N m : ℕ) (s : State) : Option State :=
  if N ≤ m then none
  else
    let i := m + argmax (fun k => s.d (s.piv (m + k))) (N - m - 1)
    let piv := exchange s.piv m i
    let c := s.d (piv m)
    if c < 0 ∨ (c = 0 ∧ m + 1 < N) then none
    else
      let x := rowLoop A N m piv s.R (Function.update (s.R m) (piv m) (Real.sqrt c)) s.d
      some { piv := piv, d := x.2, R := Function.update s.R m x.1,
             err := ∑ j ∈ Finset.Ico (m + 1) N, x.2 (piv j) }

/-- The `while` loop with `fuel = rank_max - m`, line 38. -/
noncomputable def loop (A : ℕ → ℕ → ℝ) (N : ℕ) (tol : ℝ) : ℕ → ℕ → State → Option (ℕ × State)
  | 0, m, s => some (m, s)
  | fuel + 1, m, s =>
    if s.err > tol then
      match step A N m s with
      | none => none
      | some s' => loop A N tol fuel (m + 1) s'
    else some (m, s)

/-- `pivoted_chol(get_diag, get_row, rank_max, err_tol)`: the rank `m` and the state; the returned array is
made of the rows of `R` before row `m`, line 65. -/
noncomputable def pivotedChol (A : ℕ → ℕ → ℝ) (N rankMax : ℕ) (tol : ℝ) : Option (ℕ × State) :=
  loop A N tol rankMax 0 (start A N)

end Ccpy.PivotedCholesky
