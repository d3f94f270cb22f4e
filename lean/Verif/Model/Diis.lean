import Mathlib.Algebra.Field.Basic
import Mathlib.Algebra.BigOperators.Group.Finset.Basic

/-! Model of ccpy/drivers/diis.py.

Simplifications: floating-point numbers are the elements of a field; the data type is real; the two
storages (memory, HDF5 file) are one. Where numpy would divide by zero (giving infinities and NaN in
every component of the result) the model gives `none`. Matrices and vectors are functions of their
indices, read below their dimension only. -/

namespace Ccpy.Diis

/-- The lists `T_list` and `T_residuum_list`; `none`: the zeros of `__init__`. -/
abbrev Slots (V D : Type) := ℕ → Option (V × D)

/-- `push`, ccpy/drivers/diis.py:29-31; `none` is the ZeroDivisionError of `iteration % 0`. -/
def push {V D : Type} (size : ℕ) (slots : Slots V D) (T : V) (dT : D) (iteration : ℕ) :
    Option (Slots V D) :=
  if size = 0 then none
  else some fun i => if i = iteration % size then some (T, dT) else slots i

variable {K : Type} [Field K] [DecidableEq K]

/-- The system: matrix and right-hand side. -/
structure System (K : Type) where
  A : ℕ → ℕ → K
  b : ℕ → K

/-- The body of the double loop, ccpy/drivers/diis.py:60-62. -/
def eliminate (i : ℕ) (S : System K) (j : ℕ) : System K :=
  let m := S.A j i / S.A i i
  { A := fun r c => if r = j then S.A r c - m * S.A i c else S.A r c
    b := fun r => if r = j then S.b r - m * S.b i else S.b r }

/-- The loop over `j`, ccpy/drivers/diis.py:59-62. -/
def column (n : ℕ) (S : System K) (i : ℕ) : Option (System K) :=
  if S.A i i = 0 then none
  else some ((List.range' (i + 1) (n - (i + 1))).foldl (eliminate i) S)

/-- The loop over `i`, ccpy/drivers/diis.py:58-62. -/
def forward (n : ℕ) (S : System K) : Option (System K) :=
  (List.range (n - 1)).foldlM (column n) S

/-- The body of the `while` loop, ccpy/drivers/diis.py:67; the last entry is computed twice in the code
(line 65), with the same result. -/
def backStep (n : ℕ) (S : System K) (x : ℕ → K) (k : ℕ) : Option (ℕ → K) :=
  if S.A k k = 0 then none
  else
    let v := (S.b k - ((List.range' (k + 1) (n - (k + 1))).map fun c => S.A k c * x c).sum) / S.A k k
    some fun r => if r = k then v else x r

/-- `solve_gauss`, ccpy/drivers/diis.py:54-70. -/
def solveGauss (n : ℕ) (A : ℕ → ℕ → K) (b : ℕ → K) : Option (ℕ → K) := do
  let S ← forward n ⟨A, b⟩
  (List.range n).reverse.foldlM (backStep n S) (fun _ => 0)

/-- `np.dot` of two vectors of length `dim`. -/
def dot (dim : ℕ) (u v : ℕ → K) : K := ((List.range dim).map fun i => u i * v i).sum

/-- The matrix `B`, ccpy/drivers/diis.py:34-40: for `i ≤ j` the product is computed once and stored
twice. -/
def bMatrix (size dim : ℕ) (r : ℕ → ℕ → K) (i j : ℕ) : K :=
  if i = size ∧ j = size then 0
  else if i < size ∧ j < size then (if i ≤ j then dot dim (r i) (r j) else dot dim (r j) (r i))
  else -1

/-- `rhs`, ccpy/drivers/diis.py:42-43. -/
def rhs (size i : ℕ) : K := if i = size then -1 else 0

/-- `extrapolate`, ccpy/drivers/diis.py:33-52, for the rows `t` and `r` of the two lists. -/
def extrapolate (size dim : ℕ) (t r : ℕ → ℕ → K) : Option (ℕ → K) :=
  (solveGauss (size + 1) (bMatrix size dim r) (rhs size)).map fun coeff =>
    fun p => ((List.range size).map fun i => coeff i * t i p).sum

end Ccpy.Diis
