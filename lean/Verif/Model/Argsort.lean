import Mathlib.Data.List.Basic
import Mathlib.Order.Defs.LinearOrder

/-! Model of the bottom-up merge `argsort` (ccpy/lib/fortran/ccsdt_p_loops.f90:8009-8059, repeated
verbatim in ccp3_adaptive_loops.f90:1476-1526, ccp3_opt_loops.f90:1724-1774 and the other P-space
kernels) and of its descending variant `argsort_r8_descend`
(ccpy/lib/fortran/ccp3_adaptive_loops.f90:1528-1579).

Simplifications: the key array `r` of size `n` is a function of the index counted from 1; the index
array `d` is a list (its entries are counted from 1, as in Fortran); the scratch array `il` is the
value returned by `mergeRuns`; loops carry a fuel argument that bounds their number of turns. -/

namespace Ccpy.Argsort

variable {α : Type*}

/-- The two-pointer loop and the final copy of the remaining run,
ccpy/lib/fortran/ccsdt_p_loops.f90:8035-8053. `before x y` is `x < y` (ascending) or `x > y`
(descending, ccp3_adaptive_loops.f90:1556). On a tie the entry of the right run is taken. -/
def mergeRuns (before : α → α → Bool) (r : ℕ → α) : ℕ → List ℕ → List ℕ → List ℕ
  | fuel + 1, i :: left, j :: right =>
    if before (r i) (r j) then i :: mergeRuns before r fuel left (j :: right)
    else j :: mergeRuns before r fuel (i :: left) right
  | _, left, right => left ++ right

/-- Merging the runs that start at `left`, ccpy/lib/fortran/ccsdt_p_loops.f90:8030-8054:
`ksize = min(stepsize*2,n-left+1)`, `d(left:left+ksize-1) = il(1:ksize)`. -/
def mergeBlock (before : α → α → Bool) (r : ℕ → α) (n stepsize left : ℕ) (d : List ℕ) : List ℕ :=
  let ksize := min (stepsize * 2) (n - left + 1)
  d.take (left - 1) ++
    (mergeRuns before r ksize ((d.drop (left - 1)).take stepsize)
      ((d.drop (left - 1 + stepsize)).take (ksize - stepsize)) ++
    d.drop (left - 1 + ksize))

/-- `do left = 1, n-stepsize, stepsize*2`, ccpy/lib/fortran/ccsdt_p_loops.f90:8029-8055, from a
given `left` on. -/
def mergePass (before : α → α → Bool) (r : ℕ → α) (n stepsize : ℕ) : ℕ → ℕ → List ℕ → List ℕ
  | 0, _, d => d
  | fuel + 1, left, d =>
    if left + stepsize ≤ n then
      mergePass before r n stepsize fuel (left + stepsize * 2) (mergeBlock before r n stepsize left d)
    else d

/-- `do while (stepsize < n)`, ccpy/lib/fortran/ccsdt_p_loops.f90:8028-8057. -/
def sortPasses (before : α → α → Bool) (r : ℕ → α) (n : ℕ) : ℕ → ℕ → List ℕ → List ℕ
  | 0, _, d => d
  | fuel + 1, stepsize, d =>
    if stepsize < n then
      sortPasses before r n fuel (stepsize * 2) (mergePass before r n stepsize n 1 d)
    else d

/-- The common text of `argsort` and `argsort_r8_descend`,
ccpy/lib/fortran/ccsdt_p_loops.f90:8009-8059. -/
def argsortBy (before : α → α → Bool) (n : ℕ) (r : ℕ → α) : List ℕ :=
  let d := List.range' 1 n
  if n = 1 then d else sortPasses before r n n 1 d

/-- `argsort`, ccpy/lib/fortran/ccsdt_p_loops.f90:8009-8059. -/
def argsort [LinearOrder α] (n : ℕ) (r : ℕ → α) : List ℕ :=
  argsortBy (fun x y => decide (x < y)) n r

/-- `argsort_r8_descend`, ccpy/lib/fortran/ccp3_adaptive_loops.f90:1528-1579. -/
def argsortDescend [LinearOrder α] (n : ℕ) (r : ℕ → α) : List ℕ :=
  argsortBy (fun x y => decide (x > y)) n r

end Ccpy.Argsort
