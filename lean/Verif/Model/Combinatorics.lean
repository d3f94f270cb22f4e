import Mathlib.Logic.Function.Basic
import Mathlib.Data.Nat.Notation
import Mathlib.Data.Int.Notation

/-! Model of ccpy/lib/fortran/combinatorics.f90.

Simplifications: integers do not overflow. Arrays are functions of the 0-based position. -/

namespace Ccpy.Combinatorics

/-- The values `lo, ..., hi` of a Fortran `do` loop. -/
def doRange (lo hi : ℤ) : List ℤ := (List.range (hi + 1 - lo).toNat).map fun k : ℕ => lo + (k : ℤ)

/-- `binom_i`, ccpy/lib/fortran/combinatorics.f90:26-48. Integer division truncates. -/
def binomI (m n : ℤ) : ℤ :=
  let n1 := n
  let pool := m - n1
  let (pool, n1) := if n1 < pool then (n1, m - n1) else (pool, n1)
  let binom := n1 + 1
  let binom := if pool = 0 then 1 else binom
  (doRange 2 pool).foldl (fun binom i => (binom * (n1 + i)).tdiv i) binom

/-- `factorial`, ccpy/lib/fortran/combinatorics.f90:76-97. -/
def factorial (n : ℤ) : ℤ := (doRange 2 n).foldl (fun fac i => fac * i) 1

/-- The loop `do i=r, 1, -1` of `next_combination`, ccpy/lib/fortran/combinatorics.f90:151-158, at
`i`: the position (from 0) of the last entry that is not yet at its largest value, `none` if there
is none. `inds(i) /= i + nitems - r` is written without subtraction. -/
def findPos (nitems r : ℕ) (inds : ℕ → ℕ) : ℕ → Option ℕ
  | 0 => none
  | i + 1 => if inds i + r ≠ i + 1 + nitems then some i else findPos nitems r inds i

/-- `next_combination`, ccpy/lib/fortran/combinatorics.f90:129-166: the new `inds` and `done`.
`none`: for `r = 0` the loop body never runs, `i` is 0 and `inds(0)` is written, outside the
array. -/
def nextCombination (nitems r : ℕ) (inds : ℕ → ℕ) : Option ((ℕ → ℕ) × Bool) :=
  if r = 0 then none
  else match findPos nitems r inds r with
    | none => some (inds, true)
    | some i =>
      let inds := Function.update inds i (inds i + 1)
      some ((List.range (r - (i + 1))).foldl
        (fun inds k => Function.update inds (i + 1 + k) (inds (i + k) + 1)) inds, false)

end Ccpy.Combinatorics
