import Mathlib.Data.List.Lex
import Mathlib.Data.List.Sort
import Mathlib.Algebra.Order.Group.Int

/-! Model of the merging of excitation lists of several states,
`/repo/ccpy/utilities/pspace.py:1107-1113` and its use in
`/repo/ccpy/drivers/adaptive.py:937-990`. -/

namespace Ccpy.PspaceUnion

/-- A value handed to `overlap_p_spaces`: either a python list (only the literal `[]` occurs in
the callers) or a two-dimensional integer array with `width` columns. -/
inductive Rows where
  | emptyList
  | array (width : ℕ) (rows : List (List ℤ))
  deriving DecidableEq

/-- The rows a value contains. -/
def Rows.rows : Rows → List (List ℤ)
  | .emptyList => []
  | .array _ r => r

/-- `ValueError` of `np.vstack` for arrays of different widths. -/
inductive Err where
  | valueError
  deriving DecidableEq

/-- The mask `aux[1:] != aux[:-1]` applied inside `np.unique`: keep a row when it differs from its
predecessor. -/
def dropRepeats : List (List ℤ) → List (List ℤ)
  | [] => []
  | [x] => [x]
  | x :: y :: l => if x = y then dropRepeats (y :: l) else x :: dropRepeats (y :: l)

/-- `np.unique(…, axis=0)` as called at `/repo/ccpy/utilities/pspace.py:1111`: sort the rows
lexicographically, then drop repeated neighbours.  The sorting algorithm of numpy is replaced by
insertion sort. -/
def uniqueRows (l : List (List ℤ)) : List (List ℤ) :=
  dropRepeats (l.insertionSort (· ≤ ·))

/-- `overlap_p_spaces(excits1, excits2)`, `/repo/ccpy/utilities/pspace.py:1107-1113`.
The test at line 1108 is true exactly for the empty python list; then `excits2` is returned
unchanged.  `np.vstack` needs equal widths; the empty python list as second argument counts as one
row of width 0, so it fails against any array of positive width. -/
def overlapPspaces (e1 e2 : Rows) : Except Err Rows :=
  match e1, e2 with
  | .emptyList, e2 => .ok e2
  | .array w1 r1, .array w2 r2 =>
      if w1 = w2 then .ok (.array w1 (uniqueRows (r1 ++ r2))) else .error .valueError
  | .array w1 r1, .emptyList =>
      if w1 = 0 then .ok (.array 0 (uniqueRows (r1 ++ [[]]))) else .error .valueError

/-- The loop over excited states, `/repo/ccpy/drivers/adaptive.py:943-973`: start from the empty
python list and merge the selection of every state in turn. -/
def mergeStates (sel : List Rows) : Except Err Rows :=
  sel.foldlM overlapPspaces .emptyList

/-- `/repo/ccpy/drivers/adaptive.py:975-985`: when the ground and excited states have the same
symmetry and multiplicity, the ground-state list is merged with the excited-state list and both are
set to the result; otherwise both stay as they are. -/
def mergeGround (same : Bool) (t r : Rows) : Except Err (Rows × Rows) :=
  if same then
    match overlapPspaces t r with
    | .ok u => .ok (u, u)
    | .error e => .error e
  else .ok (t, r)

end Ccpy.PspaceUnion
