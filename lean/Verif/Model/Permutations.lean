import Mathlib.Data.List.FinRange
import Mathlib.Logic.Equiv.Basic
import Mathlib.Data.Fintype.Basic
import Mathlib.Data.List.Sort

/-!
Model of `/repo/ccpy/utilities/permutations.py` (and of the identical parity
function in `/repo/ccpy/utilities/determinants.py`).
A python list of length `n` that is mutated in place is modelled by the function
from its index range `Fin n` to its entries.
-/

namespace Ccpy.Permutations

/-- `min(range(i, len(lst)), key=lst.__getitem__)`: the first index `≥ i` whose entry is
smallest.  `/repo/ccpy/utilities/permutations.py:9`.  Python's `min` keeps the earlier
candidate on ties, so a later index replaces the current one only when strictly smaller. -/
def minIdx {n : ℕ} (f : Fin n → ℕ) (i : Fin n) : Fin n :=
  ((List.finRange n).filter (fun j => i ≤ j)).foldl
    (fun best j => if f j < f best then j else best) i

/-- One pass of the loop body, `/repo/ccpy/utilities/permutations.py:7-10`.
The simultaneous assignment `lst[i], lst[mn] = lst[mn], lst[i]` is composition with the swap.
Parity is kept as an integer instead of the float `1.0`/`-1.0` of the code. -/
def parityStep {n : ℕ} (s : ℤ × (Fin n → ℕ)) (i : Fin n) : ℤ × (Fin n → ℕ) :=
  if s.2 i ≠ i.val then (-s.1, s.2 ∘ Equiv.swap i (minIdx s.2 i)) else s

/-- The whole loop `for i in range(0, len(lst) - 1)`,
`/repo/ccpy/utilities/permutations.py:5-11`, returning the parity and the final list. -/
def parityLoop {n : ℕ} (f : Fin n → ℕ) : ℤ × (Fin n → ℕ) :=
  (List.finRange n).dropLast.foldl parityStep (1, f)

/-- `calculate_permutation_parity(lst)`, `/repo/ccpy/utilities/permutations.py:2-11` and
`/repo/ccpy/utilities/determinants.py:2-11`. -/
def calculatePermutationParity (l : List ℕ) : ℤ := (parityLoop l.get).1

/-- The merge loop of `do_lineup_permutation`, `/repo/ccpy/utilities/permutations.py:22-36`.
The cursors `i`, `j` are the numbers of entries already consumed of the two sorted lists;
the result is `(idx_common_1, idx_common_2)`. -/
def mergeCommon : List ℕ → List ℕ → ℕ → ℕ → List ℕ × List ℕ
  | [], _, _, _ => ([], [])
  | _ :: _, [], _, _ => ([], [])
  | a :: as, b :: bs, i, j =>
    if a = b then
      let r := mergeCommon as bs (i + 1) (j + 1)
      (i :: r.1, j :: r.2)
    else if a < b then mergeCommon as (b :: bs) (i + 1) j
    else mergeCommon (a :: as) bs i (j + 1)
  termination_by l1 l2 _ _ => l1.length + l2.length

/-- `[i for i in range(len(f1)) if i not in idx_common_1]`,
`/repo/ccpy/utilities/permutations.py:37-38`. -/
def idxDifferent (n : ℕ) (common : List ℕ) : List ℕ :=
  (List.range n).filter (fun i => i ∉ common)

/-- `[f1[i] for i in p1]`, `/repo/ccpy/utilities/permutations.py:43`;
`none` is the `IndexError` python would raise. -/
def gather (f : List ℕ) (p : List ℕ) : Option (List ℕ) := p.mapM (fun i => f[i]?)

/-- `do_lineup_permutation(f1, f2)`, `/repo/ccpy/utilities/permutations.py:13-43`.
Returns the two index lists `p1`, `p2` as well, which the code uses only internally. -/
structure Lineup where
  g1 : Option (List ℕ)
  g2 : Option (List ℕ)
  sign1 : ℤ
  sign2 : ℤ
  deriving DecidableEq, Repr

/-- `do_lineup_permutation(f1, f2)`, `/repo/ccpy/utilities/permutations.py:13-43`.
`sorted` is modelled by insertion sort. -/
def doLineupPermutation (f1 f2 : List ℕ) : Lineup :=
  let s1 := f1.insertionSort (· ≤ ·)
  let s2 := f2.insertionSort (· ≤ ·)
  let c := mergeCommon s1 s2 0 0
  let p1 := c.1 ++ idxDifferent s1.length c.1
  let p2 := c.2 ++ idxDifferent s2.length c.2
  { g1 := gather s1 p1, g2 := gather s2 p2,
    sign1 := calculatePermutationParity p1, sign2 := calculatePermutationParity p2 }

end Ccpy.Permutations
