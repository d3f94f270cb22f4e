import Mathlib.Data.Finset.Sort
import Mathlib.Data.Finset.SDiff
import Verif.Model.Permutations

/-! Model of `/repo/ccpy/utilities/determinants.py`.  Spin-orbitals are positive integers:
odd = alpha, even = beta. -/

namespace Ccpy.Determinants

/-- `get_excit_rank(D, D0) = len(set(D) - set(D0))`, `/repo/ccpy/utilities/determinants.py:13-14`. -/
def getExcitRank (D D0 : List ℕ) : ℕ := (D.toFinset \ D0.toFinset).card

/-- `get_excits_from(D, D0) = list(set(D0) - set(D))`, `/repo/ccpy/utilities/determinants.py:17-18`.
Simplification: the arbitrary order in which python lists a set is not modelled; the result is the
set itself (all callers sort it by spin afterwards). -/
def getExcitsFrom (D D0 : List ℕ) : Finset ℕ := D0.toFinset \ D.toFinset

/-- `get_excits_to(D, D0) = list(set(D) - set(D0))`, `/repo/ccpy/utilities/determinants.py:21-22`. -/
def getExcitsTo (D D0 : List ℕ) : Finset ℕ := D.toFinset \ D0.toFinset

/-- `spatial_orb_idx(x)`, `/repo/ccpy/utilities/determinants.py:25-29` (for `x ≥ 0`). -/
def spatialOrbIdx (x : ℕ) : ℕ := if x % 2 = 1 then (x + 1) / 2 else x / 2

/-- `get_spincase(excits_from, excits_to)`, `/repo/ccpy/utilities/determinants.py:32-42`.
`none` is the `AssertionError`; the string is modelled as a list of characters. -/
def getSpincase (excFrom excTo : List ℕ) : Option (List Char) :=
  if excFrom.length = excTo.length then
    let nOcc := (excFrom.map (· % 2)).sum
    let nUnocc := (excTo.map (· % 2)).sum
    if nOcc = nUnocc then
      some (List.replicate nOcc 'a' ++ List.replicate (excFrom.length - nOcc) 'b')
    else none
  else none

/-- `get_number_difference(f1, f2) = len(set(f1) ^ set(f2))`,
`/repo/ccpy/utilities/determinants.py:68-69`. -/
def getNumberDifference (f1 f2 : List ℕ) : ℕ := (symmDiff f1.toFinset f2.toFinset).card

/-- Python's `sorted` applied to a set of integers: insertion sort of any listing of the set.
(Same value as Mathlib's `Finset.sort`, see `fsort_eq`, but easy to evaluate.) -/
def fsort (s : Finset ℕ) : List ℕ :=
  Quot.liftOn s.1 (fun l => l.insertionSort (· ≤ ·)) (by
    intro a b h
    exact List.Perm.eq_of_pairwise (le := (· ≤ ·)) (fun _ _ _ _ h1 h2 => le_antisymm h1 h2)
      (List.pairwise_insertionSort _ _) (List.pairwise_insertionSort _ _)
      ((List.perm_insertionSort _ _).trans (h.trans (List.perm_insertionSort _ _).symm)))

theorem fsort_eq (s : Finset ℕ) : fsort s = s.sort (· ≤ ·) := by
  obtain ⟨m, hm⟩ := s
  induction m using Quot.inductionOn with
  | h l =>
    refine List.Perm.eq_of_pairwise (le := (· ≤ ·)) (fun _ _ _ _ h1 h2 => le_antisymm h1 h2)
      (List.pairwise_insertionSort (· ≤ ·) l) (Finset.pairwise_sort _ _) ?_
    refine (List.perm_insertionSort (· ≤ ·) l).trans ?_
    have h := (Finset.sort_eq (⟨Quot.mk _ l, hm⟩ : Finset ℕ) (· ≤ ·)).symm
    exact Multiset.coe_eq_coe.mp h

/-- numpy `argsort` of a list with distinct keys (used e.g. in
`/repo/ccpy/extcorr/external_correction.py:181` and `/repo/ccpy/interfaces/qp2_tools.py:31`):
the positions ordered by their keys.  Positions outside the list never occur, so the default `0`
of the key lookup is never used. -/
def argsort (l : List ℕ) : List ℕ :=
  (List.range l.length).insertionSort (fun i j => l.getD i 0 ≤ l.getD j 0)

end Ccpy.Determinants
