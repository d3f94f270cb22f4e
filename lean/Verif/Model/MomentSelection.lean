import Verif.Model.Argsort
import Verif.Model.Blocks
import Mathlib.Data.Rat.Defs
import Mathlib.Algebra.Order.Group.Abs
import Mathlib.Algebra.Order.Ring.Rat

/-! Model of the selection of triples by their contribution to the CC(P;3) correction:
ccpy/lib/fortran/ccp3_adaptive_loops.f90 (the four `*_with_selection_opt` routines, identical in this
respect, lines 164-186, 404-420, 642-658, 831-847; the EOM routines repeat the text) and
`calc_ccp3_2ba_with_selection` (ccpy/moments/ccp3.py:166-347).

Simplifications: a routine is the list of the candidates (outside the P space) in the order of its
loops, each with its row in spin-orbital numbers and its contribution `LM/D`, which are rationals;
the pair of arrays `moments`, `triples_list` is one list. The two lists of lost candidates are not in
the code; nothing depends on them. -/

namespace Ccpy.MomentSelection

/-- A row of `triples_list` with its entry of `moments`. -/
abbrev Cand := List ℕ × ℚ

/-- An unused entry: ccpy/moments/ccp3.py:198-199. -/
def blank : Cand := (List.replicate 6 0, 0)

/-- State kept between the routines, and the two lists of lost candidates: those that arrived when
the buffer was full, and those refused because of the bound taken at the start of a routine. -/
structure Buffer where
  entries : List Cand
  nfill : ℕ
  full : List Cand
  refused : List Cand

/-- State inside a routine; `resorted`: the buffer has been sorted since the routine began. -/
structure State where
  buf : Buffer
  minval : ℚ
  resorted : Bool

/-- `argsort_r8_descend(abs(moments), isort)` and the two gathers,
ccpy/lib/fortran/ccp3_adaptive_loops.f90:181-183. -/
def sortEntries (entries : List Cand) : List Cand :=
  Blocks.gather
    (Argsort.argsortDescend entries.length fun i => |(entries.getD (i - 1) blank).2|) entries

/-- One candidate, ccpy/lib/fortran/ccp3_adaptive_loops.f90:171-186. -/
def offer (numAdd bufFact : ℕ) (minThresh : ℚ) (st : State) (c : Cand) : State :=
  if |c.2| ≤ minThresh then st
  else if st.buf.nfill ≤ bufFact * numAdd then
    if |c.2| ≥ st.minval then
      { st with buf := { st.buf with
          entries := st.buf.entries.set (st.buf.nfill - 1) c, nfill := st.buf.nfill + 1 } }
    else if st.resorted then st
    else { st with buf := { st.buf with refused := st.buf.refused ++ [c] } }
  else
    let entries := sortEntries st.buf.entries
    { buf := { st.buf with entries := entries, nfill := numAdd + 1, full := st.buf.full ++ [c] },
      minval := |(entries.getD (numAdd - 1) blank).2|, resorted := true }

/-- One routine; `minval = abs(moments(num_add))` first (line 70). -/
def routine (numAdd bufFact : ℕ) (minThresh : ℚ) (b : Buffer) (cands : List Cand) : Buffer :=
  (cands.foldl (offer numAdd bufFact minThresh)
    ⟨b, |(b.entries.getD (numAdd - 1) blank).2|, false⟩).buf

/-- The calls in turn (aaa, aab and, without RHF symmetry, abb, bbb), from zero arrays and
`nfill = 1`, ccpy/moments/ccp3.py:196-290; `none`: for `num_add = 0` the element `moments(0)` of an
empty array is read. -/
def run (numAdd bufFact : ℕ) (minThresh : ℚ) (calls : List (List Cand)) : Option Buffer :=
  if numAdd = 0 ∨ bufFact = 0 then none
  else some (calls.foldl (routine numAdd bufFact minThresh)
    ⟨List.replicate (bufFact * numAdd) blank, 1, [], []⟩)

/-- The final sort, ccpy/moments/ccp3.py:297-299, where `idx` is the result of
`np.argsort(np.abs(moments))` (positions counted from 0). -/
def pick (numAdd : ℕ) (idx : List ℕ) (entries : List Cand) : List Cand :=
  (idx.reverse.map fun i => entries.getD i blank).take numAdd

end Ccpy.MomentSelection
