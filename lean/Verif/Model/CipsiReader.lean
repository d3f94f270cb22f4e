import Verif.Model.ExternalCorrection
import Verif.Model.Excitations

/-! Model of `get_triples_pspace_from_cipsi`, `/repo/ccpy/utilities/pspace.py:64-213`.
The file is the list of its lines after `list(map(int, line.split()[2:]))` (line 85); tokens that
are not integers, or are negative, are not modelled.  Irrep labels are replaced by their numbers as
in `Verif.Model.Excitations`; printing is dropped. -/

namespace Ccpy.CipsiReader
open Ccpy.Determinants Ccpy.Excitations Ccpy.ExternalCorrection

/-- Exceptions that can leave the function. -/
inductive Err where
  /-- `assert` in `get_spincase` -/
  | assertionError
  /-- an orbital beyond `orbital_symmetries`, or an irrep beyond the counters -/
  | indexError
  deriving DecidableEq

/-- What one pass through the loop body does. -/
inductive Line where
  | skip
  | stop
  | raise (e : Err)
  | store (c : Case) (row : List ℕ) (sym : ℕ)
  deriving DecidableEq

/-- The spin-case string as a key of the dictionaries. -/
def caseOf (sc : List Char) : Option Case :=
  if sc = ['a', 'a', 'a'] then some .aaa
  else if sc = ['a', 'a', 'b'] then some .aab
  else if sc = ['a', 'b', 'b'] then some .abb
  else if sc = ['b', 'b', 'b'] then some .bbb
  else none

/-- `system.orbital_symmetries[p]`, an IndexError beyond the list of correlated orbitals. -/
def orbIrrep (s : Sys) (p : ℕ) : Option ℕ := if p < s.norb then some (s.irrep p) else none

/-- The offset added to the first, second and third particle index, lines 131-188. -/
def offsets (s : Sys) : Case → ℕ × ℕ × ℕ
  | .aaa => (s.noa, s.noa, s.noa)
  | .aab => (s.noa, s.noa, s.nob)
  | .abb => (s.noa, s.nob, s.nob)
  | .bbb => (s.nob, s.nob, s.nob)

/-- The irrep of the triple, lines 124-188 (indices counted from 1; `none` is an IndexError). -/
def tripleSym (s : Sys) (c : Case) (a b d i j k : ℕ) : Option ℕ := do
  let x1 ← orbIrrep s (i - 1)
  let x2 ← orbIrrep s (j - 1)
  let x3 ← orbIrrep s (k - 1)
  let y1 ← orbIrrep s (a - 1 + (offsets s c).1)
  let y2 ← orbIrrep s (b - 1 + (offsets s c).2.1)
  let y3 ← orbIrrep s (d - 1 + (offsets s c).2.2)
  pure (s.ref ^^^ x1 ^^^ x2 ^^^ x3 ^^^ y1 ^^^ y2 ^^^ y3)

/-- Lines 120-195 for indices that passed the range checks (all are at least 1). -/
def record (s : Sys) (h : ℕ) (c : Case) (un oc : List ℕ) : Line :=
  match un, oc with
  | [a, b, d], [i, j, k] =>
    match tripleSym s c a b d i j k with
    | none => .raise .indexError
    | some x => if x < h then .store c [a, b, d, i, j, k] x else .raise .indexError
  | _, _ => .raise .indexError

/-- The loop body, lines 85-195.  Three excitations always give one of the four spin cases, so the
KeyError of an unknown spin case cannot occur (modelled as `indexError`). -/
def cipsiLine (s : Sys) (h : ℕ) (det : List ℕ) : Line :=
  let HF := hfDet s.noa s.nob
  if getExcitRank det HF ≠ 3 then .skip
  else
    let occ := getExcitsFrom det HF
    let unocc := getExcitsTo det HF
    match getSpincase (fsort occ) (fsort unocc) with
    | none => .raise .assertionError
    | some sc =>
      let idxOcc : List ℤ := (alphaSorted occ ++ betaSorted occ).map (fun x => (spatialOrbIdx x : ℤ))
      let idxUnocc : List ℤ :=
        List.zipWith (fun x s => x - s)
          ((alphaSorted unocc ++ betaSorted unocc).map (fun x => (spatialOrbIdx x : ℤ)))
          (sc.map (orbTable s.noa s.nob))
      if idxOcc.any (fun i => i > s.noa) || idxOcc.any (fun i => i < 1) then .stop
      else if idxUnocc.any (fun i => i > s.nub) || idxUnocc.any (fun i => i < 1) then .stop
      else match caseOf sc with
        | none => .raise .indexError
        | some c => record s h c (idxUnocc.map Int.toNat) (idxOcc.map Int.toNat)

/-- The loop over the lines, lines 83-195, as the sequence of stored `(spin case, row, irrep)`;
`break` ends it silently. -/
def cipsiLoop (s : Sys) (h : ℕ) : List (List ℕ) → Except Err (List (Case × List ℕ × ℕ))
  | [] => .ok []
  | det :: rest =>
    match cipsiLine s h det with
    | .skip => cipsiLoop s h rest
    | .stop => .ok []
    | .raise e => .error e
    | .store c r x =>
      match cipsiLoop s h rest with
      | .ok l => .ok ((c, r, x) :: l)
      | .error e => .error e

/-- The returned dictionary of rows and the counters per irrep and spin case. -/
structure Result where
  rows : Case → List (List ℕ)
  counts : ℕ → Case → ℕ

/-- The two accumulators, lines 79-80, 122, 136…, and the final conversion, lines 207-211: a spin
case without rows is replaced by one row of ones. -/
def gather (l : List (Case × List ℕ × ℕ)) : Result where
  rows := fun c =>
    match (l.filter (fun e => e.1 = c)).map (fun e => e.2.1) with
    | [] => [[1, 1, 1, 1, 1, 1]]
    | r => r
  counts := fun x c => l.countP (fun e => e.1 = c ∧ e.2.2 = x)

/-- `get_triples_pspace_from_cipsi(pspace_file, system)`, `/repo/ccpy/utilities/pspace.py:64-213`,
for a point group with `h` irreps. -/
def readCipsi (s : Sys) (h : ℕ) (file : List (List ℕ)) : Except Err Result :=
  match cipsiLoop s h file with
  | .ok l => .ok (gather l)
  | .error e => .error e

end Ccpy.CipsiReader
