import Verif.Model.Determinants
import Mathlib.Data.Rat.Defs

/-! Model of the determinant parser in `/repo/ccpy/extcorr/external_correction.py`. -/

namespace Ccpy.ExternalCorrection
open Ccpy.Determinants Ccpy.Permutations

/-- `HF = sorted([2*i-1 ...] + [2*i ...])`, `/repo/ccpy/extcorr/external_correction.py:120-123`. -/
def hfDet (noa nob : ℕ) : List ℕ :=
  ((List.range noa).map (fun i => 2 * (i + 1) - 1) ++
   (List.range nob).map (fun i => 2 * (i + 1))).insertionSort (· ≤ ·)

/-- `[i for i in s if i % 2 == 1]` followed by `.sort()`,
`/repo/ccpy/extcorr/external_correction.py:168-169, 172-173`. -/
def alphaSorted (s : Finset ℕ) : List ℕ := fsort (s.filter (fun i => i % 2 = 1))

/-- `[i for i in s if i % 2 == 0]` followed by `.sort()`,
`/repo/ccpy/extcorr/external_correction.py:170-171, 174-175`. -/
def betaSorted (s : Finset ℕ) : List ℕ := fsort (s.filter (fun i => i % 2 = 0))

/-- Outcome of processing one line of the CI file. -/
inductive Line where
  /-- the reference determinant, or rank above four: `continue` -/
  | skip
  /-- `get_spincase` raised `AssertionError` -/
  | spinError
  /-- an index left its range: message printed and the loop is left by `break` -/
  | outOfRange
  /-- the coefficient is stored under `spincase` at `excitation` (1-based) -/
  | store (spincase : List Char) (excitation : List ℤ) (coefficient : ℚ)
  deriving DecidableEq, Repr

/-- `orb_table[x]`, `/repo/ccpy/extcorr/external_correction.py:130`. -/
def orbTable (noa nob : ℕ) (c : Char) : ℤ := if c = 'a' then noa else nob

/-- The phase used by the code: parity of
`argsort(unocc_alpha + unocc_beta + reversed(occ_alpha) + reversed(occ_beta))`,
`/repo/ccpy/extcorr/external_correction.py:180-183`. -/
def permParity (uA uB oA oB : List ℕ) : ℤ :=
  calculatePermutationParity (argsort (uA ++ uB ++ oA.reverse ++ oB.reverse))

/-- Body of the loop over lines, `/repo/ccpy/extcorr/external_correction.py:147-213`.
Coefficients are rationals instead of floats. -/
def parseLine (noa nob nub : ℕ) (chf : ℚ) (det : List ℕ) (coeff : ℚ) : Line :=
  let HF := hfDet noa nob
  if det = HF then .skip
  else if getExcitRank det HF > 4 then .skip
  else
    let occ := getExcitsFrom det HF
    let unocc := getExcitsTo det HF
    match getSpincase (fsort occ) (fsort unocc) with
    | none => .spinError
    | some spincase =>
      let oA := alphaSorted occ
      let oB := betaSorted occ
      let uA := alphaSorted unocc
      let uB := betaSorted unocc
      let shift := spincase.map (orbTable noa nob)
      let idxOcc : List ℤ := (oA ++ oB).map (fun x => (spatialOrbIdx x : ℤ))
      let idxUnocc : List ℤ :=
        List.zipWith (fun x s => x - s) ((uA ++ uB).map (fun x => (spatialOrbIdx x : ℤ))) shift
      if idxOcc.any (fun i => i > noa) || idxOcc.any (fun i => i < 1) then .outOfRange
      else if idxUnocc.any (fun i => i > nub) || idxUnocc.any (fun i => i < 1) then .outOfRange
      else .store spincase (idxUnocc ++ idxOcc) (coeff / chf * permParity uA uB oA oB)

/-- The sign fix applied to whole tensors at the end: `C.b`, `C.aab` and `C.bbb` change sign,
`/repo/ccpy/extcorr/external_correction.py:222-224`; everything else (including the quadruples
lists) is left alone. -/
def signFix (spincase : List Char) (c : ℚ) : ℚ :=
  if spincase = ['b'] ∨ spincase = ['a', 'a', 'b'] ∨ spincase = ['b', 'b', 'b'] then -c else c

/-- The loop over all lines, `/repo/ccpy/extcorr/external_correction.py:145-213`:
`none` is the propagated `AssertionError`; an out-of-range determinant ends the loop silently.
The stored triples `(spincase, excitation, coefficient)` are listed in order of storing. -/
def parseLoop (noa nob nub : ℕ) (chf : ℚ) :
    List (List ℕ × ℚ) → Option (List (List Char × List ℤ × ℚ))
  | [] => some []
  | (det, coeff) :: rest =>
    match parseLine noa nob nub chf det coeff with
    | .skip => parseLoop noa nob nub chf rest
    | .spinError => none
    | .outOfRange => some []
    | .store sc e c => (parseLoop noa nob nub chf rest).map ((sc, e, c) :: ·)

end Ccpy.ExternalCorrection
