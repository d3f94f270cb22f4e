import Verif.Model.Determinants
import Mathlib.Data.Rat.Defs

/-! Model of the Quantum Package converter, `/repo/ccpy/interfaces/qp2_tools.py`.
Lines are lists of characters.  Coefficients are rationals instead of floats, and the reading of a
float is a parameter.  The formatting of the output file is dropped: an output line is the triple of
its number, coefficient and spin-orbitals. -/

namespace Ccpy.Qp2
open Ccpy.Determinants Ccpy.Permutations

inductive Err where
  | indexError
  | valueError
  deriving DecidableEq

/-- Value of a hexadecimal digit. -/
def hexDigit (c : Char) : Option ℕ :=
  if '0' ≤ c ∧ c ≤ '9' then some (c.toNat - '0'.toNat)
  else if 'a' ≤ c ∧ c ≤ 'f' then some (c.toNat - 'a'.toNat + 10)
  else if 'A' ≤ c ∧ c ≤ 'F' then some (c.toNat - 'A'.toNat + 10)
  else none

/-- White space, as removed by `split()` and by `int`. -/
def isSpace (c : Char) : Bool := c = ' ' || c = '\n' || c = '\t' || c = '\r'

/-- Removal of white space at both ends. -/
def strip (cs : List Char) : List Char :=
  ((cs.dropWhile isSpace).reverse.dropWhile isSpace).reverse

/-- `int(hex_string, 16)`, `/repo/ccpy/interfaces/qp2_tools.py:5`.  `none` is the ValueError; signs,
the prefix `0x` and underscores are not modelled. -/
def parseHex (cs : List Char) : Option ℕ :=
  let ds := strip cs
  if ds = [] then none
  else ds.foldlM (fun acc c => (hexDigit c).map (fun d => 16 * acc + d)) 0

/-- Binary digits of `n`, lowest first, at least one digit. -/
def lowBits : ℕ → ℕ → List Char
  | 0, _ => []
  | f + 1, n => if n < 2 then [if n = 1 then '1' else '0']
      else (if n % 2 = 1 then '1' else '0') :: lowBits f (n / 2)

/-- `hex2bin` after the conversion to an integer: `bin(n)[2:]`, highest digit first,
`/repo/ccpy/interfaces/qp2_tools.py:4-6`. -/
def binString (n : ℕ) : List Char := (lowBits (n + 1) n).reverse

/-- `[2 * i + shift for i in range(len(bits)) if bits[i] == "1"]`,
`/repo/ccpy/interfaces/qp2_tools.py:28-29`. -/
def occupied (bits : List Char) (shift : ℕ) : List ℕ :=
  ((List.range bits.length).filter (fun i => bits[i]? = some '1')).map (fun i => 2 * i + shift)

/-- `det_occ` in aaa…bbb… order for the two bit patterns (lines 24-30). -/
def spinBlocked (alpha beta : ℕ) : List ℕ :=
  occupied (binString alpha).reverse 1 ++ occupied (binString beta).reverse 2

/-- `[det_occ[i + 2*nfrozen] - 2*nfrozen for i in range(nelectrons)]`, line 36; `none` is the
IndexError.  The entries are increasing positive numbers, so the subtraction is never negative. -/
def correlated (nf nel : ℕ) (det : List ℕ) : Option (List ℕ) :=
  (List.range nel).mapM (fun i => (det[i + 2 * nf]?).map (fun x => x - 2 * nf))

/-- Lines 28-36 for one determinant. -/
def convert (nf nel alpha beta : ℕ) (coef : ℚ) : Option (ℚ × List ℕ) :=
  let det := spinBlocked alpha beta
  let permutation := argsort det
  let sorted := permutation.map (fun i => det.getD i 0)
  let sign := calculatePermutationParity permutation
  (correlated nf nel sorted).map (fun d => (coef * sign, d))

/-- `line.split()`. -/
def words (l : List Char) : List (List Char) := (l.splitOnP isSpace).filter (· ≠ [])

/-- `"Determinant" in line.split()`, line 20. -/
def flagged (l : List Char) : Bool := (words l).contains "Determinant".toList

/-- One record: the line with the bit patterns and the line with the coefficient, lines 24-36. -/
def record (pf : List Char → Option ℚ) (nf nel : ℕ) (bits coef : List Char) :
    Except Err (ℚ × List ℕ) :=
  match bits.splitOn '|' with
  | a :: b :: _ =>
    match parseHex a, parseHex b with
    | some na, some nb =>
      match words coef with
      | [] => .error .indexError
      | w :: _ =>
        match pf w with
        | none => .error .valueError
        | some c =>
          match convert nf nel na nb c with
          | none => .error .indexError
          | some r => .ok r
    | _, _ => .error .valueError
  | [a] => if (parseHex a).isNone then .error .valueError else .error .indexError
  | [] => .error .indexError

/-- The loop over the lines, lines 15-45: positions with at least four lines after them; `n` is
`ndet` so far. -/
def scan (pf : List Char → Option ℚ) (nf nel : ℕ) :
    ℕ → List (List Char) → Except Err (List (ℕ × ℚ × List ℕ))
  | _, [] => .ok []
  | n, l0 :: rest =>
    match rest[0]?, rest[3]? with
    | some l1, some l4 =>
      if flagged l0 then
        match record pf nf nel l1 l4 with
        | .error e => .error e
        | .ok r =>
          match scan pf nf nel (n + 1) rest with
          | .error e => .error e
          | .ok out => .ok ((n + 1, r) :: out)
      else scan pf nf nel n rest
    | _, _ => .ok []

/-- `process_cipsi_vectors(inFile, system)`, `/repo/ccpy/interfaces/qp2_tools.py:8-46`. -/
def processVectors (pf : List Char → Option ℚ) (nf nel : ℕ) (lines : List (List Char)) :
    Except Err (List (ℕ × ℚ × List ℕ)) :=
  scan pf nf nel 0 lines

end Ccpy.Qp2
