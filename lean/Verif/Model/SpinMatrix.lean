import Mathlib.Data.Rat.Defs
import Mathlib.Algebra.Field.Rat
import Mathlib.Data.List.Basic

/-! Model of the `S²` matrices used by the single-excitation guess routines: `ccpy/eom_guess/s2matrix.py`,
`ccpy/eom_guess/cis.py`, `ccpy/eom_guess/dipcis.py` and `ccpy/eom_guess/deacis.py`.  A matrix is the list of its
rows.  Floats are modelled by rational numbers. -/

namespace Ccpy.SpinMatrix

/-- The orbital counts of `system` read by these routines. -/
structure Counts where
  noa : ℕ
  nob : ℕ
  nua : ℕ
  nub : ℕ

/-- `get_sz2`, s2matrix.py:64-68 (also cis.py:223-227, deacis.py:110-114). -/
def getSz2 (s : Counts) (Ms : ℚ) : ℚ :=
  let Ns := (s.noa + Ms) - (s.nob - Ms)
  let sz := Ns / 2
  (sz + 1) * sz

/-- `get_sz2_ip`, s2matrix.py:70-74. -/
def getSz2Ip (s : Counts) : ℚ :=
  let Ns : ℚ := (s.noa - 1) - s.nob
  let sz := Ns / 2
  (sz + 1) * sz

/-- `get_sz2_ea`, s2matrix.py:76-80. -/
def getSz2Ea (s : Counts) : ℚ :=
  let Ns : ℚ := (s.noa + 1) - s.nob
  let sz := Ns / 2
  (sz - 1) * sz

/-- `chi_beta`, s2matrix.py:84-88. -/
def chiBeta (s : Counts) (p : ℕ) : ℚ := if p < s.nob then 1 else 0

/-- `pi_alpha`, s2matrix.py:90-94. -/
def piAlpha (s : Counts) (p : ℕ) : ℚ := if s.noa ≤ p ∧ p < s.nua + s.noa then 1 else 0

/-- Truth values used as numbers, `(i == j)`. -/
def eqn (i j : ℕ) : ℚ := if i = j then 1 else 0

/-- Two nested loops `for a in …: for i in …` as the list of pairs they visit; a matrix filled entry by entry with
running counters `ct1`, `ct2` over such loops has its rows and columns in this order. -/
def pairs (xs ys : List ℕ) : List (ℕ × ℕ) := xs.flatMap fun a => ys.map fun i => (a, i)

/-- `range(lo, lo + n)` -/
abbrev span (lo n : ℕ) : List ℕ := List.range' lo n

/-- Loops over alpha excitations `a`, `i` (lines 103-104) and over beta excitations (lines 116-117). -/
def pairsA (s : Counts) := pairs (span s.noa s.nua) (List.range s.noa)
def pairsB (s : Counts) := pairs (span s.nob s.nub) (List.range s.nob)

/-- `np.concatenate((M, N), axis=1)` -/
def beside (M N : List (List ℚ)) : List (List ℚ) := List.zipWith (· ++ ·) M N

/-- `build_s2matrix_cis`, s2matrix.py:82-145. -/
def buildCis (s : Counts) : List (List ℚ) :=
  let sz2 := getSz2 s 0
  let Saa := (pairsA s).map fun (a, i) => (pairsA s).map fun (b, j) =>
    (sz2 + 1 * chiBeta s i) * eqn i j * eqn a b
  let Sab := (pairsA s).map fun (a, i) => (pairsB s).map fun (b, j) =>
    -1 * eqn i j * eqn a b * chiBeta s i * piAlpha s a
  let Sba := (pairsB s).map fun (a, i) => (pairsA s).map fun (b, j) =>
    -1 * eqn i j * eqn a b * chiBeta s i * piAlpha s a
  let Sbb := (pairsB s).map fun (a, i) => (pairsB s).map fun (b, j) =>
    (sz2 + 1 * piAlpha s a) * eqn i j * eqn a b
  beside Saa Sab ++ beside Sba Sbb

/-- `build_s2matrix_sfcis`, s2matrix.py:381-396. -/
def buildSfcis (s : Counts) (Ms : ℚ) : List (List ℚ) :=
  let sz2 := getSz2 s Ms
  let rows := pairs (span s.nob s.nub) (List.range s.noa)
  rows.map fun (a, i) => rows.map fun (b, j) => sz2 * eqn a b * eqn i j + eqn a i * eqn b j

/-- `build_s2matrix_1h`, s2matrix.py:398-416. -/
def build1h (s : Counts) : List (List ℚ) :=
  let sz2 := getSz2Ip s
  (List.range s.noa).map fun i => (List.range s.noa).map fun j => sz2 * eqn i j + chiBeta s i * eqn i j

/-- `build_s2matrix_1p`, s2matrix.py:418-436. -/
def build1p (s : Counts) : List (List ℚ) :=
  let sz2 := getSz2Ea s
  (span s.noa s.nua).map fun a => (span s.noa s.nua).map fun b => sz2 * eqn a b + piAlpha s a * eqn a b

/-! The version of `cis.py`, which skips excitations outside a symmetry. -/

/-- `get_index_arrays`, cis.py:286-319: `idx_a[a, i]` is the running number (from 1) of the excitation, or 0 when
its symmetry is not the target one.  `sym1 a i` is the symmetry test on absolute orbital numbers (constantly true
without a target).  The count `ndim` is printed only. -/
def idxA (s : Counts) (sym1 : ℕ → ℕ → Bool) (a i : ℕ) : ℕ :=
  if sym1 (a + s.noa) i then a * s.noa + i + 1 else 0
def idxB (s : Counts) (sym1 : ℕ → ℕ → Bool) (a i : ℕ) : ℕ :=
  if sym1 (a + s.nob) i then a * s.nob + i + 1 else 0

/-- The numeric value of a matrix that starts at zero and is incremented at the listed places. -/
def accumulate (updates : List (ℕ × ℕ × ℚ)) (I J : ℕ) : ℚ :=
  (updates.map fun u => if u.1 = I ∧ u.2.1 = J then u.2.2 else 0).sum

/-- The increments of `a_S_a` and `a_S_b`, cis.py:257-269.  `idx_b[a + nsocc, i]` is in range because
`noa + nua = nob + nub` and `i < nob` there. -/
def updatesAA (s : Counts) (sym1 : ℕ → ℕ → Bool) : List (ℕ × ℕ × ℚ) :=
  (pairs (List.range s.nua) (List.range s.noa)).flatMap fun (a, i) =>
    let idet := idxA s sym1 a i
    if idet = 0 then [] else [(idet - 1, idet - 1, getSz2 s 0 + 1 * chiBeta s i)]
def updatesAB (s : Counts) (sym1 : ℕ → ℕ → Bool) : List (ℕ × ℕ × ℚ) :=
  (pairs (List.range s.nua) (List.range s.noa)).flatMap fun (a, i) =>
    let idet := idxA s sym1 a i
    if idet = 0 then [] else
      if chiBeta s i ≠ 0 then
        let jdet := idxB s sym1 (a + (s.noa - s.nob)) i
        if jdet ≠ 0 then [(idet - 1, jdet - 1, -1)] else []
      else []

/-- The increments of `b_S_b`, cis.py:272-278. -/
def updatesBB (s : Counts) (sym1 : ℕ → ℕ → Bool) : List (ℕ × ℕ × ℚ) :=
  (pairs (List.range s.nub) (List.range s.nob)).flatMap fun (a, i) =>
    let idet := idxB s sym1 a i
    if idet = 0 then [] else [(idet - 1, idet - 1, getSz2 s 0 + 1 * piAlpha s (a + s.nob))]

/-- `build_s2matrix`, cis.py:229-284. -/
def buildCisSym (s : Counts) (sym1 : ℕ → ℕ → Bool) : List (List ℚ) :=
  let n1a := s.nua * s.noa
  let n1b := s.nub * s.nob
  let aSa := accumulate (updatesAA s sym1)
  let aSb := accumulate (updatesAB s sym1)
  let bSb := accumulate (updatesBB s sym1)
  let mat (m n : ℕ) (f : ℕ → ℕ → ℚ) := (List.range m).map fun I => (List.range n).map fun J => f I J
  beside (mat n1a n1a aSa) (mat n1a n1b aSb) ++ beside (mat n1b n1a fun I J => aSb J I) (mat n1b n1b bSb)

/-! Two-electron attachment and removal. -/

/-- `build_s2matrix_2p`, deacis.py:116-149, over the loops `a`, `b` with `nactu_a`, `nactu_b` active unoccupied
orbitals (`min(nactu, nua)`, `min(nactu + multiplicity - 1, nub)`), when every pair has the target symmetry. -/
def build2p (s : Counts) (nactuA nactuB : ℕ) : List (List ℚ) :=
  let sz2 := getSz2 s 0
  let rows := pairs (span s.noa nactuA) (span s.nob nactuB)
  rows.map fun (a, b) => rows.map fun (c, d) =>
    (sz2 + 1 * piAlpha s a) * eqn a c * eqn b d - eqn b c * eqn a d

/-- `build_s2matrix_2h`, dipcis.py:110-139, likewise with `nacto_a`, `nacto_b` active occupied orbitals. -/
def build2h (s : Counts) (nactoA nactoB : ℕ) : List (List ℚ) :=
  let rows := pairs (span (s.noa - nactoA) nactoA) (span (s.nob - nactoB) nactoB)
  rows.map fun (i, j) => rows.map fun (k, l) => eqn i k * eqn j l - eqn i l * eqn j k

end Ccpy.SpinMatrix
