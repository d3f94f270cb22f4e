import Verif.Model.Amplitudes
import Mathlib.Algebra.Ring.Defs

/-! `/repo/ccpy/energy/cc_energy.py`: overlaps of left and right vectors. -/

namespace Ccpy.Amplitudes
open Finset

variable {K : Type*} [Field K]

/-- A three-body component: a full array with `n` particle and hole axes, or the vector that goes with a
list of excitations. -/
inductive Component (F K : Type*)
  | full (t : F)
  | packed (v : List K)

/-- Six axes. -/
abbrev Array6 (K : Type*) := ℕ → ℕ → ℕ → ℕ → ℕ → ℕ → K
/-- Five axes. -/
abbrev Array5 (K : Type*) := ℕ → ℕ → ℕ → ℕ → ℕ → K

/-- `np.dot(l.T, r)` for two vectors; vectors of different lengths raise ValueError (`none`).  Calls with
arrays of more axes do not return a number and are `none` as well. -/
def dotPacked {F : Type*} : Component F K → Component F K → Option K
  | .packed l, .packed r => if l.length = r.length then some (List.zipWith (· * ·) l r).sum else none
  | _, _ => none

/-- `np.einsum` of two full arrays; a vector in place of an array raises ValueError. -/
def einsumFull {F : Type*} (contract : F → F → K) : Component F K → Component F K → Option K
  | .full r, .full l => some (contract r l)
  | _, _ => none

/-- A left or right vector of an excitation-energy calculation: `order`, one- and two-body arrays, and
three-body components. -/
structure Vector (K : Type*) where
  order : ℕ
  a : ℕ → ℕ → K
  b : ℕ → ℕ → K
  aa : ℕ → ℕ → ℕ → ℕ → K
  ab : ℕ → ℕ → ℕ → ℕ → K
  bb : ℕ → ℕ → ℕ → ℕ → K
  aaa : Component (Array6 K) K
  aab : Component (Array6 K) K
  abb : Component (Array6 K) K
  bbb : Component (Array6 K) K

/-- Lines 120–124 of `get_LR`. -/
def lrDoubles (d : Dims) (R L : Vector K) : K :=
  (∑ e ∈ d.va, ∑ m ∈ d.oa, R.a e m * L.a e m) + (∑ e ∈ d.vb, ∑ m ∈ d.ob, R.b e m * L.b e m) +
    1 / 4 * (∑ e ∈ d.va, ∑ f ∈ d.va, ∑ m ∈ d.oa, ∑ n ∈ d.oa, R.aa e f m n * L.aa e f m n) +
    (∑ e ∈ d.va, ∑ f ∈ d.vb, ∑ m ∈ d.oa, ∑ n ∈ d.ob, R.ab e f m n * L.ab e f m n) +
    1 / 4 * (∑ e ∈ d.vb, ∑ f ∈ d.vb, ∑ m ∈ d.ob, ∑ n ∈ d.ob, R.bb e f m n * L.bb e f m n)

/-- `np.einsum("efgmno,efgmno->", …)` over axes of the given lengths. -/
def contract6 (v1 v2 v3 o1 o2 o3 : ℕ) (r l : Array6 K) : K :=
  ∑ e ∈ range v1, ∑ f ∈ range v2, ∑ g ∈ range v3, ∑ m ∈ range o1, ∑ n ∈ range o2, ∑ o ∈ range o3,
    r e f g m n o * l e f g m n o

/-- `get_LR`, lines 114–149.  `lists` says whether at least one of `l3_excitations` and
`r3_excitations` is given.  `none`: the call raises an exception. -/
def getLR (d : Dims) (lists : Bool) (R L : Vector K) : Option K :=
  let lr := lrDoubles d R L
  if L.order = 3 ∧ R.order = 3 then
    if !lists then do
      let x1 ← einsumFull (contract6 d.nua d.nua d.nua d.noa d.noa d.noa) R.aaa L.aaa
      let x2 ← einsumFull (contract6 d.nua d.nua d.nub d.noa d.noa d.nob) R.aab L.aab
      let x3 ← einsumFull (contract6 d.nua d.nub d.nub d.noa d.nob d.nob) R.abb L.abb
      let x4 ← einsumFull (contract6 d.nub d.nub d.nub d.nob d.nob d.nob) R.bbb L.bbb
      return lr + 1 / 36 * x1 + 1 / 4 * x2 + 1 / 4 * x3 + 1 / 36 * x4
    else do
      let y1 ← dotPacked L.aaa R.aaa
      let y2 ← dotPacked L.aab R.aab
      let y3 ← dotPacked L.abb R.abb
      let y4 ← dotPacked L.bbb R.bbb
      return lr + (y1 + y2 + y3 + y4)
  else some lr

/-- A vector of an ionisation (holes `i`, then `ifn`, then `ifgno`) or electron-attachment calculation
(particles `e`, then `efn`, then `efgno`). -/
structure OpenVector (K : Type*) where
  order : ℕ
  a : ℕ → K
  aa : ℕ → ℕ → ℕ → K
  ab : ℕ → ℕ → ℕ → K
  aaa : Component (Array5 K) K
  aab : Component (Array5 K) K
  abb : Component (Array5 K) K

/-- `np.einsum("efgno,efgno->", …)`. -/
def contract5 (n1 n2 n3 n4 n5 : ℕ) (r l : Array5 K) : K :=
  ∑ e ∈ range n1, ∑ f ∈ range n2, ∑ g ∈ range n3, ∑ n ∈ range n4, ∑ o ∈ range n5,
    r e f g n o * l e f g n o

/-- The three-body part shared by `get_LR_ipeom` (156–168) and `get_LR_eaeom` (174–186). -/
def openTriples (c1 c2 c3 : Array5 K → Array5 K → K) (lists : Bool) (R L : OpenVector K) (lr : K) :
    Option K :=
  if L.order = 3 ∧ R.order = 3 then
    if !lists then do
      let x1 ← einsumFull c1 R.aaa L.aaa
      let x2 ← einsumFull c2 R.aab L.aab
      let x3 ← einsumFull c3 R.abb L.abb
      return lr + 1 / 12 * x1 + 1 / 2 * x2 + 1 / 4 * x3
    else do
      let y1 ← dotPacked L.aaa R.aaa
      let y2 ← dotPacked L.aab R.aab
      let y3 ← dotPacked L.abb R.abb
      return lr + (y1 + y2 + y3)
  else some lr

/-- `get_LR_ipeom`, lines 151–168. -/
def getLRip (d : Dims) (lists : Bool) (R L : OpenVector K) : Option K :=
  openTriples (contract5 d.noa d.nua d.nua d.noa d.noa) (contract5 d.noa d.nua d.nub d.noa d.nob)
    (contract5 d.noa d.nub d.nub d.nob d.nob) lists R L
    ((∑ m ∈ d.oa, R.a m * L.a m) +
      1 / 2 * (∑ m ∈ d.oa, ∑ f ∈ d.va, ∑ n ∈ d.oa, R.aa m f n * L.aa m f n) +
      (∑ m ∈ d.oa, ∑ f ∈ d.vb, ∑ n ∈ d.ob, R.ab m f n * L.ab m f n))

/-- `get_LR_eaeom`, lines 170–186. -/
def getLRea (d : Dims) (lists : Bool) (R L : OpenVector K) : Option K :=
  openTriples (contract5 d.nua d.nua d.nua d.noa d.noa) (contract5 d.nua d.nua d.nub d.noa d.nob)
    (contract5 d.nua d.nub d.nub d.nob d.nob) lists R L
    ((∑ e ∈ d.va, R.a e * L.a e) +
      1 / 2 * (∑ e ∈ d.va, ∑ f ∈ d.va, ∑ n ∈ d.oa, R.aa e f n * L.aa e f n) +
      (∑ e ∈ d.va, ∑ f ∈ d.vb, ∑ n ∈ d.ob, R.ab e f n * L.ab e f n))

end Ccpy.Amplitudes
