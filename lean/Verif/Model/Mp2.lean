import Verif.Model.Amplitudes

/-! `/repo/ccpy/lib/fortran/mbpt_loops.f90`, subroutine `mp2`, lines 7–59. -/

namespace Ccpy.Mp2

variable {K : Type*} [Field K]

/-- Fortran `do i = lo, hi` around a body that updates an accumulator. -/
def doLoop (lo hi : ℕ) (body : ℕ → K → K) (acc : K) : K :=
  (List.range' lo (hi + 1 - lo)).foldl (fun x i => body i x) acc

/-- Array arguments of `mp2`; Fortran arrays, indices start at 1. -/
structure Ints (K : Type*) where
  fA_oo : ℕ → ℕ → K
  fA_vv : ℕ → ℕ → K
  fB_oo : ℕ → ℕ → K
  fB_vv : ℕ → ℕ → K
  vA_oovv : ℕ → ℕ → ℕ → ℕ → K
  vA_vvoo : ℕ → ℕ → ℕ → ℕ → K
  vB_oovv : ℕ → ℕ → ℕ → ℕ → K
  vB_vvoo : ℕ → ℕ → ℕ → ℕ → K
  vC_oovv : ℕ → ℕ → ℕ → ℕ → K
  vC_vvoo : ℕ → ℕ → ℕ → ℕ → K

/-- The first and third loop nests, lines 26–37 and 49–60 (pairs `i < j`, `a < b` of equal spin). -/
def likeSpin (foo fvv : ℕ → ℕ → K) (oovv vvoo : ℕ → ℕ → ℕ → ℕ → K) (no nu : ℕ) (e : K) : K :=
  doLoop 1 no (fun i e => doLoop (i + 1) no (fun j e => doLoop 1 nu (fun a e => doLoop (a + 1) nu (fun b e =>
    let denom := foo i i + foo j j - fvv a a - fvv b b
    let t_amp := vvoo a b i j / denom
    e + oovv i j a b * t_amp) e) e) e) e

/-- The second loop nest, lines 38–48. -/
def mixedSpin (v : Ints K) (noa nob nua nub : ℕ) (e : K) : K :=
  doLoop 1 noa (fun i e => doLoop 1 nob (fun j e => doLoop 1 nua (fun a e => doLoop 1 nub (fun b e =>
    let denom := v.fA_oo i i + v.fB_oo j j - v.fA_vv a a - v.fB_vv b b
    let t_amp := v.vB_vvoo a b i j / denom
    e + v.vB_oovv i j a b * t_amp) e) e) e) e

/-- `mp2`. -/
def mp2 (v : Ints K) (noa nob nua nub : ℕ) : K :=
  likeSpin v.fB_oo v.fB_vv v.vC_oovv v.vC_vvoo nob nub
    (mixedSpin v noa nob nua nub (likeSpin v.fA_oo v.fA_vv v.vA_oovv v.vA_vvoo noa nua 0))

end Ccpy.Mp2
