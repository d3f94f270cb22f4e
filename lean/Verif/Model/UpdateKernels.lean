import Verif.Model.Writes
import Verif.Model.FortranLoop
import Mathlib.Algebra.Field.Defs
import Mathlib.Data.Fintype.Basic
import Mathlib.Algebra.BigOperators.Group.List.Defs

/-! Model of the amplitude update kernels of `/repo/ccpy/lib/fortran/cc_loops2.f90`.
Arrays are functions of 1-based indices; a key lists the particle indices, then the hole indices.
Reals are elements of a field, so that a division by zero (a Fortran infinity or NaN) gives zero here;
the theorems assume non-vanishing denominators.  Signs in front of array elements are the integers
`1` and `-1`, and a long signed sum is a list of its terms. -/

namespace Ccpy.UpdateKernels
open Ccpy.Writes Ccpy.Fortran

variable {K R : Type*} [DecidableEq K] [Field R]

/-- Index of a single excitation tensor. -/
abbrev Key1 := (Fin 1 → ℕ) × (Fin 1 → ℕ)

/-- A signed sum of elements `± X(k)`, as in `/repo/ccpy/lib/fortran/cc_loops2.f90:69`. -/
def signedSum (X : K → R) (terms : List (K × ℤ)) : R :=
  (terms.map fun c => (c.2 : R) * X c.1).sum

/-- The assignments `t(k) = ± t(rep)` executed in order; each reads the current `t(rep)`, as in
`/repo/ccpy/lib/fortran/cc_loops2.f90:73-75`. -/
def copyFrom (rep : K) (cs : List (K × ℤ)) (t : K → R) : K → R :=
  cs.foldl (fun t c => Function.update t c.1 ((c.2 : R) * t rep)) t

/-- The assignments `resid(k) = ± val` executed in order, as in `/repo/ccpy/lib/fortran/cc_loops2.f90:77-80`. -/
def setSigned (val : R) (cs : List (K × ℤ)) (r : K → R) : K → R :=
  applyWrites r (cs.map fun c => (c.1, (c.2 : R) * val))

/-- The tail of the innermost loop body, common to all kernels: add `val` to the representative
element, copy it to the other elements and record the increment, as in `/repo/ccpy/lib/fortran/cc_loops2.f90:72-80`. -/
def storeUpdate (rep : K) (val : R) (copies resids : List (K × ℤ))
    (s : (K → R) × (K → R)) : (K → R) × (K → R) :=
  (copyFrom rep copies (Function.update s.1 rep (s.1 rep + val)), setSigned val resids s.2)

/-- The terms of `val`, the representative being `(a, i)`; `/repo/ccpy/lib/fortran/cc_loops2.f90:10-32`. -/
def termsT1a (a i : ℕ) : List (Key1 × ℤ) :=
  [((![a], ![i]), 1)]

/-- The assignments to `resid`; `/repo/ccpy/lib/fortran/cc_loops2.f90:10-32`. -/
def residsT1a (a i : ℕ) : List (Key1 × ℤ) :=
  [((![a], ![i]), 1)]

/-- `update_t1a`, `/repo/ccpy/lib/fortran/cc_loops2.f90:10-32`: the new amplitudes and the increments. -/
def updateT1a (noa nua : ℕ) (fA_oo fA_vv : ℕ → ℕ → R) (shift : R) (X t : Key1 → R) :
    (Key1 → R) × (Key1 → R) :=
  doLoop 1 noa (fun i =>
    doLoop 1 nua (fun a =>
      let denom := fA_oo i i - fA_vv a a
      let val := signedSum X (termsT1a a i) / (denom - shift)
      storeUpdate (![a], ![i]) val [] (residsT1a a i))) (t, fun _ => 0)

/-- The terms of `val`, the representative being `(a, i)`; `/repo/ccpy/lib/fortran/cc_loops2.f90:34-55`. -/
def termsT1b (a i : ℕ) : List (Key1 × ℤ) :=
  [((![a], ![i]), 1)]

/-- The assignments to `resid`; `/repo/ccpy/lib/fortran/cc_loops2.f90:34-55`. -/
def residsT1b (a i : ℕ) : List (Key1 × ℤ) :=
  [((![a], ![i]), 1)]

/-- `update_t1b`, `/repo/ccpy/lib/fortran/cc_loops2.f90:34-55`: the new amplitudes and the increments. -/
def updateT1b (nob nub : ℕ) (fB_oo fB_vv : ℕ → ℕ → R) (shift : R) (X t : Key1 → R) :
    (Key1 → R) × (Key1 → R) :=
  doLoop 1 nob (fun i =>
    doLoop 1 nub (fun a =>
      let denom := fB_oo i i - fB_vv a a
      let val := signedSum X (termsT1b a i) / (denom - shift)
      storeUpdate (![a], ![i]) val [] (residsT1b a i))) (t, fun _ => 0)

/-- The terms of `val`, the representative being `(b, a, j, i)`; `/repo/ccpy/lib/fortran/cc_loops2.f90:57-89`. -/
def termsT2a (a b i j : ℕ) : List (Key2 × ℤ) :=
  [((![b, a], ![j, i]), 1),
   ((![a, b], ![j, i]), -1),
   ((![b, a], ![i, j]), -1),
   ((![a, b], ![i, j]), 1)]

/-- The assignments to `t` after the representative; `/repo/ccpy/lib/fortran/cc_loops2.f90:57-89`. -/
def copiesT2a (a b i j : ℕ) : List (Key2 × ℤ) :=
  [((![a, b], ![j, i]), -1),
   ((![b, a], ![i, j]), -1),
   ((![a, b], ![i, j]), 1)]

/-- The assignments to `resid`; `/repo/ccpy/lib/fortran/cc_loops2.f90:57-89`. -/
def residsT2a (a b i j : ℕ) : List (Key2 × ℤ) :=
  [((![b, a], ![j, i]), 1),
   ((![a, b], ![j, i]), -1),
   ((![b, a], ![i, j]), -1),
   ((![a, b], ![i, j]), 1)]

/-- `update_t2a`, `/repo/ccpy/lib/fortran/cc_loops2.f90:57-89`: the new amplitudes and the increments. -/
def updateT2a (noa nua : ℕ) (fA_oo fA_vv : ℕ → ℕ → R) (shift : R) (X t : Key2 → R) :
    (Key2 → R) × (Key2 → R) :=
  doLoop 1 noa (fun i =>
    doLoop (i + 1) noa (fun j =>
      doLoop 1 nua (fun a =>
        doLoop (a + 1) nua (fun b =>
          let denom := fA_oo i i + fA_oo j j - fA_vv a a - fA_vv b b
          let val := signedSum X (termsT2a a b i j) / (denom - shift)
          storeUpdate (![b, a], ![j, i]) val (copiesT2a a b i j) (residsT2a a b i j))))) (t, fun _ => 0)

/-- The terms of `val`, the representative being `(a, b, i, j)`; `/repo/ccpy/lib/fortran/cc_loops2.f90:91-117`. -/
def termsT2b (a b i j : ℕ) : List (Key2 × ℤ) :=
  [((![a, b], ![i, j]), 1)]

/-- The assignments to `resid`; `/repo/ccpy/lib/fortran/cc_loops2.f90:91-117`. -/
def residsT2b (a b i j : ℕ) : List (Key2 × ℤ) :=
  [((![a, b], ![i, j]), 1)]

/-- `update_t2b`, `/repo/ccpy/lib/fortran/cc_loops2.f90:91-117`: the new amplitudes and the increments. -/
def updateT2b (noa nua nob nub : ℕ) (fA_oo fA_vv fB_oo fB_vv : ℕ → ℕ → R) (shift : R) (X t : Key2 → R) :
    (Key2 → R) × (Key2 → R) :=
  doLoop 1 nob (fun j =>
    doLoop 1 noa (fun i =>
      doLoop 1 nub (fun b =>
        doLoop 1 nua (fun a =>
          let denom := fA_oo i i + fB_oo j j - fA_vv a a - fB_vv b b
          let val := signedSum X (termsT2b a b i j) / (denom - shift)
          storeUpdate (![a, b], ![i, j]) val [] (residsT2b a b i j))))) (t, fun _ => 0)

/-- The terms of `val`, the representative being `(b, a, j, i)`; `/repo/ccpy/lib/fortran/cc_loops2.f90:119-152`. -/
def termsT2c (a b i j : ℕ) : List (Key2 × ℤ) :=
  [((![b, a], ![j, i]), 1),
   ((![a, b], ![j, i]), -1),
   ((![b, a], ![i, j]), -1),
   ((![a, b], ![i, j]), 1)]

/-- The assignments to `t` after the representative; `/repo/ccpy/lib/fortran/cc_loops2.f90:119-152`. -/
def copiesT2c (a b i j : ℕ) : List (Key2 × ℤ) :=
  [((![a, b], ![j, i]), -1),
   ((![b, a], ![i, j]), -1),
   ((![a, b], ![i, j]), 1)]

/-- The assignments to `resid`; `/repo/ccpy/lib/fortran/cc_loops2.f90:119-152`. -/
def residsT2c (a b i j : ℕ) : List (Key2 × ℤ) :=
  [((![b, a], ![j, i]), 1),
   ((![a, b], ![j, i]), -1),
   ((![b, a], ![i, j]), -1),
   ((![a, b], ![i, j]), 1)]

/-- `update_t2c`, `/repo/ccpy/lib/fortran/cc_loops2.f90:119-152`: the new amplitudes and the increments. -/
def updateT2c (nob nub : ℕ) (fB_oo fB_vv : ℕ → ℕ → R) (shift : R) (X t : Key2 → R) :
    (Key2 → R) × (Key2 → R) :=
  doLoop 1 nob (fun i =>
    doLoop (i + 1) nob (fun j =>
      doLoop 1 nub (fun a =>
        doLoop (a + 1) nub (fun b =>
          let denom := fB_oo i i + fB_oo j j - fB_vv a a - fB_vv b b
          let val := signedSum X (termsT2c a b i j) / (denom - shift)
          storeUpdate (![b, a], ![j, i]) val (copiesT2c a b i j) (residsT2c a b i j))))) (t, fun _ => 0)

/-- The terms of `val`, the representative being `(a, b, c, i, j, k)`; `/repo/ccpy/lib/fortran/cc_loops2.f90:154-303`. -/
def termsT3a (a b c i j k : ℕ) : List (Key3 × ℤ) :=
  [((![a, b, c], ![i, j, k]), 1),
   ((![b, a, c], ![i, j, k]), -1),
   ((![a, c, b], ![i, j, k]), -1),
   ((![b, c, a], ![i, j, k]), 1),
   ((![c, b, a], ![i, j, k]), -1),
   ((![c, a, b], ![i, j, k]), 1),
   ((![a, b, c], ![j, i, k]), -1),
   ((![b, a, c], ![j, i, k]), 1),
   ((![a, c, b], ![j, i, k]), 1),
   ((![b, c, a], ![j, i, k]), -1),
   ((![c, b, a], ![j, i, k]), 1),
   ((![c, a, b], ![j, i, k]), -1),
   ((![a, b, c], ![i, k, j]), -1),
   ((![b, a, c], ![i, k, j]), 1),
   ((![a, c, b], ![i, k, j]), 1),
   ((![b, c, a], ![i, k, j]), -1),
   ((![c, b, a], ![i, k, j]), 1),
   ((![c, a, b], ![i, k, j]), -1),
   ((![a, b, c], ![k, j, i]), -1),
   ((![b, a, c], ![k, j, i]), 1),
   ((![a, c, b], ![k, j, i]), 1),
   ((![b, c, a], ![k, j, i]), -1),
   ((![c, b, a], ![k, j, i]), 1),
   ((![c, a, b], ![k, j, i]), -1),
   ((![a, b, c], ![j, k, i]), 1),
   ((![b, a, c], ![j, k, i]), -1),
   ((![a, c, b], ![j, k, i]), -1),
   ((![b, c, a], ![j, k, i]), 1),
   ((![c, b, a], ![j, k, i]), -1),
   ((![c, a, b], ![j, k, i]), 1),
   ((![a, b, c], ![k, i, j]), 1),
   ((![b, a, c], ![k, i, j]), -1),
   ((![a, c, b], ![k, i, j]), -1),
   ((![b, c, a], ![k, i, j]), 1),
   ((![c, b, a], ![k, i, j]), -1),
   ((![c, a, b], ![k, i, j]), 1)]

/-- The assignments to `t` after the representative; `/repo/ccpy/lib/fortran/cc_loops2.f90:154-303`. -/
def copiesT3a (a b c i j k : ℕ) : List (Key3 × ℤ) :=
  [((![a, b, c], ![k, i, j]), 1),
   ((![a, b, c], ![j, k, i]), 1),
   ((![a, b, c], ![i, k, j]), -1),
   ((![a, b, c], ![j, i, k]), -1),
   ((![a, b, c], ![k, j, i]), -1),
   ((![b, a, c], ![i, j, k]), -1),
   ((![b, a, c], ![k, i, j]), -1),
   ((![b, a, c], ![j, k, i]), -1),
   ((![b, a, c], ![i, k, j]), 1),
   ((![b, a, c], ![j, i, k]), 1),
   ((![b, a, c], ![k, j, i]), 1),
   ((![a, c, b], ![i, j, k]), -1),
   ((![a, c, b], ![k, i, j]), -1),
   ((![a, c, b], ![j, k, i]), -1),
   ((![a, c, b], ![i, k, j]), 1),
   ((![a, c, b], ![j, i, k]), 1),
   ((![a, c, b], ![k, j, i]), 1),
   ((![c, b, a], ![i, j, k]), -1),
   ((![c, b, a], ![k, i, j]), -1),
   ((![c, b, a], ![j, k, i]), -1),
   ((![c, b, a], ![i, k, j]), 1),
   ((![c, b, a], ![j, i, k]), 1),
   ((![c, b, a], ![k, j, i]), 1),
   ((![b, c, a], ![i, j, k]), 1),
   ((![b, c, a], ![k, i, j]), 1),
   ((![b, c, a], ![j, k, i]), 1),
   ((![b, c, a], ![i, k, j]), -1),
   ((![b, c, a], ![j, i, k]), -1),
   ((![b, c, a], ![k, j, i]), -1),
   ((![c, a, b], ![i, j, k]), 1),
   ((![c, a, b], ![k, i, j]), 1),
   ((![c, a, b], ![j, k, i]), 1),
   ((![c, a, b], ![i, k, j]), -1),
   ((![c, a, b], ![j, i, k]), -1),
   ((![c, a, b], ![k, j, i]), -1)]

/-- The assignments to `resid`; `/repo/ccpy/lib/fortran/cc_loops2.f90:154-303`. -/
def residsT3a (a b c i j k : ℕ) : List (Key3 × ℤ) :=
  [((![a, b, c], ![i, j, k]), 1),
   ((![a, b, c], ![k, i, j]), 1),
   ((![a, b, c], ![j, k, i]), 1),
   ((![a, b, c], ![i, k, j]), -1),
   ((![a, b, c], ![j, i, k]), -1),
   ((![a, b, c], ![k, j, i]), -1),
   ((![b, c, a], ![i, j, k]), 1),
   ((![b, c, a], ![k, i, j]), 1),
   ((![b, c, a], ![j, k, i]), 1),
   ((![b, c, a], ![i, k, j]), -1),
   ((![b, c, a], ![j, i, k]), -1),
   ((![b, c, a], ![k, j, i]), -1),
   ((![c, a, b], ![i, j, k]), 1),
   ((![c, a, b], ![k, i, j]), 1),
   ((![c, a, b], ![j, k, i]), 1),
   ((![c, a, b], ![i, k, j]), -1),
   ((![c, a, b], ![j, i, k]), -1),
   ((![c, a, b], ![k, j, i]), -1),
   ((![a, c, b], ![i, j, k]), -1),
   ((![a, c, b], ![k, i, j]), -1),
   ((![a, c, b], ![j, k, i]), -1),
   ((![a, c, b], ![i, k, j]), 1),
   ((![a, c, b], ![j, i, k]), 1),
   ((![a, c, b], ![k, j, i]), 1),
   ((![b, a, c], ![i, j, k]), -1),
   ((![b, a, c], ![k, i, j]), -1),
   ((![b, a, c], ![j, k, i]), -1),
   ((![b, a, c], ![i, k, j]), 1),
   ((![b, a, c], ![j, i, k]), 1),
   ((![b, a, c], ![k, j, i]), 1),
   ((![c, b, a], ![i, j, k]), -1),
   ((![c, b, a], ![k, i, j]), -1),
   ((![c, b, a], ![j, k, i]), -1),
   ((![c, b, a], ![i, k, j]), 1),
   ((![c, b, a], ![j, i, k]), 1),
   ((![c, b, a], ![k, j, i]), 1)]

/-- `update_t3a_v2`, `/repo/ccpy/lib/fortran/cc_loops2.f90:154-303`: the new amplitudes and the increments. -/
def updateT3a (noa nua : ℕ) (fA_oo fA_vv : ℕ → ℕ → R) (shift : R) (X t : Key3 → R) :
    (Key3 → R) × (Key3 → R) :=
  doLoop 1 noa (fun ii =>
    doLoop (ii + 1) noa (fun jj =>
      doLoop (jj + 1) noa (fun kk =>
        doLoop 1 nua (fun aa =>
          doLoop (aa + 1) nua (fun bb =>
            doLoop (bb + 1) nua (fun cc =>
              let a := cc
              let b := bb
              let c := aa
              let i := kk
              let j := jj
              let k := ii
              let denom := fA_oo i i + fA_oo j j + fA_oo k k - fA_vv a a - fA_vv b b - fA_vv c c
              let val := signedSum X (termsT3a a b c i j k) / (denom - shift)
              storeUpdate (![a, b, c], ![i, j, k]) val (copiesT3a a b c i j k) (residsT3a a b c i j k))))))) (t, fun _ => 0)

/-- The terms of `val`, the representative being `(a, b, c, i, j, k)`; `/repo/ccpy/lib/fortran/cc_loops2.f90:306-349`. -/
def termsT3b (a b c i j k : ℕ) : List (Key3 × ℤ) :=
  [((![a, b, c], ![i, j, k]), 1),
   ((![b, a, c], ![i, j, k]), -1),
   ((![a, b, c], ![j, i, k]), -1),
   ((![b, a, c], ![j, i, k]), 1)]

/-- The assignments to `t` after the representative; `/repo/ccpy/lib/fortran/cc_loops2.f90:306-349`. -/
def copiesT3b (a b c i j k : ℕ) : List (Key3 × ℤ) :=
  [((![b, a, c], ![i, j, k]), -1),
   ((![a, b, c], ![j, i, k]), -1),
   ((![b, a, c], ![j, i, k]), 1)]

/-- The assignments to `resid`; `/repo/ccpy/lib/fortran/cc_loops2.f90:306-349`. -/
def residsT3b (a b c i j k : ℕ) : List (Key3 × ℤ) :=
  [((![a, b, c], ![i, j, k]), 1),
   ((![b, a, c], ![i, j, k]), -1),
   ((![a, b, c], ![j, i, k]), -1),
   ((![b, a, c], ![j, i, k]), 1)]

/-- `update_t3b_v2`, `/repo/ccpy/lib/fortran/cc_loops2.f90:306-349`: the new amplitudes and the increments. -/
def updateT3b (noa nua nob nub : ℕ) (fA_oo fA_vv fB_oo fB_vv : ℕ → ℕ → R) (shift : R) (X t : Key3 → R) :
    (Key3 → R) × (Key3 → R) :=
  doLoop 1 noa (fun ii =>
    doLoop (ii + 1) noa (fun jj =>
      doLoop 1 nob (fun kk =>
        doLoop 1 nua (fun aa =>
          doLoop (aa + 1) nua (fun bb =>
            doLoop 1 nub (fun cc =>
              let a := bb
              let b := aa
              let c := cc
              let i := jj
              let j := ii
              let k := kk
              let denom := fA_oo i i + fA_oo j j + fB_oo k k - fA_vv a a - fA_vv b b - fB_vv c c
              let val := signedSum X (termsT3b a b c i j k) / (denom - shift)
              storeUpdate (![a, b, c], ![i, j, k]) val (copiesT3b a b c i j k) (residsT3b a b c i j k))))))) (t, fun _ => 0)

/-- The terms of `val`, the representative being `(a, b, c, i, j, k)`; `/repo/ccpy/lib/fortran/cc_loops2.f90:351-394`. -/
def termsT3c (a b c i j k : ℕ) : List (Key3 × ℤ) :=
  [((![a, b, c], ![i, j, k]), 1),
   ((![a, c, b], ![i, j, k]), -1),
   ((![a, b, c], ![i, k, j]), -1),
   ((![a, c, b], ![i, k, j]), 1)]

/-- The assignments to `t` after the representative; `/repo/ccpy/lib/fortran/cc_loops2.f90:351-394`. -/
def copiesT3c (a b c i j k : ℕ) : List (Key3 × ℤ) :=
  [((![a, c, b], ![i, j, k]), -1),
   ((![a, b, c], ![i, k, j]), -1),
   ((![a, c, b], ![i, k, j]), 1)]

/-- The assignments to `resid`; `/repo/ccpy/lib/fortran/cc_loops2.f90:351-394`. -/
def residsT3c (a b c i j k : ℕ) : List (Key3 × ℤ) :=
  [((![a, b, c], ![i, j, k]), 1),
   ((![a, c, b], ![i, j, k]), -1),
   ((![a, b, c], ![i, k, j]), -1),
   ((![a, c, b], ![i, k, j]), 1)]

/-- `update_t3c_v2`, `/repo/ccpy/lib/fortran/cc_loops2.f90:351-394`: the new amplitudes and the increments. -/
def updateT3c (noa nua nob nub : ℕ) (fA_oo fA_vv fB_oo fB_vv : ℕ → ℕ → R) (shift : R) (X t : Key3 → R) :
    (Key3 → R) × (Key3 → R) :=
  doLoop 1 noa (fun ii =>
    doLoop 1 nob (fun jj =>
      doLoop (jj + 1) nob (fun kk =>
        doLoop 1 nua (fun aa =>
          doLoop 1 nub (fun bb =>
            doLoop (bb + 1) nub (fun cc =>
              let a := aa
              let b := cc
              let c := bb
              let i := ii
              let j := kk
              let k := jj
              let denom := fA_oo i i + fB_oo j j + fB_oo k k - fA_vv a a - fB_vv b b - fB_vv c c
              let val := signedSum X (termsT3c a b c i j k) / (denom - shift)
              storeUpdate (![a, b, c], ![i, j, k]) val (copiesT3c a b c i j k) (residsT3c a b c i j k))))))) (t, fun _ => 0)

/-- The terms of `val`, the representative being `(a, b, c, i, j, k)`; `/repo/ccpy/lib/fortran/cc_loops2.f90:396-543`. -/
def termsT3d (a b c i j k : ℕ) : List (Key3 × ℤ) :=
  [((![a, b, c], ![i, j, k]), 1),
   ((![b, a, c], ![i, j, k]), -1),
   ((![a, c, b], ![i, j, k]), -1),
   ((![b, c, a], ![i, j, k]), 1),
   ((![c, b, a], ![i, j, k]), -1),
   ((![c, a, b], ![i, j, k]), 1),
   ((![a, b, c], ![j, i, k]), -1),
   ((![b, a, c], ![j, i, k]), 1),
   ((![a, c, b], ![j, i, k]), 1),
   ((![b, c, a], ![j, i, k]), -1),
   ((![c, b, a], ![j, i, k]), 1),
   ((![c, a, b], ![j, i, k]), -1),
   ((![a, b, c], ![i, k, j]), -1),
   ((![b, a, c], ![i, k, j]), 1),
   ((![a, c, b], ![i, k, j]), 1),
   ((![b, c, a], ![i, k, j]), -1),
   ((![c, b, a], ![i, k, j]), 1),
   ((![c, a, b], ![i, k, j]), -1),
   ((![a, b, c], ![k, j, i]), -1),
   ((![b, a, c], ![k, j, i]), 1),
   ((![a, c, b], ![k, j, i]), 1),
   ((![b, c, a], ![k, j, i]), -1),
   ((![c, b, a], ![k, j, i]), 1),
   ((![c, a, b], ![k, j, i]), -1),
   ((![a, b, c], ![j, k, i]), 1),
   ((![b, a, c], ![j, k, i]), -1),
   ((![a, c, b], ![j, k, i]), -1),
   ((![b, c, a], ![j, k, i]), 1),
   ((![c, b, a], ![j, k, i]), -1),
   ((![c, a, b], ![j, k, i]), 1),
   ((![a, b, c], ![k, i, j]), 1),
   ((![b, a, c], ![k, i, j]), -1),
   ((![a, c, b], ![k, i, j]), -1),
   ((![b, c, a], ![k, i, j]), 1),
   ((![c, b, a], ![k, i, j]), -1),
   ((![c, a, b], ![k, i, j]), 1)]

/-- The assignments to `t` after the representative; `/repo/ccpy/lib/fortran/cc_loops2.f90:396-543`. -/
def copiesT3d (a b c i j k : ℕ) : List (Key3 × ℤ) :=
  [((![a, b, c], ![k, i, j]), 1),
   ((![a, b, c], ![j, k, i]), 1),
   ((![a, b, c], ![i, k, j]), -1),
   ((![a, b, c], ![j, i, k]), -1),
   ((![a, b, c], ![k, j, i]), -1),
   ((![b, a, c], ![i, j, k]), -1),
   ((![b, a, c], ![k, i, j]), -1),
   ((![b, a, c], ![j, k, i]), -1),
   ((![b, a, c], ![i, k, j]), 1),
   ((![b, a, c], ![j, i, k]), 1),
   ((![b, a, c], ![k, j, i]), 1),
   ((![a, c, b], ![i, j, k]), -1),
   ((![a, c, b], ![k, i, j]), -1),
   ((![a, c, b], ![j, k, i]), -1),
   ((![a, c, b], ![i, k, j]), 1),
   ((![a, c, b], ![j, i, k]), 1),
   ((![a, c, b], ![k, j, i]), 1),
   ((![c, b, a], ![i, j, k]), -1),
   ((![c, b, a], ![k, i, j]), -1),
   ((![c, b, a], ![j, k, i]), -1),
   ((![c, b, a], ![i, k, j]), 1),
   ((![c, b, a], ![j, i, k]), 1),
   ((![c, b, a], ![k, j, i]), 1),
   ((![b, c, a], ![i, j, k]), 1),
   ((![b, c, a], ![k, i, j]), 1),
   ((![b, c, a], ![j, k, i]), 1),
   ((![b, c, a], ![i, k, j]), -1),
   ((![b, c, a], ![j, i, k]), -1),
   ((![b, c, a], ![k, j, i]), -1),
   ((![c, a, b], ![i, j, k]), 1),
   ((![c, a, b], ![k, i, j]), 1),
   ((![c, a, b], ![j, k, i]), 1),
   ((![c, a, b], ![i, k, j]), -1),
   ((![c, a, b], ![j, i, k]), -1),
   ((![c, a, b], ![k, j, i]), -1)]

/-- The assignments to `resid`; `/repo/ccpy/lib/fortran/cc_loops2.f90:396-543`. -/
def residsT3d (a b c i j k : ℕ) : List (Key3 × ℤ) :=
  [((![a, b, c], ![i, j, k]), 1),
   ((![a, b, c], ![k, i, j]), 1),
   ((![a, b, c], ![j, k, i]), 1),
   ((![a, b, c], ![i, k, j]), -1),
   ((![a, b, c], ![j, i, k]), -1),
   ((![a, b, c], ![k, j, i]), -1),
   ((![b, c, a], ![i, j, k]), 1),
   ((![b, c, a], ![k, i, j]), 1),
   ((![b, c, a], ![j, k, i]), 1),
   ((![b, c, a], ![i, k, j]), -1),
   ((![b, c, a], ![j, i, k]), -1),
   ((![b, c, a], ![k, j, i]), -1),
   ((![c, a, b], ![i, j, k]), 1),
   ((![c, a, b], ![k, i, j]), 1),
   ((![c, a, b], ![j, k, i]), 1),
   ((![c, a, b], ![i, k, j]), -1),
   ((![c, a, b], ![j, i, k]), -1),
   ((![c, a, b], ![k, j, i]), -1),
   ((![a, c, b], ![i, j, k]), -1),
   ((![a, c, b], ![k, i, j]), -1),
   ((![a, c, b], ![j, k, i]), -1),
   ((![a, c, b], ![i, k, j]), 1),
   ((![a, c, b], ![j, i, k]), 1),
   ((![a, c, b], ![k, j, i]), 1),
   ((![b, a, c], ![i, j, k]), -1),
   ((![b, a, c], ![k, i, j]), -1),
   ((![b, a, c], ![j, k, i]), -1),
   ((![b, a, c], ![i, k, j]), 1),
   ((![b, a, c], ![j, i, k]), 1),
   ((![b, a, c], ![k, j, i]), 1),
   ((![c, b, a], ![i, j, k]), -1),
   ((![c, b, a], ![k, i, j]), -1),
   ((![c, b, a], ![j, k, i]), -1),
   ((![c, b, a], ![i, k, j]), 1),
   ((![c, b, a], ![j, i, k]), 1),
   ((![c, b, a], ![k, j, i]), 1)]

/-- `update_t3d_v2`, `/repo/ccpy/lib/fortran/cc_loops2.f90:396-543`: the new amplitudes and the increments. -/
def updateT3d (nob nub : ℕ) (fB_oo fB_vv : ℕ → ℕ → R) (shift : R) (X t : Key3 → R) :
    (Key3 → R) × (Key3 → R) :=
  doLoop 1 nob (fun ii =>
    doLoop (ii + 1) nob (fun jj =>
      doLoop (jj + 1) nob (fun kk =>
        doLoop 1 nub (fun aa =>
          doLoop (aa + 1) nub (fun bb =>
            doLoop (bb + 1) nub (fun cc =>
              let a := cc
              let b := bb
              let c := aa
              let i := kk
              let j := jj
              let k := ii
              let denom := fB_oo i i + fB_oo j j + fB_oo k k - fB_vv a a - fB_vv b b - fB_vv c c
              let val := signedSum X (termsT3d a b c i j k) / (denom - shift)
              storeUpdate (![a, b, c], ![i, j, k]) val (copiesT3d a b c i j k) (residsT3d a b c i j k))))))) (t, fun _ => 0)

end Ccpy.UpdateKernels
