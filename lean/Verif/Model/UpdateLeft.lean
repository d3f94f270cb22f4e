import Verif.Model.UpdateKernels

/-! Model of the left-amplitude update kernels `update_L1`, `update_L2` and `update_L3` of
`/repo/ccpy/lib/fortran/cc_loops2.f90:767-1194`.  `l` and `X` are the left amplitudes and the
left residual; both are overwritten. -/

namespace Ccpy.UpdateKernels
open Ccpy.Writes Ccpy.Fortran

variable {K R : Type*} [DecidableEq K] [Field R]

/-- Loop body with a residual stored by copies `X(k) = ± X(rep)`, as in
`/repo/ccpy/lib/fortran/cc_loops2.f90:846-858`. -/
def storeLeft (rep : K) (denom omega shift : R) (copiesL copiesX : List (K × ℤ))
    (s : (K → R) × (K → R)) : (K → R) × (K → R) :=
  let val := omega * s.1 rep - s.2 rep
  (copyFrom rep copiesL (Function.update s.1 rep (s.1 rep + val / (denom - omega + shift))),
   copyFrom rep copiesX (Function.update s.2 rep (val / (denom - omega + shift))))

/-- Loop body with a residual stored by assignments `X(k) = ± val`, as in
`/repo/ccpy/lib/fortran/cc_loops2.f90:1046-1057`. -/
def storeLeftVal (rep : K) (denom omega shift : R) (copiesL setX : List (K × ℤ))
    (s : (K → R) × (K → R)) : (K → R) × (K → R) :=
  let val := omega * s.1 rep - s.2 rep
  let l := copyFrom rep copiesL (Function.update s.1 rep (s.1 rep + val / (denom - omega + shift)))
  let val := val / (denom - omega + shift)
  (l, setSigned val setX s.2)

/-- The `L1a` loop of `update_L1`, `/repo/ccpy/lib/fortran/cc_loops2.f90:793-800`. -/
def updateL1a (noa nua : ℕ) (omega : R) (H1A_oo H1A_vv : ℕ → ℕ → R) (shift : R) (l X : Key1 → R) :
    (Key1 → R) × (Key1 → R) :=
  doLoop 1 noa (fun i =>
    doLoop 1 nua (fun a =>
      let denom := H1A_vv a a - H1A_oo i i
      storeLeft (![a], ![i]) denom omega shift [] [])) (l, X)

/-- The `L1b` loop of `update_L1`, `/repo/ccpy/lib/fortran/cc_loops2.f90:802-809`. -/
def updateL1b (nob nub : ℕ) (omega : R) (H1B_oo H1B_vv : ℕ → ℕ → R) (shift : R) (l X : Key1 → R) :
    (Key1 → R) × (Key1 → R) :=
  doLoop 1 nob (fun i =>
    doLoop 1 nub (fun a =>
      let denom := H1B_vv a a - H1B_oo i i
      storeLeft (![a], ![i]) denom omega shift [] [])) (l, X)

/-- Copies to `l`; `/repo/ccpy/lib/fortran/cc_loops2.f90:842-862`. -/
def copiesL2a (a b i j : ℕ) : List (Key2 × ℤ) :=
  [((![b, a], ![i, j]), -1),
   ((![a, b], ![j, i]), -1),
   ((![b, a], ![j, i]), 1)]

/-- Copies to `X`; `/repo/ccpy/lib/fortran/cc_loops2.f90:842-862`. -/
def copiesXL2a (a b i j : ℕ) : List (Key2 × ℤ) :=
  [((![b, a], ![i, j]), -1),
   ((![a, b], ![j, i]), -1),
   ((![b, a], ![j, i]), 1)]

/-- The `L2a` loop of `update_L2`, `/repo/ccpy/lib/fortran/cc_loops2.f90:842-862`. -/
def updateL2a (noa nua : ℕ) (omega : R) (H1A_oo H1A_vv : ℕ → ℕ → R) (shift : R) (l X : Key2 → R) :
    (Key2 → R) × (Key2 → R) :=
  doLoop 1 noa (fun i =>
    doLoop (i + 1) noa (fun j =>
      doLoop 1 nua (fun a =>
        doLoop (a + 1) nua (fun b =>
          let denom := H1A_vv a a + H1A_vv b b - H1A_oo i i - H1A_oo j j
          storeLeft (![a, b], ![i, j]) denom omega shift (copiesL2a a b i j) (copiesXL2a a b i j))))) (l, X)

/-- The `L2b` loop of `update_L2`, `/repo/ccpy/lib/fortran/cc_loops2.f90:864-877`. -/
def updateL2b (noa nua nob nub : ℕ) (omega : R) (H1A_oo H1A_vv H1B_oo H1B_vv : ℕ → ℕ → R) (shift : R) (l X : Key2 → R) :
    (Key2 → R) × (Key2 → R) :=
  doLoop 1 nob (fun j =>
    doLoop 1 noa (fun i =>
      doLoop 1 nub (fun b =>
        doLoop 1 nua (fun a =>
          let denom := H1A_vv a a + H1B_vv b b - H1A_oo i i - H1B_oo j j
          storeLeft (![a, b], ![i, j]) denom omega shift [] [])))) (l, X)

/-- Copies to `l`; `/repo/ccpy/lib/fortran/cc_loops2.f90:879-899`. -/
def copiesL2c (a b i j : ℕ) : List (Key2 × ℤ) :=
  [((![b, a], ![i, j]), -1),
   ((![a, b], ![j, i]), -1),
   ((![b, a], ![j, i]), 1)]

/-- Copies to `X`; `/repo/ccpy/lib/fortran/cc_loops2.f90:879-899`. -/
def copiesXL2c (a b i j : ℕ) : List (Key2 × ℤ) :=
  [((![b, a], ![i, j]), -1),
   ((![a, b], ![j, i]), -1),
   ((![b, a], ![j, i]), 1)]

/-- The `L2c` loop of `update_L2`, `/repo/ccpy/lib/fortran/cc_loops2.f90:879-899`. -/
def updateL2c (nob nub : ℕ) (omega : R) (H1B_oo H1B_vv : ℕ → ℕ → R) (shift : R) (l X : Key2 → R) :
    (Key2 → R) × (Key2 → R) :=
  doLoop 1 nob (fun i =>
    doLoop (i + 1) nob (fun j =>
      doLoop 1 nub (fun a =>
        doLoop (a + 1) nub (fun b =>
          let denom := H1B_vv a a + H1B_vv b b - H1B_oo i i - H1B_oo j j
          storeLeft (![a, b], ![i, j]) denom omega shift (copiesL2c a b i j) (copiesXL2c a b i j))))) (l, X)

/-- Copies to `l`; `/repo/ccpy/lib/fortran/cc_loops2.f90:937-1036`. -/
def copiesL3a (a b c i j k : ℕ) : List (Key3 × ℤ) :=
  [((![a, b, c], ![k, i, j]), 1),
   ((![a, b, c], ![j, k, i]), 1),
   ((![a, b, c], ![i, k, j]), -1),
   ((![a, b, c], ![j, i, k]), -1),
   ((![a, b, c], ![k, j, i]), -1),
   ((![b, a, c], ![i, j, k]), -1),
   ((![b, a, c], ![k, i, j]), -1),
   ((![b, a, c], ![j, k, i]), -1),
   ((![b, a, c], ![i, k, j]), 1),
   ((![b, a, c], ![j, i, k]), 1),
   ((![b, a, c], ![k, j, i]), 1),
   ((![a, c, b], ![i, j, k]), -1),
   ((![a, c, b], ![k, i, j]), -1),
   ((![a, c, b], ![j, k, i]), -1),
   ((![a, c, b], ![i, k, j]), 1),
   ((![a, c, b], ![j, i, k]), 1),
   ((![a, c, b], ![k, j, i]), 1),
   ((![c, b, a], ![i, j, k]), -1),
   ((![c, b, a], ![k, i, j]), -1),
   ((![c, b, a], ![j, k, i]), -1),
   ((![c, b, a], ![i, k, j]), 1),
   ((![c, b, a], ![j, i, k]), 1),
   ((![c, b, a], ![k, j, i]), 1),
   ((![b, c, a], ![i, j, k]), 1),
   ((![b, c, a], ![k, i, j]), 1),
   ((![b, c, a], ![j, k, i]), 1),
   ((![b, c, a], ![i, k, j]), -1),
   ((![b, c, a], ![j, i, k]), -1),
   ((![b, c, a], ![k, j, i]), -1),
   ((![c, a, b], ![i, j, k]), 1),
   ((![c, a, b], ![k, i, j]), 1),
   ((![c, a, b], ![j, k, i]), 1),
   ((![c, a, b], ![i, k, j]), -1),
   ((![c, a, b], ![j, i, k]), -1),
   ((![c, a, b], ![k, j, i]), -1)]

/-- Assignments to `X`; `/repo/ccpy/lib/fortran/cc_loops2.f90:937-1036`. -/
def setXL3a (a b c i j k : ℕ) : List (Key3 × ℤ) :=
  [((![a, b, c], ![i, j, k]), 1),
   ((![a, b, c], ![k, i, j]), 1),
   ((![a, b, c], ![j, k, i]), 1),
   ((![a, b, c], ![i, k, j]), -1),
   ((![a, b, c], ![j, i, k]), -1),
   ((![a, b, c], ![k, j, i]), -1),
   ((![b, c, a], ![i, j, k]), 1),
   ((![b, c, a], ![k, i, j]), 1),
   ((![b, c, a], ![j, k, i]), 1),
   ((![b, c, a], ![i, k, j]), -1),
   ((![b, c, a], ![j, i, k]), -1),
   ((![b, c, a], ![k, j, i]), -1),
   ((![c, a, b], ![i, j, k]), 1),
   ((![c, a, b], ![k, i, j]), 1),
   ((![c, a, b], ![j, k, i]), 1),
   ((![c, a, b], ![i, k, j]), -1),
   ((![c, a, b], ![j, i, k]), -1),
   ((![c, a, b], ![k, j, i]), -1),
   ((![a, c, b], ![i, j, k]), -1),
   ((![a, c, b], ![k, i, j]), -1),
   ((![a, c, b], ![j, k, i]), -1),
   ((![a, c, b], ![i, k, j]), 1),
   ((![a, c, b], ![j, i, k]), 1),
   ((![a, c, b], ![k, j, i]), 1),
   ((![b, a, c], ![i, j, k]), -1),
   ((![b, a, c], ![k, i, j]), -1),
   ((![b, a, c], ![j, k, i]), -1),
   ((![b, a, c], ![i, k, j]), 1),
   ((![b, a, c], ![j, i, k]), 1),
   ((![b, a, c], ![k, j, i]), 1),
   ((![c, b, a], ![i, j, k]), -1),
   ((![c, b, a], ![k, i, j]), -1),
   ((![c, b, a], ![j, k, i]), -1),
   ((![c, b, a], ![i, k, j]), 1),
   ((![c, b, a], ![j, i, k]), 1),
   ((![c, b, a], ![k, j, i]), 1)]

/-- The `L3a` loop of `update_L3`, `/repo/ccpy/lib/fortran/cc_loops2.f90:937-1036`. -/
def updateL3a (noa nua : ℕ) (omega : R) (H1A_oo H1A_vv : ℕ → ℕ → R) (shift : R) (l X : Key3 → R) :
    (Key3 → R) × (Key3 → R) :=
  doLoop 1 noa (fun i =>
    doLoop (i + 1) noa (fun j =>
      doLoop (j + 1) noa (fun k =>
        doLoop 1 nua (fun a =>
          doLoop (a + 1) nua (fun b =>
            doLoop (b + 1) nua (fun c =>
              let denom := -H1A_oo i i - H1A_oo j j - H1A_oo k k + H1A_vv a a + H1A_vv b b + H1A_vv c c
              storeLeftVal (![a, b, c], ![i, j, k]) denom omega shift (copiesL3a a b c i j k) (setXL3a a b c i j k))))))) (l, X)

/-- Copies to `l`; `/repo/ccpy/lib/fortran/cc_loops2.f90:1038-1063`. -/
def copiesL3b (a b c i j k : ℕ) : List (Key3 × ℤ) :=
  [((![b, a, c], ![i, j, k]), -1),
   ((![a, b, c], ![j, i, k]), -1),
   ((![b, a, c], ![j, i, k]), 1)]

/-- Assignments to `X`; `/repo/ccpy/lib/fortran/cc_loops2.f90:1038-1063`. -/
def setXL3b (a b c i j k : ℕ) : List (Key3 × ℤ) :=
  [((![a, b, c], ![i, j, k]), 1),
   ((![b, a, c], ![i, j, k]), -1),
   ((![a, b, c], ![j, i, k]), -1),
   ((![b, a, c], ![j, i, k]), 1)]

/-- The `L3b` loop of `update_L3`, `/repo/ccpy/lib/fortran/cc_loops2.f90:1038-1063`. -/
def updateL3b (noa nua nob nub : ℕ) (omega : R) (H1A_oo H1A_vv H1B_oo H1B_vv : ℕ → ℕ → R) (shift : R) (l X : Key3 → R) :
    (Key3 → R) × (Key3 → R) :=
  doLoop 1 noa (fun i =>
    doLoop (i + 1) noa (fun j =>
      doLoop 1 nob (fun k =>
        doLoop 1 nua (fun a =>
          doLoop (a + 1) nua (fun b =>
            doLoop 1 nub (fun c =>
              let denom := -H1A_oo i i - H1A_oo j j - H1B_oo k k + H1A_vv a a + H1A_vv b b + H1B_vv c c
              storeLeftVal (![a, b, c], ![i, j, k]) denom omega shift (copiesL3b a b c i j k) (setXL3b a b c i j k))))))) (l, X)

/-- Copies to `l`; `/repo/ccpy/lib/fortran/cc_loops2.f90:1065-1090`. -/
def copiesL3c (a b c i j k : ℕ) : List (Key3 × ℤ) :=
  [((![a, c, b], ![i, j, k]), -1),
   ((![a, b, c], ![i, k, j]), -1),
   ((![a, c, b], ![i, k, j]), 1)]

/-- Assignments to `X`; `/repo/ccpy/lib/fortran/cc_loops2.f90:1065-1090`. -/
def setXL3c (a b c i j k : ℕ) : List (Key3 × ℤ) :=
  [((![a, b, c], ![i, j, k]), 1),
   ((![a, c, b], ![i, j, k]), -1),
   ((![a, b, c], ![i, k, j]), -1),
   ((![a, c, b], ![i, k, j]), 1)]

/-- The `L3c` loop of `update_L3`, `/repo/ccpy/lib/fortran/cc_loops2.f90:1065-1090`. -/
def updateL3c (noa nua nob nub : ℕ) (omega : R) (H1A_oo H1A_vv H1B_oo H1B_vv : ℕ → ℕ → R) (shift : R) (l X : Key3 → R) :
    (Key3 → R) × (Key3 → R) :=
  doLoop 1 noa (fun i =>
    doLoop 1 nob (fun j =>
      doLoop (j + 1) nob (fun k =>
        doLoop 1 nua (fun a =>
          doLoop 1 nub (fun b =>
            doLoop (b + 1) nub (fun c =>
              let denom := -H1A_oo i i - H1B_oo j j - H1B_oo k k + H1A_vv a a + H1B_vv b b + H1B_vv c c
              storeLeftVal (![a, b, c], ![i, j, k]) denom omega shift (copiesL3c a b c i j k) (setXL3c a b c i j k))))))) (l, X)

/-- Copies to `l`; `/repo/ccpy/lib/fortran/cc_loops2.f90:1092-1191`. -/
def copiesL3d (a b c i j k : ℕ) : List (Key3 × ℤ) :=
  [((![a, b, c], ![k, i, j]), 1),
   ((![a, b, c], ![j, k, i]), 1),
   ((![a, b, c], ![i, k, j]), -1),
   ((![a, b, c], ![j, i, k]), -1),
   ((![a, b, c], ![k, j, i]), -1),
   ((![b, a, c], ![i, j, k]), -1),
   ((![b, a, c], ![k, i, j]), -1),
   ((![b, a, c], ![j, k, i]), -1),
   ((![b, a, c], ![i, k, j]), 1),
   ((![b, a, c], ![j, i, k]), 1),
   ((![b, a, c], ![k, j, i]), 1),
   ((![a, c, b], ![i, j, k]), -1),
   ((![a, c, b], ![k, i, j]), -1),
   ((![a, c, b], ![j, k, i]), -1),
   ((![a, c, b], ![i, k, j]), 1),
   ((![a, c, b], ![j, i, k]), 1),
   ((![a, c, b], ![k, j, i]), 1),
   ((![c, b, a], ![i, j, k]), -1),
   ((![c, b, a], ![k, i, j]), -1),
   ((![c, b, a], ![j, k, i]), -1),
   ((![c, b, a], ![i, k, j]), 1),
   ((![c, b, a], ![j, i, k]), 1),
   ((![c, b, a], ![k, j, i]), 1),
   ((![b, c, a], ![i, j, k]), 1),
   ((![b, c, a], ![k, i, j]), 1),
   ((![b, c, a], ![j, k, i]), 1),
   ((![b, c, a], ![i, k, j]), -1),
   ((![b, c, a], ![j, i, k]), -1),
   ((![b, c, a], ![k, j, i]), -1),
   ((![c, a, b], ![i, j, k]), 1),
   ((![c, a, b], ![k, i, j]), 1),
   ((![c, a, b], ![j, k, i]), 1),
   ((![c, a, b], ![i, k, j]), -1),
   ((![c, a, b], ![j, i, k]), -1),
   ((![c, a, b], ![k, j, i]), -1)]

/-- Assignments to `X`; `/repo/ccpy/lib/fortran/cc_loops2.f90:1092-1191`. -/
def setXL3d (a b c i j k : ℕ) : List (Key3 × ℤ) :=
  [((![a, b, c], ![i, j, k]), 1),
   ((![a, b, c], ![k, i, j]), 1),
   ((![a, b, c], ![j, k, i]), 1),
   ((![a, b, c], ![i, k, j]), -1),
   ((![a, b, c], ![j, i, k]), -1),
   ((![a, b, c], ![k, j, i]), -1),
   ((![b, c, a], ![i, j, k]), 1),
   ((![b, c, a], ![k, i, j]), 1),
   ((![b, c, a], ![j, k, i]), 1),
   ((![b, c, a], ![i, k, j]), -1),
   ((![b, c, a], ![j, i, k]), -1),
   ((![b, c, a], ![k, j, i]), -1),
   ((![c, a, b], ![i, j, k]), 1),
   ((![c, a, b], ![k, i, j]), 1),
   ((![c, a, b], ![j, k, i]), 1),
   ((![c, a, b], ![i, k, j]), -1),
   ((![c, a, b], ![j, i, k]), -1),
   ((![c, a, b], ![k, j, i]), -1),
   ((![a, c, b], ![i, j, k]), -1),
   ((![a, c, b], ![k, i, j]), -1),
   ((![a, c, b], ![j, k, i]), -1),
   ((![a, c, b], ![i, k, j]), 1),
   ((![a, c, b], ![j, i, k]), 1),
   ((![a, c, b], ![k, j, i]), 1),
   ((![b, a, c], ![i, j, k]), -1),
   ((![b, a, c], ![k, i, j]), -1),
   ((![b, a, c], ![j, k, i]), -1),
   ((![b, a, c], ![i, k, j]), 1),
   ((![b, a, c], ![j, i, k]), 1),
   ((![b, a, c], ![k, j, i]), 1),
   ((![c, b, a], ![i, j, k]), -1),
   ((![c, b, a], ![k, i, j]), -1),
   ((![c, b, a], ![j, k, i]), -1),
   ((![c, b, a], ![i, k, j]), 1),
   ((![c, b, a], ![j, i, k]), 1),
   ((![c, b, a], ![k, j, i]), 1)]

/-- The `L3d` loop of `update_L3`, `/repo/ccpy/lib/fortran/cc_loops2.f90:1092-1191`. -/
def updateL3d (nob nub : ℕ) (omega : R) (H1B_oo H1B_vv : ℕ → ℕ → R) (shift : R) (l X : Key3 → R) :
    (Key3 → R) × (Key3 → R) :=
  doLoop 1 nob (fun i =>
    doLoop (i + 1) nob (fun j =>
      doLoop (j + 1) nob (fun k =>
        doLoop 1 nub (fun a =>
          doLoop (a + 1) nub (fun b =>
            doLoop (b + 1) nub (fun c =>
              let denom := -H1B_oo i i - H1B_oo j j - H1B_oo k k + H1B_vv a a + H1B_vv b b + H1B_vv c c
              storeLeftVal (![a, b, c], ![i, j, k]) denom omega shift (copiesL3d a b c i j k) (setXL3d a b c i j k))))))) (l, X)

end Ccpy.UpdateKernels
