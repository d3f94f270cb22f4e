import Verif.Model.FortranLoop
import Mathlib.Data.Fin.VecNotation
import Mathlib.Data.Fintype.Basic
import Mathlib.Algebra.Field.Defs

/-! Model of the diagonal preconditioners `update_R*` of the EOM solvers,
`/repo/ccpy/lib/fortran/cc_loops2.f90:545-765, 1196-1491, 1554-1913`.  Arrays are functions of their 1-based index
tuple; `cycle` statements become `skipIf`.  Every kernel receives the full argument list; `shift` is
an argument of all kernels although several never read it. -/

set_option linter.unusedVariables false

namespace Ccpy.Precondition
open Ccpy.Fortran

variable {R : Type*} [Field R] {n : ℕ}

/-- The statement `r(key) = r(key)/d`, as in `/repo/ccpy/lib/fortran/cc_loops2.f90:571`. -/
def divideAt (key : Fin n → ℕ) (d : R) (r : (Fin n → ℕ) → R) : (Fin n → ℕ) → R :=
  Function.update r key (r key / d)

/-- The statement `if (c) cycle` before the rest of a loop body, as in
`/repo/ccpy/lib/fortran/cc_loops2.f90:1223`. -/
def skipIf {S : Type*} (c : Prop) [Decidable c] (rest : S → S) (s : S) : S :=
  if c then s else rest s

/-- The `r1a` loop of `update_R`, `/repo/ccpy/lib/fortran/cc_loops2.f90:568-573`. -/
def update_R_r1a (noa nua nob nub : ℕ) (omega : R) (H1A_oo H1A_vv H1B_oo H1B_vv : ℕ → ℕ → R) (shift : R) :
    ((Fin 2 → ℕ) → R) → (Fin 2 → ℕ) → R :=
  doLoop 1 noa (fun i =>
    doLoop 1 nua (fun a =>
      let denom := H1A_vv a a - H1A_oo i i
      divideAt ![a, i] (omega - denom)))

/-- The `r1b` loop of `update_R`, `/repo/ccpy/lib/fortran/cc_loops2.f90:575-580`. -/
def update_R_r1b (noa nua nob nub : ℕ) (omega : R) (H1A_oo H1A_vv H1B_oo H1B_vv : ℕ → ℕ → R) (shift : R) :
    ((Fin 2 → ℕ) → R) → (Fin 2 → ℕ) → R :=
  doLoop 1 nob (fun i =>
    doLoop 1 nub (fun a =>
      let denom := H1B_vv a a - H1B_oo i i
      divideAt ![a, i] (omega - denom)))

/-- The `r2a` loop of `update_R`, `/repo/ccpy/lib/fortran/cc_loops2.f90:582-594`. -/
def update_R_r2a (noa nua nob nub : ℕ) (omega : R) (H1A_oo H1A_vv H1B_oo H1B_vv : ℕ → ℕ → R) (shift : R) :
    ((Fin 4 → ℕ) → R) → (Fin 4 → ℕ) → R :=
  doLoop 1 noa (fun i =>
    doLoop 1 noa (fun j =>
      doLoop 1 nua (fun a =>
        doLoop 1 nua (fun b =>
          let denom := H1A_vv a a + H1A_vv b b - H1A_oo i i - H1A_oo j j
          divideAt ![b, a, j, i] (omega - denom)))))

/-- The `r2b` loop of `update_R`, `/repo/ccpy/lib/fortran/cc_loops2.f90:596-605`. -/
def update_R_r2b (noa nua nob nub : ℕ) (omega : R) (H1A_oo H1A_vv H1B_oo H1B_vv : ℕ → ℕ → R) (shift : R) :
    ((Fin 4 → ℕ) → R) → (Fin 4 → ℕ) → R :=
  doLoop 1 nob (fun j =>
    doLoop 1 noa (fun i =>
      doLoop 1 nub (fun b =>
        doLoop 1 nua (fun a =>
          let denom := H1A_vv a a + H1B_vv b b - H1A_oo i i - H1B_oo j j
          divideAt ![a, b, i, j] (omega - denom)))))

/-- The `r2c` loop of `update_R`, `/repo/ccpy/lib/fortran/cc_loops2.f90:607-619`. -/
def update_R_r2c (noa nua nob nub : ℕ) (omega : R) (H1A_oo H1A_vv H1B_oo H1B_vv : ℕ → ℕ → R) (shift : R) :
    ((Fin 4 → ℕ) → R) → (Fin 4 → ℕ) → R :=
  doLoop 1 nob (fun i =>
    doLoop 1 nob (fun j =>
      doLoop 1 nub (fun a =>
        doLoop 1 nub (fun b =>
          let denom := H1B_vv a a + H1B_vv b b - H1B_oo i i - H1B_oo j j
          divideAt ![b, a, j, i] (omega - denom)))))

/-- `update_R`, `/repo/ccpy/lib/fortran/cc_loops2.f90:545-621`. -/
def update_R (r1a : (Fin 2 → ℕ) → R) (r1b : (Fin 2 → ℕ) → R) (r2a : (Fin 4 → ℕ) → R) (r2b : (Fin 4 → ℕ) → R) (r2c : (Fin 4 → ℕ) → R) (omega : R)
    (H1A_oo H1A_vv H1B_oo H1B_vv : ℕ → ℕ → R) (shift : R) (noa nua nob nub : ℕ) :
    ((Fin 2 → ℕ) → R) × ((Fin 2 → ℕ) → R) × ((Fin 4 → ℕ) → R) × ((Fin 4 → ℕ) → R) × ((Fin 4 → ℕ) → R) :=
  (update_R_r1a noa nua nob nub omega H1A_oo H1A_vv H1B_oo H1B_vv shift r1a,
   update_R_r1b noa nua nob nub omega H1A_oo H1A_vv H1B_oo H1B_vv shift r1b,
   update_R_r2a noa nua nob nub omega H1A_oo H1A_vv H1B_oo H1B_vv shift r2a,
   update_R_r2b noa nua nob nub omega H1A_oo H1A_vv H1B_oo H1B_vv shift r2b,
   update_R_r2c noa nua nob nub omega H1A_oo H1A_vv H1B_oo H1B_vv shift r2c)

/-- The `r1a` loop of `update_R_ccsdt`, `/repo/ccpy/lib/fortran/cc_loops2.f90:654-659`. -/
def update_R_ccsdt_r1a (noa nua nob nub : ℕ) (omega : R) (H1A_oo H1A_vv H1B_oo H1B_vv : ℕ → ℕ → R) (shift : R) :
    ((Fin 2 → ℕ) → R) → (Fin 2 → ℕ) → R :=
  doLoop 1 noa (fun i =>
    doLoop 1 nua (fun a =>
      let denom := H1A_vv a a - H1A_oo i i
      divideAt ![a, i] (omega - denom + shift)))

/-- The `r1b` loop of `update_R_ccsdt`, `/repo/ccpy/lib/fortran/cc_loops2.f90:661-666`. -/
def update_R_ccsdt_r1b (noa nua nob nub : ℕ) (omega : R) (H1A_oo H1A_vv H1B_oo H1B_vv : ℕ → ℕ → R) (shift : R) :
    ((Fin 2 → ℕ) → R) → (Fin 2 → ℕ) → R :=
  doLoop 1 nob (fun i =>
    doLoop 1 nub (fun a =>
      let denom := H1B_vv a a - H1B_oo i i
      divideAt ![a, i] (omega - denom + shift)))

/-- The `r2a` loop of `update_R_ccsdt`, `/repo/ccpy/lib/fortran/cc_loops2.f90:668-677`. -/
def update_R_ccsdt_r2a (noa nua nob nub : ℕ) (omega : R) (H1A_oo H1A_vv H1B_oo H1B_vv : ℕ → ℕ → R) (shift : R) :
    ((Fin 4 → ℕ) → R) → (Fin 4 → ℕ) → R :=
  doLoop 1 noa (fun i =>
    doLoop 1 noa (fun j =>
      doLoop 1 nua (fun a =>
        doLoop 1 nua (fun b =>
          let denom := H1A_vv a a + H1A_vv b b - H1A_oo i i - H1A_oo j j
          divideAt ![b, a, j, i] (omega - denom + shift)))))

/-- The `r2b` loop of `update_R_ccsdt`, `/repo/ccpy/lib/fortran/cc_loops2.f90:679-688`. -/
def update_R_ccsdt_r2b (noa nua nob nub : ℕ) (omega : R) (H1A_oo H1A_vv H1B_oo H1B_vv : ℕ → ℕ → R) (shift : R) :
    ((Fin 4 → ℕ) → R) → (Fin 4 → ℕ) → R :=
  doLoop 1 nob (fun j =>
    doLoop 1 noa (fun i =>
      doLoop 1 nub (fun b =>
        doLoop 1 nua (fun a =>
          let denom := H1A_vv a a + H1B_vv b b - H1A_oo i i - H1B_oo j j
          divideAt ![a, b, i, j] (omega - denom + shift)))))

/-- The `r2c` loop of `update_R_ccsdt`, `/repo/ccpy/lib/fortran/cc_loops2.f90:690-699`. -/
def update_R_ccsdt_r2c (noa nua nob nub : ℕ) (omega : R) (H1A_oo H1A_vv H1B_oo H1B_vv : ℕ → ℕ → R) (shift : R) :
    ((Fin 4 → ℕ) → R) → (Fin 4 → ℕ) → R :=
  doLoop 1 nob (fun i =>
    doLoop 1 nob (fun j =>
      doLoop 1 nub (fun a =>
        doLoop 1 nub (fun b =>
          let denom := H1B_vv a a + H1B_vv b b - H1B_oo i i - H1B_oo j j
          divideAt ![b, a, j, i] (omega - denom + shift)))))

/-- The `r3a` loop of `update_R_ccsdt`, `/repo/ccpy/lib/fortran/cc_loops2.f90:701-715`. -/
def update_R_ccsdt_r3a (noa nua nob nub : ℕ) (omega : R) (H1A_oo H1A_vv H1B_oo H1B_vv : ℕ → ℕ → R) (shift : R) :
    ((Fin 6 → ℕ) → R) → (Fin 6 → ℕ) → R :=
  doLoop 1 noa (fun i =>
    doLoop 1 noa (fun j =>
      doLoop 1 noa (fun k =>
        doLoop 1 nua (fun a =>
          doLoop 1 nua (fun b =>
            doLoop 1 nua (fun c =>
              let denom := H1A_vv a a + H1A_vv b b + H1A_vv c c - H1A_oo i i - H1A_oo j j - H1A_oo k k
              divideAt ![a, b, c, i, j, k] (omega - denom + shift)))))))

/-- The `r3b` loop of `update_R_ccsdt`, `/repo/ccpy/lib/fortran/cc_loops2.f90:717-731`. -/
def update_R_ccsdt_r3b (noa nua nob nub : ℕ) (omega : R) (H1A_oo H1A_vv H1B_oo H1B_vv : ℕ → ℕ → R) (shift : R) :
    ((Fin 6 → ℕ) → R) → (Fin 6 → ℕ) → R :=
  doLoop 1 noa (fun i =>
    doLoop 1 noa (fun j =>
      doLoop 1 nob (fun k =>
        doLoop 1 nua (fun a =>
          doLoop 1 nua (fun b =>
            doLoop 1 nub (fun c =>
              let denom := H1A_vv a a + H1A_vv b b + H1B_vv c c - H1A_oo i i - H1A_oo j j - H1B_oo k k
              divideAt ![a, b, c, i, j, k] (omega - denom + shift)))))))

/-- The `r3c` loop of `update_R_ccsdt`, `/repo/ccpy/lib/fortran/cc_loops2.f90:733-747`. -/
def update_R_ccsdt_r3c (noa nua nob nub : ℕ) (omega : R) (H1A_oo H1A_vv H1B_oo H1B_vv : ℕ → ℕ → R) (shift : R) :
    ((Fin 6 → ℕ) → R) → (Fin 6 → ℕ) → R :=
  doLoop 1 noa (fun i =>
    doLoop 1 nob (fun j =>
      doLoop 1 nob (fun k =>
        doLoop 1 nua (fun a =>
          doLoop 1 nub (fun b =>
            doLoop 1 nub (fun c =>
              let denom := H1A_vv a a + H1B_vv b b + H1B_vv c c - H1A_oo i i - H1B_oo j j - H1B_oo k k
              divideAt ![a, b, c, i, j, k] (omega - denom + shift)))))))

/-- The `r3d` loop of `update_R_ccsdt`, `/repo/ccpy/lib/fortran/cc_loops2.f90:749-763`. -/
def update_R_ccsdt_r3d (noa nua nob nub : ℕ) (omega : R) (H1A_oo H1A_vv H1B_oo H1B_vv : ℕ → ℕ → R) (shift : R) :
    ((Fin 6 → ℕ) → R) → (Fin 6 → ℕ) → R :=
  doLoop 1 nob (fun i =>
    doLoop 1 nob (fun j =>
      doLoop 1 nob (fun k =>
        doLoop 1 nub (fun a =>
          doLoop 1 nub (fun b =>
            doLoop 1 nub (fun c =>
              let denom := H1B_vv a a + H1B_vv b b + H1B_vv c c - H1B_oo i i - H1B_oo j j - H1B_oo k k
              divideAt ![a, b, c, i, j, k] (omega - denom + shift)))))))

/-- `update_R_ccsdt`, `/repo/ccpy/lib/fortran/cc_loops2.f90:624-765`. -/
def update_R_ccsdt (r1a : (Fin 2 → ℕ) → R) (r1b : (Fin 2 → ℕ) → R) (r2a : (Fin 4 → ℕ) → R) (r2b : (Fin 4 → ℕ) → R) (r2c : (Fin 4 → ℕ) → R) (r3a : (Fin 6 → ℕ) → R) (r3b : (Fin 6 → ℕ) → R) (r3c : (Fin 6 → ℕ) → R) (r3d : (Fin 6 → ℕ) → R) (omega : R)
    (H1A_oo H1A_vv H1B_oo H1B_vv : ℕ → ℕ → R) (shift : R) (noa nua nob nub : ℕ) :
    ((Fin 2 → ℕ) → R) × ((Fin 2 → ℕ) → R) × ((Fin 4 → ℕ) → R) × ((Fin 4 → ℕ) → R) × ((Fin 4 → ℕ) → R) × ((Fin 6 → ℕ) → R) × ((Fin 6 → ℕ) → R) × ((Fin 6 → ℕ) → R) × ((Fin 6 → ℕ) → R) :=
  (update_R_ccsdt_r1a noa nua nob nub omega H1A_oo H1A_vv H1B_oo H1B_vv shift r1a,
   update_R_ccsdt_r1b noa nua nob nub omega H1A_oo H1A_vv H1B_oo H1B_vv shift r1b,
   update_R_ccsdt_r2a noa nua nob nub omega H1A_oo H1A_vv H1B_oo H1B_vv shift r2a,
   update_R_ccsdt_r2b noa nua nob nub omega H1A_oo H1A_vv H1B_oo H1B_vv shift r2b,
   update_R_ccsdt_r2c noa nua nob nub omega H1A_oo H1A_vv H1B_oo H1B_vv shift r2c,
   update_R_ccsdt_r3a noa nua nob nub omega H1A_oo H1A_vv H1B_oo H1B_vv shift r3a,
   update_R_ccsdt_r3b noa nua nob nub omega H1A_oo H1A_vv H1B_oo H1B_vv shift r3b,
   update_R_ccsdt_r3c noa nua nob nub omega H1A_oo H1A_vv H1B_oo H1B_vv shift r3c,
   update_R_ccsdt_r3d noa nua nob nub omega H1A_oo H1A_vv H1B_oo H1B_vv shift r3d)

/-- The `r1a` loop of `update_R_2h1p`, `/repo/ccpy/lib/fortran/cc_loops2.f90:1213-1219`. -/
def update_R_2h1p_r1a [DecidableEq R] (noa nua nob nub : ℕ) (omega : R) (H1A_oo H1A_vv H1B_oo H1B_vv : ℕ → ℕ → R) (shift : R) :
    ((Fin 1 → ℕ) → R) → (Fin 1 → ℕ) → R :=
  doLoop 1 noa (fun i =>
    let denom := omega + H1A_oo i i
    skipIf (denom = 0) (divideAt ![i] (denom)))

/-- The `r2a` loop of `update_R_2h1p`, `/repo/ccpy/lib/fortran/cc_loops2.f90:1221-1229`. -/
def update_R_2h1p_r2a (noa nua nob nub : ℕ) (omega : R) (H1A_oo H1A_vv H1B_oo H1B_vv : ℕ → ℕ → R) (shift : R) :
    ((Fin 3 → ℕ) → R) → (Fin 3 → ℕ) → R :=
  doLoop 1 noa (fun j =>
    doLoop 1 nua (fun b =>
      doLoop 1 noa (fun i =>
        skipIf (i = j) (
        let denom := omega - H1A_vv b b + H1A_oo i i + H1A_oo j j
        divideAt ![i, b, j] (denom)))))

/-- The `r2b` loop of `update_R_2h1p`, `/repo/ccpy/lib/fortran/cc_loops2.f90:1231-1238`. -/
def update_R_2h1p_r2b (noa nua nob nub : ℕ) (omega : R) (H1A_oo H1A_vv H1B_oo H1B_vv : ℕ → ℕ → R) (shift : R) :
    ((Fin 3 → ℕ) → R) → (Fin 3 → ℕ) → R :=
  doLoop 1 nob (fun j =>
    doLoop 1 nub (fun b =>
      doLoop 1 noa (fun i =>
        let denom := omega - H1B_vv b b + H1A_oo i i + H1B_oo j j
        divideAt ![i, b, j] (denom))))

/-- `update_R_2h1p`, `/repo/ccpy/lib/fortran/cc_loops2.f90:1196-1240`. -/
def update_R_2h1p [DecidableEq R] (r1a : (Fin 1 → ℕ) → R) (r2a : (Fin 3 → ℕ) → R) (r2b : (Fin 3 → ℕ) → R) (omega : R)
    (H1A_oo H1A_vv H1B_oo H1B_vv : ℕ → ℕ → R) (shift : R) (noa nua nob nub : ℕ) :
    ((Fin 1 → ℕ) → R) × ((Fin 3 → ℕ) → R) × ((Fin 3 → ℕ) → R) :=
  (update_R_2h1p_r1a noa nua nob nub omega H1A_oo H1A_vv H1B_oo H1B_vv shift r1a,
   update_R_2h1p_r2a noa nua nob nub omega H1A_oo H1A_vv H1B_oo H1B_vv shift r2a,
   update_R_2h1p_r2b noa nua nob nub omega H1A_oo H1A_vv H1B_oo H1B_vv shift r2b)

/-- The `r1a` loop of `update_R_3h2p`, `/repo/ccpy/lib/fortran/cc_loops2.f90:1271-1277`. -/
def update_R_3h2p_r1a [DecidableEq R] (noa nua nob nub : ℕ) (omega : R) (H1A_oo H1A_vv H1B_oo H1B_vv : ℕ → ℕ → R) (shift : R) :
    ((Fin 1 → ℕ) → R) → (Fin 1 → ℕ) → R :=
  doLoop 1 noa (fun i =>
    let denom := omega + H1A_oo i i
    skipIf (denom = 0) (divideAt ![i] (denom)))

/-- The `r2a` loop of `update_R_3h2p`, `/repo/ccpy/lib/fortran/cc_loops2.f90:1279-1287`. -/
def update_R_3h2p_r2a (noa nua nob nub : ℕ) (omega : R) (H1A_oo H1A_vv H1B_oo H1B_vv : ℕ → ℕ → R) (shift : R) :
    ((Fin 3 → ℕ) → R) → (Fin 3 → ℕ) → R :=
  doLoop 1 noa (fun j =>
    doLoop 1 nua (fun b =>
      doLoop 1 noa (fun i =>
        skipIf (i = j) (
        let denom := omega - H1A_vv b b + H1A_oo i i + H1A_oo j j
        divideAt ![i, b, j] (denom)))))

/-- The `r2b` loop of `update_R_3h2p`, `/repo/ccpy/lib/fortran/cc_loops2.f90:1289-1296`. -/
def update_R_3h2p_r2b (noa nua nob nub : ℕ) (omega : R) (H1A_oo H1A_vv H1B_oo H1B_vv : ℕ → ℕ → R) (shift : R) :
    ((Fin 3 → ℕ) → R) → (Fin 3 → ℕ) → R :=
  doLoop 1 nob (fun j =>
    doLoop 1 nub (fun b =>
      doLoop 1 noa (fun i =>
        let denom := omega - H1B_vv b b + H1A_oo i i + H1B_oo j j
        divideAt ![i, b, j] (denom))))

/-- The `r3a` loop of `update_R_3h2p`, `/repo/ccpy/lib/fortran/cc_loops2.f90:1298-1311`. -/
def update_R_3h2p_r3a (noa nua nob nub : ℕ) (omega : R) (H1A_oo H1A_vv H1B_oo H1B_vv : ℕ → ℕ → R) (shift : R) :
    ((Fin 5 → ℕ) → R) → (Fin 5 → ℕ) → R :=
  doLoop 1 noa (fun j =>
    doLoop 1 noa (fun k =>
      doLoop 1 noa (fun i =>
        doLoop 1 nua (fun b =>
          doLoop 1 nua (fun c =>
            skipIf (i = j ∨ i = k ∨ j = k) (
            skipIf (b = c) (
            let denom := omega - H1A_vv b b - H1A_vv c c + H1A_oo i i + H1A_oo j j + H1A_oo k k
            divideAt ![i, b, c, j, k] (denom))))))))

/-- The `r3b` loop of `update_R_3h2p`, `/repo/ccpy/lib/fortran/cc_loops2.f90:1313-1325`. -/
def update_R_3h2p_r3b (noa nua nob nub : ℕ) (omega : R) (H1A_oo H1A_vv H1B_oo H1B_vv : ℕ → ℕ → R) (shift : R) :
    ((Fin 5 → ℕ) → R) → (Fin 5 → ℕ) → R :=
  doLoop 1 noa (fun j =>
    doLoop 1 nob (fun k =>
      doLoop 1 noa (fun i =>
        doLoop 1 nua (fun b =>
          doLoop 1 nub (fun c =>
            skipIf (i = j) (
            let denom := omega - H1A_vv b b - H1B_vv c c + H1A_oo i i + H1A_oo j j + H1B_oo k k
            divideAt ![i, b, c, j, k] (denom)))))))

/-- The `r3c` loop of `update_R_3h2p`, `/repo/ccpy/lib/fortran/cc_loops2.f90:1327-1340`. -/
def update_R_3h2p_r3c (noa nua nob nub : ℕ) (omega : R) (H1A_oo H1A_vv H1B_oo H1B_vv : ℕ → ℕ → R) (shift : R) :
    ((Fin 5 → ℕ) → R) → (Fin 5 → ℕ) → R :=
  doLoop 1 nob (fun j =>
    doLoop 1 nob (fun k =>
      doLoop 1 noa (fun i =>
        doLoop 1 nub (fun b =>
          doLoop 1 nub (fun c =>
            skipIf (j = k) (
            skipIf (b = c) (
            let denom := omega - H1B_vv b b - H1B_vv c c + H1A_oo i i + H1B_oo j j + H1B_oo k k
            divideAt ![i, b, c, j, k] (denom))))))))

/-- `update_R_3h2p`, `/repo/ccpy/lib/fortran/cc_loops2.f90:1242-1342`. -/
def update_R_3h2p [DecidableEq R] (r1a : (Fin 1 → ℕ) → R) (r2a : (Fin 3 → ℕ) → R) (r2b : (Fin 3 → ℕ) → R) (r3a : (Fin 5 → ℕ) → R) (r3b : (Fin 5 → ℕ) → R) (r3c : (Fin 5 → ℕ) → R) (omega : R)
    (H1A_oo H1A_vv H1B_oo H1B_vv : ℕ → ℕ → R) (shift : R) (noa nua nob nub : ℕ) :
    ((Fin 1 → ℕ) → R) × ((Fin 3 → ℕ) → R) × ((Fin 3 → ℕ) → R) × ((Fin 5 → ℕ) → R) × ((Fin 5 → ℕ) → R) × ((Fin 5 → ℕ) → R) :=
  (update_R_3h2p_r1a noa nua nob nub omega H1A_oo H1A_vv H1B_oo H1B_vv shift r1a,
   update_R_3h2p_r2a noa nua nob nub omega H1A_oo H1A_vv H1B_oo H1B_vv shift r2a,
   update_R_3h2p_r2b noa nua nob nub omega H1A_oo H1A_vv H1B_oo H1B_vv shift r2b,
   update_R_3h2p_r3a noa nua nob nub omega H1A_oo H1A_vv H1B_oo H1B_vv shift r3a,
   update_R_3h2p_r3b noa nua nob nub omega H1A_oo H1A_vv H1B_oo H1B_vv shift r3b,
   update_R_3h2p_r3c noa nua nob nub omega H1A_oo H1A_vv H1B_oo H1B_vv shift r3c)

/-- The `r1a` loop of `update_R_2p1h`, `/repo/ccpy/lib/fortran/cc_loops2.f90:1361-1367`. -/
def update_R_2p1h_r1a [DecidableEq R] (noa nua nob nub : ℕ) (omega : R) (H1A_oo H1A_vv H1B_oo H1B_vv : ℕ → ℕ → R) (shift : R) :
    ((Fin 1 → ℕ) → R) → (Fin 1 → ℕ) → R :=
  doLoop 1 nua (fun a =>
    let denom := omega - H1A_vv a a
    skipIf (denom = 0) (divideAt ![a] (denom)))

/-- The `r2a` loop of `update_R_2p1h`, `/repo/ccpy/lib/fortran/cc_loops2.f90:1369-1377`. -/
def update_R_2p1h_r2a (noa nua nob nub : ℕ) (omega : R) (H1A_oo H1A_vv H1B_oo H1B_vv : ℕ → ℕ → R) (shift : R) :
    ((Fin 3 → ℕ) → R) → (Fin 3 → ℕ) → R :=
  doLoop 1 noa (fun j =>
    doLoop 1 nua (fun a =>
      doLoop 1 nua (fun b =>
        skipIf (a = b) (
        let denom := omega - H1A_vv a a - H1A_vv b b + H1A_oo j j
        divideAt ![a, b, j] (denom)))))

/-- The `r2b` loop of `update_R_2p1h`, `/repo/ccpy/lib/fortran/cc_loops2.f90:1379-1386`. -/
def update_R_2p1h_r2b (noa nua nob nub : ℕ) (omega : R) (H1A_oo H1A_vv H1B_oo H1B_vv : ℕ → ℕ → R) (shift : R) :
    ((Fin 3 → ℕ) → R) → (Fin 3 → ℕ) → R :=
  doLoop 1 nob (fun j =>
    doLoop 1 nua (fun a =>
      doLoop 1 nub (fun b =>
        let denom := omega - H1A_vv a a - H1B_vv b b + H1B_oo j j
        divideAt ![a, b, j] (denom))))

/-- `update_R_2p1h`, `/repo/ccpy/lib/fortran/cc_loops2.f90:1344-1389`. -/
def update_R_2p1h [DecidableEq R] (r1a : (Fin 1 → ℕ) → R) (r2a : (Fin 3 → ℕ) → R) (r2b : (Fin 3 → ℕ) → R) (omega : R)
    (H1A_oo H1A_vv H1B_oo H1B_vv : ℕ → ℕ → R) (shift : R) (noa nua nob nub : ℕ) :
    ((Fin 1 → ℕ) → R) × ((Fin 3 → ℕ) → R) × ((Fin 3 → ℕ) → R) :=
  (update_R_2p1h_r1a noa nua nob nub omega H1A_oo H1A_vv H1B_oo H1B_vv shift r1a,
   update_R_2p1h_r2a noa nua nob nub omega H1A_oo H1A_vv H1B_oo H1B_vv shift r2a,
   update_R_2p1h_r2b noa nua nob nub omega H1A_oo H1A_vv H1B_oo H1B_vv shift r2b)

/-- The `r1a` loop of `update_R_3p2h`, `/repo/ccpy/lib/fortran/cc_loops2.f90:1420-1426`. -/
def update_R_3p2h_r1a [DecidableEq R] (noa nua nob nub : ℕ) (omega : R) (H1A_oo H1A_vv H1B_oo H1B_vv : ℕ → ℕ → R) (shift : R) :
    ((Fin 1 → ℕ) → R) → (Fin 1 → ℕ) → R :=
  doLoop 1 nua (fun a =>
    let denom := omega - H1A_vv a a
    skipIf (denom = 0) (divideAt ![a] (denom)))

/-- The `r2a` loop of `update_R_3p2h`, `/repo/ccpy/lib/fortran/cc_loops2.f90:1428-1436`. -/
def update_R_3p2h_r2a (noa nua nob nub : ℕ) (omega : R) (H1A_oo H1A_vv H1B_oo H1B_vv : ℕ → ℕ → R) (shift : R) :
    ((Fin 3 → ℕ) → R) → (Fin 3 → ℕ) → R :=
  doLoop 1 noa (fun j =>
    doLoop 1 nua (fun a =>
      doLoop 1 nua (fun b =>
        skipIf (a = b) (
        let denom := omega - H1A_vv a a - H1A_vv b b + H1A_oo j j
        divideAt ![a, b, j] (denom)))))

/-- The `r2b` loop of `update_R_3p2h`, `/repo/ccpy/lib/fortran/cc_loops2.f90:1438-1445`. -/
def update_R_3p2h_r2b (noa nua nob nub : ℕ) (omega : R) (H1A_oo H1A_vv H1B_oo H1B_vv : ℕ → ℕ → R) (shift : R) :
    ((Fin 3 → ℕ) → R) → (Fin 3 → ℕ) → R :=
  doLoop 1 nob (fun j =>
    doLoop 1 nua (fun a =>
      doLoop 1 nub (fun b =>
        let denom := omega - H1A_vv a a - H1B_vv b b + H1B_oo j j
        divideAt ![a, b, j] (denom))))

/-- The `r3a` loop of `update_R_3p2h`, `/repo/ccpy/lib/fortran/cc_loops2.f90:1447-1460`. -/
def update_R_3p2h_r3a (noa nua nob nub : ℕ) (omega : R) (H1A_oo H1A_vv H1B_oo H1B_vv : ℕ → ℕ → R) (shift : R) :
    ((Fin 5 → ℕ) → R) → (Fin 5 → ℕ) → R :=
  doLoop 1 noa (fun j =>
    doLoop 1 noa (fun k =>
      doLoop 1 nua (fun a =>
        doLoop 1 nua (fun b =>
          doLoop 1 nua (fun c =>
            skipIf (j = k) (
            skipIf (a = b ∨ b = c ∨ a = c) (
            let denom := omega - H1A_vv a a - H1A_vv b b - H1A_vv c c + H1A_oo j j + H1A_oo k k
            divideAt ![a, b, c, j, k] (denom))))))))

/-- The `r3b` loop of `update_R_3p2h`, `/repo/ccpy/lib/fortran/cc_loops2.f90:1462-1474`. -/
def update_R_3p2h_r3b (noa nua nob nub : ℕ) (omega : R) (H1A_oo H1A_vv H1B_oo H1B_vv : ℕ → ℕ → R) (shift : R) :
    ((Fin 5 → ℕ) → R) → (Fin 5 → ℕ) → R :=
  doLoop 1 noa (fun j =>
    doLoop 1 nob (fun k =>
      doLoop 1 nua (fun a =>
        doLoop 1 nua (fun b =>
          doLoop 1 nub (fun c =>
            skipIf (a = b) (
            let denom := omega - H1A_vv a a - H1A_vv b b - H1B_vv c c + H1A_oo j j + H1B_oo k k
            divideAt ![a, b, c, j, k] (denom)))))))

/-- The `r3c` loop of `update_R_3p2h`, `/repo/ccpy/lib/fortran/cc_loops2.f90:1476-1489`. -/
def update_R_3p2h_r3c (noa nua nob nub : ℕ) (omega : R) (H1A_oo H1A_vv H1B_oo H1B_vv : ℕ → ℕ → R) (shift : R) :
    ((Fin 5 → ℕ) → R) → (Fin 5 → ℕ) → R :=
  doLoop 1 nob (fun j =>
    doLoop 1 nob (fun k =>
      doLoop 1 nua (fun a =>
        doLoop 1 nub (fun b =>
          doLoop 1 nub (fun c =>
            skipIf (j = k) (
            skipIf (b = c) (
            let denom := omega - H1A_vv a a - H1B_vv b b - H1B_vv c c + H1B_oo j j + H1B_oo k k
            divideAt ![a, b, c, j, k] (denom))))))))

/-- `update_R_3p2h`, `/repo/ccpy/lib/fortran/cc_loops2.f90:1391-1491`. -/
def update_R_3p2h [DecidableEq R] (r1a : (Fin 1 → ℕ) → R) (r2a : (Fin 3 → ℕ) → R) (r2b : (Fin 3 → ℕ) → R) (r3a : (Fin 5 → ℕ) → R) (r3b : (Fin 5 → ℕ) → R) (r3c : (Fin 5 → ℕ) → R) (omega : R)
    (H1A_oo H1A_vv H1B_oo H1B_vv : ℕ → ℕ → R) (shift : R) (noa nua nob nub : ℕ) :
    ((Fin 1 → ℕ) → R) × ((Fin 3 → ℕ) → R) × ((Fin 3 → ℕ) → R) × ((Fin 5 → ℕ) → R) × ((Fin 5 → ℕ) → R) × ((Fin 5 → ℕ) → R) :=
  (update_R_3p2h_r1a noa nua nob nub omega H1A_oo H1A_vv H1B_oo H1B_vv shift r1a,
   update_R_3p2h_r2a noa nua nob nub omega H1A_oo H1A_vv H1B_oo H1B_vv shift r2a,
   update_R_3p2h_r2b noa nua nob nub omega H1A_oo H1A_vv H1B_oo H1B_vv shift r2b,
   update_R_3p2h_r3a noa nua nob nub omega H1A_oo H1A_vv H1B_oo H1B_vv shift r3a,
   update_R_3p2h_r3b noa nua nob nub omega H1A_oo H1A_vv H1B_oo H1B_vv shift r3b,
   update_R_3p2h_r3c noa nua nob nub omega H1A_oo H1A_vv H1B_oo H1B_vv shift r3c)

/-- The `r1b` loop of `update_R_sfccsd`, `/repo/ccpy/lib/fortran/cc_loops2.f90:1569-1574`. -/
def update_R_sfccsd_r1b (noa nua nob nub : ℕ) (omega : R) (H1A_oo H1A_vv H1B_oo H1B_vv : ℕ → ℕ → R) (shift : R) :
    ((Fin 2 → ℕ) → R) → (Fin 2 → ℕ) → R :=
  doLoop 1 noa (fun i =>
    doLoop 1 nub (fun a =>
      let denom := H1B_vv a a - H1A_oo i i
      divideAt ![a, i] (omega - denom + shift)))

/-- The `r2b` loop of `update_R_sfccsd`, `/repo/ccpy/lib/fortran/cc_loops2.f90:1575-1584`. -/
def update_R_sfccsd_r2b (noa nua nob nub : ℕ) (omega : R) (H1A_oo H1A_vv H1B_oo H1B_vv : ℕ → ℕ → R) (shift : R) :
    ((Fin 4 → ℕ) → R) → (Fin 4 → ℕ) → R :=
  doLoop 1 noa (fun i =>
    doLoop 1 noa (fun j =>
      doLoop 1 nua (fun a =>
        doLoop 1 nub (fun b =>
          let denom := H1B_vv b b + H1A_vv a a - H1A_oo i i - H1A_oo j j
          divideAt ![a, b, i, j] (omega - denom + shift)))))

/-- The `r2c` loop of `update_R_sfccsd`, `/repo/ccpy/lib/fortran/cc_loops2.f90:1585-1594`. -/
def update_R_sfccsd_r2c (noa nua nob nub : ℕ) (omega : R) (H1A_oo H1A_vv H1B_oo H1B_vv : ℕ → ℕ → R) (shift : R) :
    ((Fin 4 → ℕ) → R) → (Fin 4 → ℕ) → R :=
  doLoop 1 nob (fun i =>
    doLoop 1 noa (fun j =>
      doLoop 1 nub (fun a =>
        doLoop 1 nub (fun b =>
          let denom := H1B_vv b b + H1B_vv a a - H1B_oo i i - H1A_oo j j
          divideAt ![a, b, i, j] (omega - denom + shift)))))

/-- `update_R_sfccsd`, `/repo/ccpy/lib/fortran/cc_loops2.f90:1554-1595`. -/
def update_R_sfccsd (r1b : (Fin 2 → ℕ) → R) (r2b : (Fin 4 → ℕ) → R) (r2c : (Fin 4 → ℕ) → R) (omega : R)
    (H1A_oo H1A_vv H1B_oo H1B_vv : ℕ → ℕ → R) (shift : R) (noa nua nob nub : ℕ) :
    ((Fin 2 → ℕ) → R) × ((Fin 4 → ℕ) → R) × ((Fin 4 → ℕ) → R) :=
  (update_R_sfccsd_r1b noa nua nob nub omega H1A_oo H1A_vv H1B_oo H1B_vv shift r1b,
   update_R_sfccsd_r2b noa nua nob nub omega H1A_oo H1A_vv H1B_oo H1B_vv shift r2b,
   update_R_sfccsd_r2c noa nua nob nub omega H1A_oo H1A_vv H1B_oo H1B_vv shift r2c)

/-- The `r1b` loop of `update_R_sfccsdt`, `/repo/ccpy/lib/fortran/cc_loops2.f90:1619-1624`. -/
def update_R_sfccsdt_r1b (noa nua nob nub : ℕ) (omega : R) (H1A_oo H1A_vv H1B_oo H1B_vv : ℕ → ℕ → R) (shift : R) :
    ((Fin 2 → ℕ) → R) → (Fin 2 → ℕ) → R :=
  doLoop 1 noa (fun i =>
    doLoop 1 nub (fun a =>
      let denom := H1B_vv a a - H1A_oo i i
      divideAt ![a, i] (omega - denom + shift)))

/-- The `r2b` loop of `update_R_sfccsdt`, `/repo/ccpy/lib/fortran/cc_loops2.f90:1625-1634`. -/
def update_R_sfccsdt_r2b (noa nua nob nub : ℕ) (omega : R) (H1A_oo H1A_vv H1B_oo H1B_vv : ℕ → ℕ → R) (shift : R) :
    ((Fin 4 → ℕ) → R) → (Fin 4 → ℕ) → R :=
  doLoop 1 noa (fun i =>
    doLoop 1 noa (fun j =>
      doLoop 1 nua (fun a =>
        doLoop 1 nub (fun b =>
          let denom := H1B_vv b b + H1A_vv a a - H1A_oo i i - H1A_oo j j
          divideAt ![a, b, i, j] (omega - denom + shift)))))

/-- The `r2c` loop of `update_R_sfccsdt`, `/repo/ccpy/lib/fortran/cc_loops2.f90:1635-1644`. -/
def update_R_sfccsdt_r2c (noa nua nob nub : ℕ) (omega : R) (H1A_oo H1A_vv H1B_oo H1B_vv : ℕ → ℕ → R) (shift : R) :
    ((Fin 4 → ℕ) → R) → (Fin 4 → ℕ) → R :=
  doLoop 1 nob (fun i =>
    doLoop 1 noa (fun j =>
      doLoop 1 nub (fun a =>
        doLoop 1 nub (fun b =>
          let denom := H1B_vv b b + H1B_vv a a - H1B_oo i i - H1A_oo j j
          divideAt ![a, b, i, j] (omega - denom + shift)))))

/-- The `r3b` loop of `update_R_sfccsdt`, `/repo/ccpy/lib/fortran/cc_loops2.f90:1645-1658`. -/
def update_R_sfccsdt_r3b (noa nua nob nub : ℕ) (omega : R) (H1A_oo H1A_vv H1B_oo H1B_vv : ℕ → ℕ → R) (shift : R) :
    ((Fin 6 → ℕ) → R) → (Fin 6 → ℕ) → R :=
  doLoop 1 noa (fun i =>
    doLoop 1 noa (fun j =>
      doLoop 1 noa (fun k =>
        doLoop 1 nua (fun a =>
          doLoop 1 nua (fun b =>
            doLoop 1 nub (fun c =>
              let denom := H1B_vv c c + H1A_vv a a + H1A_vv b b - H1A_oo i i - H1A_oo j j - H1A_oo k k
              divideAt ![a, b, c, i, j, k] (omega - denom + shift)))))))

/-- The `r3c` loop of `update_R_sfccsdt`, `/repo/ccpy/lib/fortran/cc_loops2.f90:1659-1672`. -/
def update_R_sfccsdt_r3c (noa nua nob nub : ℕ) (omega : R) (H1A_oo H1A_vv H1B_oo H1B_vv : ℕ → ℕ → R) (shift : R) :
    ((Fin 6 → ℕ) → R) → (Fin 6 → ℕ) → R :=
  doLoop 1 noa (fun i =>
    doLoop 1 nob (fun j =>
      doLoop 1 noa (fun k =>
        doLoop 1 nua (fun a =>
          doLoop 1 nub (fun b =>
            doLoop 1 nub (fun c =>
              let denom := H1B_vv c c + H1A_vv a a + H1B_vv b b - H1A_oo i i - H1B_oo j j - H1A_oo k k
              divideAt ![a, b, c, i, j, k] (omega - denom + shift)))))))

/-- The `r3d` loop of `update_R_sfccsdt`, `/repo/ccpy/lib/fortran/cc_loops2.f90:1673-1686`. -/
def update_R_sfccsdt_r3d (noa nua nob nub : ℕ) (omega : R) (H1A_oo H1A_vv H1B_oo H1B_vv : ℕ → ℕ → R) (shift : R) :
    ((Fin 6 → ℕ) → R) → (Fin 6 → ℕ) → R :=
  doLoop 1 nob (fun i =>
    doLoop 1 nob (fun j =>
      doLoop 1 noa (fun k =>
        doLoop 1 nub (fun a =>
          doLoop 1 nub (fun b =>
            doLoop 1 nub (fun c =>
              let denom := H1B_vv c c + H1B_vv a a + H1B_vv b b - H1B_oo i i - H1B_oo j j - H1A_oo k k
              divideAt ![a, b, c, i, j, k] (omega - denom + shift)))))))

/-- `update_R_sfccsdt`, `/repo/ccpy/lib/fortran/cc_loops2.f90:1597-1687`. -/
def update_R_sfccsdt (r1b : (Fin 2 → ℕ) → R) (r2b : (Fin 4 → ℕ) → R) (r2c : (Fin 4 → ℕ) → R) (r3b : (Fin 6 → ℕ) → R) (r3c : (Fin 6 → ℕ) → R) (r3d : (Fin 6 → ℕ) → R) (omega : R)
    (H1A_oo H1A_vv H1B_oo H1B_vv : ℕ → ℕ → R) (shift : R) (noa nua nob nub : ℕ) :
    ((Fin 2 → ℕ) → R) × ((Fin 4 → ℕ) → R) × ((Fin 4 → ℕ) → R) × ((Fin 6 → ℕ) → R) × ((Fin 6 → ℕ) → R) × ((Fin 6 → ℕ) → R) :=
  (update_R_sfccsdt_r1b noa nua nob nub omega H1A_oo H1A_vv H1B_oo H1B_vv shift r1b,
   update_R_sfccsdt_r2b noa nua nob nub omega H1A_oo H1A_vv H1B_oo H1B_vv shift r2b,
   update_R_sfccsdt_r2c noa nua nob nub omega H1A_oo H1A_vv H1B_oo H1B_vv shift r2c,
   update_R_sfccsdt_r3b noa nua nob nub omega H1A_oo H1A_vv H1B_oo H1B_vv shift r3b,
   update_R_sfccsdt_r3c noa nua nob nub omega H1A_oo H1A_vv H1B_oo H1B_vv shift r3c,
   update_R_sfccsdt_r3d noa nua nob nub omega H1A_oo H1A_vv H1B_oo H1B_vv shift r3d)

/-- The `r2b` loop of `update_R_2p`, `/repo/ccpy/lib/fortran/cc_loops2.f90:1701-1704`. -/
def update_R_2p_r2b (noa nua nob nub : ℕ) (omega : R) (H1A_oo H1A_vv H1B_oo H1B_vv : ℕ → ℕ → R) (shift : R) :
    ((Fin 2 → ℕ) → R) → (Fin 2 → ℕ) → R :=
  doLoop 1 nua (fun a =>
    doLoop 1 nub (fun b =>
      let denom := H1A_vv a a + H1B_vv b b
      divideAt ![a, b] (omega - denom)))

/-- `update_R_2p`, `/repo/ccpy/lib/fortran/cc_loops2.f90:1689-1706`. -/
def update_R_2p (r2b : (Fin 2 → ℕ) → R) (omega : R)
    (H1A_oo H1A_vv H1B_oo H1B_vv : ℕ → ℕ → R) (shift : R) (noa nua nob nub : ℕ) :
    ((Fin 2 → ℕ) → R) :=
  (update_R_2p_r2b noa nua nob nub omega H1A_oo H1A_vv H1B_oo H1B_vv shift r2b)

/-- The `r2b` loop of `update_R_3p1h`, `/repo/ccpy/lib/fortran/cc_loops2.f90:1723-1726`. -/
def update_R_3p1h_r2b (noa nua nob nub : ℕ) (omega : R) (H1A_oo H1A_vv H1B_oo H1B_vv : ℕ → ℕ → R) (shift : R) :
    ((Fin 2 → ℕ) → R) → (Fin 2 → ℕ) → R :=
  doLoop 1 nua (fun a =>
    doLoop 1 nub (fun b =>
      let denom := H1A_vv a a + H1B_vv b b
      divideAt ![a, b] (omega - denom)))

/-- The `r3b` loop of `update_R_3p1h`, `/repo/ccpy/lib/fortran/cc_loops2.f90:1728-1732`. -/
def update_R_3p1h_r3b (noa nua nob nub : ℕ) (omega : R) (H1A_oo H1A_vv H1B_oo H1B_vv : ℕ → ℕ → R) (shift : R) :
    ((Fin 4 → ℕ) → R) → (Fin 4 → ℕ) → R :=
  doLoop 1 nua (fun a =>
    doLoop 1 nub (fun b =>
      doLoop 1 nua (fun c =>
        doLoop 1 noa (fun k =>
          skipIf (a = c) (
          let denom := H1A_vv a a + H1B_vv b b + H1A_vv c c - H1A_oo k k
          divideAt ![a, b, c, k] (omega - denom))))))

/-- The `r3c` loop of `update_R_3p1h`, `/repo/ccpy/lib/fortran/cc_loops2.f90:1734-1738`. -/
def update_R_3p1h_r3c (noa nua nob nub : ℕ) (omega : R) (H1A_oo H1A_vv H1B_oo H1B_vv : ℕ → ℕ → R) (shift : R) :
    ((Fin 4 → ℕ) → R) → (Fin 4 → ℕ) → R :=
  doLoop 1 nua (fun a =>
    doLoop 1 nub (fun b =>
      doLoop 1 nub (fun c =>
        doLoop 1 nob (fun k =>
          skipIf (b = c) (
          let denom := H1A_vv a a + H1B_vv b b + H1B_vv c c - H1B_oo k k
          divideAt ![a, b, c, k] (omega - denom))))))

/-- `update_R_3p1h`, `/repo/ccpy/lib/fortran/cc_loops2.f90:1708-1740`. -/
def update_R_3p1h (r2b : (Fin 2 → ℕ) → R) (r3b : (Fin 4 → ℕ) → R) (r3c : (Fin 4 → ℕ) → R) (omega : R)
    (H1A_oo H1A_vv H1B_oo H1B_vv : ℕ → ℕ → R) (shift : R) (noa nua nob nub : ℕ) :
    ((Fin 2 → ℕ) → R) × ((Fin 4 → ℕ) → R) × ((Fin 4 → ℕ) → R) :=
  (update_R_3p1h_r2b noa nua nob nub omega H1A_oo H1A_vv H1B_oo H1B_vv shift r2b,
   update_R_3p1h_r3b noa nua nob nub omega H1A_oo H1A_vv H1B_oo H1B_vv shift r3b,
   update_R_3p1h_r3c noa nua nob nub omega H1A_oo H1A_vv H1B_oo H1B_vv shift r3c)

/-- The `r2b` loop of `update_R_4p2h`, `/repo/ccpy/lib/fortran/cc_loops2.f90:1763-1766`. -/
def update_R_4p2h_r2b (noa nua nob nub : ℕ) (omega : R) (H1A_oo H1A_vv H1B_oo H1B_vv : ℕ → ℕ → R) (shift : R) :
    ((Fin 2 → ℕ) → R) → (Fin 2 → ℕ) → R :=
  doLoop 1 nua (fun a =>
    doLoop 1 nub (fun b =>
      let denom := H1A_vv a a + H1B_vv b b
      divideAt ![a, b] (omega - denom)))

/-- The `r3b` loop of `update_R_4p2h`, `/repo/ccpy/lib/fortran/cc_loops2.f90:1768-1772`. -/
def update_R_4p2h_r3b (noa nua nob nub : ℕ) (omega : R) (H1A_oo H1A_vv H1B_oo H1B_vv : ℕ → ℕ → R) (shift : R) :
    ((Fin 4 → ℕ) → R) → (Fin 4 → ℕ) → R :=
  doLoop 1 nua (fun a =>
    doLoop 1 nub (fun b =>
      doLoop 1 nua (fun c =>
        doLoop 1 noa (fun k =>
          skipIf (a = c) (
          let denom := H1A_vv a a + H1B_vv b b + H1A_vv c c - H1A_oo k k
          divideAt ![a, b, c, k] (omega - denom))))))

/-- The `r3c` loop of `update_R_4p2h`, `/repo/ccpy/lib/fortran/cc_loops2.f90:1774-1778`. -/
def update_R_4p2h_r3c (noa nua nob nub : ℕ) (omega : R) (H1A_oo H1A_vv H1B_oo H1B_vv : ℕ → ℕ → R) (shift : R) :
    ((Fin 4 → ℕ) → R) → (Fin 4 → ℕ) → R :=
  doLoop 1 nua (fun a =>
    doLoop 1 nub (fun b =>
      doLoop 1 nub (fun c =>
        doLoop 1 nob (fun k =>
          skipIf (b = c) (
          let denom := H1A_vv a a + H1B_vv b b + H1B_vv c c - H1B_oo k k
          divideAt ![a, b, c, k] (omega - denom))))))

/-- The `r4b` loop of `update_R_4p2h`, `/repo/ccpy/lib/fortran/cc_loops2.f90:1780-1787`. -/
def update_R_4p2h_r4b (noa nua nob nub : ℕ) (omega : R) (H1A_oo H1A_vv H1B_oo H1B_vv : ℕ → ℕ → R) (shift : R) :
    ((Fin 6 → ℕ) → R) → (Fin 6 → ℕ) → R :=
  doLoop 1 noa (fun k =>
    doLoop 1 noa (fun l =>
      skipIf (k = l) (
      doLoop 1 nua (fun a =>
        doLoop 1 nub (fun b =>
          doLoop 1 nua (fun c =>
            doLoop 1 nua (fun d =>
              skipIf (a = c ∨ a = d ∨ c = d) (
              let denom := H1A_vv a a + H1B_vv b b + H1A_vv c c + H1A_vv d d - H1A_oo k k - H1A_oo l l
              divideAt ![a, b, c, d, k, l] (omega - denom)))))))))

/-- The `r4c` loop of `update_R_4p2h`, `/repo/ccpy/lib/fortran/cc_loops2.f90:1789-1793`. -/
def update_R_4p2h_r4c (noa nua nob nub : ℕ) (omega : R) (H1A_oo H1A_vv H1B_oo H1B_vv : ℕ → ℕ → R) (shift : R) :
    ((Fin 6 → ℕ) → R) → (Fin 6 → ℕ) → R :=
  doLoop 1 nua (fun a =>
    doLoop 1 nub (fun b =>
      doLoop 1 nua (fun c =>
        doLoop 1 nub (fun d =>
          doLoop 1 noa (fun k =>
            doLoop 1 nob (fun l =>
              skipIf (a = c ∨ b = d) (
              let denom := H1A_vv a a + H1B_vv b b + H1A_vv c c + H1B_vv d d - H1A_oo k k - H1B_oo l l
              divideAt ![a, b, c, d, k, l] (omega - denom))))))))

/-- The `r4d` loop of `update_R_4p2h`, `/repo/ccpy/lib/fortran/cc_loops2.f90:1795-1802`. -/
def update_R_4p2h_r4d (noa nua nob nub : ℕ) (omega : R) (H1A_oo H1A_vv H1B_oo H1B_vv : ℕ → ℕ → R) (shift : R) :
    ((Fin 6 → ℕ) → R) → (Fin 6 → ℕ) → R :=
  doLoop 1 nob (fun k =>
    doLoop 1 nob (fun l =>
      skipIf (k = l) (
      doLoop 1 nua (fun a =>
        doLoop 1 nub (fun b =>
          doLoop 1 nub (fun c =>
            doLoop 1 nub (fun d =>
              skipIf (b = c ∨ b = d ∨ c = d) (
              let denom := H1A_vv a a + H1B_vv b b + H1B_vv c c + H1B_vv d d - H1B_oo k k - H1B_oo l l
              divideAt ![a, b, c, d, k, l] (omega - denom)))))))))

/-- `update_R_4p2h`, `/repo/ccpy/lib/fortran/cc_loops2.f90:1742-1804`. -/
def update_R_4p2h (r2b : (Fin 2 → ℕ) → R) (r3b : (Fin 4 → ℕ) → R) (r3c : (Fin 4 → ℕ) → R) (r4b : (Fin 6 → ℕ) → R) (r4c : (Fin 6 → ℕ) → R) (r4d : (Fin 6 → ℕ) → R) (omega : R)
    (H1A_oo H1A_vv H1B_oo H1B_vv : ℕ → ℕ → R) (shift : R) (noa nua nob nub : ℕ) :
    ((Fin 2 → ℕ) → R) × ((Fin 4 → ℕ) → R) × ((Fin 4 → ℕ) → R) × ((Fin 6 → ℕ) → R) × ((Fin 6 → ℕ) → R) × ((Fin 6 → ℕ) → R) :=
  (update_R_4p2h_r2b noa nua nob nub omega H1A_oo H1A_vv H1B_oo H1B_vv shift r2b,
   update_R_4p2h_r3b noa nua nob nub omega H1A_oo H1A_vv H1B_oo H1B_vv shift r3b,
   update_R_4p2h_r3c noa nua nob nub omega H1A_oo H1A_vv H1B_oo H1B_vv shift r3c,
   update_R_4p2h_r4b noa nua nob nub omega H1A_oo H1A_vv H1B_oo H1B_vv shift r4b,
   update_R_4p2h_r4c noa nua nob nub omega H1A_oo H1A_vv H1B_oo H1B_vv shift r4c,
   update_R_4p2h_r4d noa nua nob nub omega H1A_oo H1A_vv H1B_oo H1B_vv shift r4d)

/-- The `r2b` loop of `update_R_3h1p`, `/repo/ccpy/lib/fortran/cc_loops2.f90:1821-1824`. -/
def update_R_3h1p_r2b (noa nua nob nub : ℕ) (omega : R) (H1A_oo H1A_vv H1B_oo H1B_vv : ℕ → ℕ → R) (shift : R) :
    ((Fin 2 → ℕ) → R) → (Fin 2 → ℕ) → R :=
  doLoop 1 noa (fun i =>
    doLoop 1 nob (fun j =>
      let denom := -H1A_oo i i - H1B_oo j j
      divideAt ![i, j] (omega - denom)))

/-- The `r3b` loop of `update_R_3h1p`, `/repo/ccpy/lib/fortran/cc_loops2.f90:1826-1830`. -/
def update_R_3h1p_r3b (noa nua nob nub : ℕ) (omega : R) (H1A_oo H1A_vv H1B_oo H1B_vv : ℕ → ℕ → R) (shift : R) :
    ((Fin 4 → ℕ) → R) → (Fin 4 → ℕ) → R :=
  doLoop 1 noa (fun i =>
    doLoop 1 nob (fun j =>
      doLoop 1 nua (fun c =>
        doLoop 1 noa (fun k =>
          skipIf (i = k) (
          let denom := -H1A_oo i i - H1B_oo j j + H1A_vv c c - H1A_oo k k
          divideAt ![i, j, c, k] (omega - denom))))))

/-- The `r3c` loop of `update_R_3h1p`, `/repo/ccpy/lib/fortran/cc_loops2.f90:1832-1836`. -/
def update_R_3h1p_r3c (noa nua nob nub : ℕ) (omega : R) (H1A_oo H1A_vv H1B_oo H1B_vv : ℕ → ℕ → R) (shift : R) :
    ((Fin 4 → ℕ) → R) → (Fin 4 → ℕ) → R :=
  doLoop 1 noa (fun i =>
    doLoop 1 nob (fun j =>
      doLoop 1 nub (fun c =>
        doLoop 1 nob (fun k =>
          skipIf (j = k) (
          let denom := -H1A_oo i i - H1B_oo j j + H1B_vv c c - H1B_oo k k
          divideAt ![i, j, c, k] (omega - denom))))))

/-- `update_R_3h1p`, `/repo/ccpy/lib/fortran/cc_loops2.f90:1806-1838`. -/
def update_R_3h1p (r2b : (Fin 2 → ℕ) → R) (r3b : (Fin 4 → ℕ) → R) (r3c : (Fin 4 → ℕ) → R) (omega : R)
    (H1A_oo H1A_vv H1B_oo H1B_vv : ℕ → ℕ → R) (shift : R) (noa nua nob nub : ℕ) :
    ((Fin 2 → ℕ) → R) × ((Fin 4 → ℕ) → R) × ((Fin 4 → ℕ) → R) :=
  (update_R_3h1p_r2b noa nua nob nub omega H1A_oo H1A_vv H1B_oo H1B_vv shift r2b,
   update_R_3h1p_r3b noa nua nob nub omega H1A_oo H1A_vv H1B_oo H1B_vv shift r3b,
   update_R_3h1p_r3c noa nua nob nub omega H1A_oo H1A_vv H1B_oo H1B_vv shift r3c)

/-- The `r2b` loop of `update_R_4h2p`, `/repo/ccpy/lib/fortran/cc_loops2.f90:1861-1864`. -/
def update_R_4h2p_r2b (noa nua nob nub : ℕ) (omega : R) (H1A_oo H1A_vv H1B_oo H1B_vv : ℕ → ℕ → R) (shift : R) :
    ((Fin 2 → ℕ) → R) → (Fin 2 → ℕ) → R :=
  doLoop 1 noa (fun i =>
    doLoop 1 nob (fun j =>
      let denom := -H1A_oo i i - H1B_oo j j
      divideAt ![i, j] (omega - denom)))

/-- The `r3b` loop of `update_R_4h2p`, `/repo/ccpy/lib/fortran/cc_loops2.f90:1866-1870`. -/
def update_R_4h2p_r3b (noa nua nob nub : ℕ) (omega : R) (H1A_oo H1A_vv H1B_oo H1B_vv : ℕ → ℕ → R) (shift : R) :
    ((Fin 4 → ℕ) → R) → (Fin 4 → ℕ) → R :=
  doLoop 1 noa (fun i =>
    doLoop 1 nob (fun j =>
      doLoop 1 nua (fun c =>
        doLoop 1 noa (fun k =>
          skipIf (i = k) (
          let denom := -H1A_oo i i - H1B_oo j j + H1A_vv c c - H1A_oo k k
          divideAt ![i, j, c, k] (omega - denom))))))

/-- The `r3c` loop of `update_R_4h2p`, `/repo/ccpy/lib/fortran/cc_loops2.f90:1872-1876`. -/
def update_R_4h2p_r3c (noa nua nob nub : ℕ) (omega : R) (H1A_oo H1A_vv H1B_oo H1B_vv : ℕ → ℕ → R) (shift : R) :
    ((Fin 4 → ℕ) → R) → (Fin 4 → ℕ) → R :=
  doLoop 1 noa (fun i =>
    doLoop 1 nob (fun j =>
      doLoop 1 nub (fun c =>
        doLoop 1 nob (fun k =>
          skipIf (j = k) (
          let denom := -H1A_oo i i - H1B_oo j j + H1B_vv c c - H1B_oo k k
          divideAt ![i, j, c, k] (omega - denom))))))

/-- The `r4b` loop of `update_R_4h2p`, `/repo/ccpy/lib/fortran/cc_loops2.f90:1878-1885`. -/
def update_R_4h2p_r4b (noa nua nob nub : ℕ) (omega : R) (H1A_oo H1A_vv H1B_oo H1B_vv : ℕ → ℕ → R) (shift : R) :
    ((Fin 6 → ℕ) → R) → (Fin 6 → ℕ) → R :=
  doLoop 1 nua (fun c =>
    doLoop 1 nua (fun d =>
      skipIf (c = d) (
      doLoop 1 noa (fun i =>
        doLoop 1 nob (fun j =>
          doLoop 1 noa (fun k =>
            doLoop 1 noa (fun l =>
              skipIf (i = k ∨ i = l ∨ k = l) (
              let denom := -H1A_oo i i - H1B_oo j j - H1A_oo k k - H1A_oo l l + H1A_vv c c + H1A_vv d d
              divideAt ![i, j, c, d, k, l] (omega - denom)))))))))

/-- The `r4c` loop of `update_R_4h2p`, `/repo/ccpy/lib/fortran/cc_loops2.f90:1887-1891`. -/
def update_R_4h2p_r4c (noa nua nob nub : ℕ) (omega : R) (H1A_oo H1A_vv H1B_oo H1B_vv : ℕ → ℕ → R) (shift : R) :
    ((Fin 6 → ℕ) → R) → (Fin 6 → ℕ) → R :=
  doLoop 1 noa (fun i =>
    doLoop 1 nob (fun j =>
      doLoop 1 nua (fun c =>
        doLoop 1 nub (fun d =>
          doLoop 1 noa (fun k =>
            doLoop 1 nob (fun l =>
              skipIf (i = k ∨ j = l) (
              let denom := -H1A_oo i i - H1B_oo j j + H1A_vv c c + H1B_vv d d - H1A_oo k k - H1B_oo l l
              divideAt ![i, j, c, d, k, l] (omega - denom))))))))

/-- The `r4d` loop of `update_R_4h2p`, `/repo/ccpy/lib/fortran/cc_loops2.f90:1893-1900`. -/
def update_R_4h2p_r4d (noa nua nob nub : ℕ) (omega : R) (H1A_oo H1A_vv H1B_oo H1B_vv : ℕ → ℕ → R) (shift : R) :
    ((Fin 6 → ℕ) → R) → (Fin 6 → ℕ) → R :=
  doLoop 1 nub (fun c =>
    doLoop 1 nub (fun d =>
      skipIf (c = d) (
      doLoop 1 noa (fun i =>
        doLoop 1 nob (fun j =>
          doLoop 1 nob (fun k =>
            doLoop 1 nob (fun l =>
              skipIf (j = k ∨ j = l ∨ k = l) (
              let denom := -H1A_oo i i - H1B_oo j j - H1B_oo k k - H1B_oo l l + H1B_vv c c + H1B_vv d d
              divideAt ![i, j, c, d, k, l] (omega - denom)))))))))

/-- `update_R_4h2p`, `/repo/ccpy/lib/fortran/cc_loops2.f90:1840-1902`. -/
def update_R_4h2p (r2b : (Fin 2 → ℕ) → R) (r3b : (Fin 4 → ℕ) → R) (r3c : (Fin 4 → ℕ) → R) (r4b : (Fin 6 → ℕ) → R) (r4c : (Fin 6 → ℕ) → R) (r4d : (Fin 6 → ℕ) → R) (omega : R)
    (H1A_oo H1A_vv H1B_oo H1B_vv : ℕ → ℕ → R) (shift : R) (noa nua nob nub : ℕ) :
    ((Fin 2 → ℕ) → R) × ((Fin 4 → ℕ) → R) × ((Fin 4 → ℕ) → R) × ((Fin 6 → ℕ) → R) × ((Fin 6 → ℕ) → R) × ((Fin 6 → ℕ) → R) :=
  (update_R_4h2p_r2b noa nua nob nub omega H1A_oo H1A_vv H1B_oo H1B_vv shift r2b,
   update_R_4h2p_r3b noa nua nob nub omega H1A_oo H1A_vv H1B_oo H1B_vv shift r3b,
   update_R_4h2p_r3c noa nua nob nub omega H1A_oo H1A_vv H1B_oo H1B_vv shift r3c,
   update_R_4h2p_r4b noa nua nob nub omega H1A_oo H1A_vv H1B_oo H1B_vv shift r4b,
   update_R_4h2p_r4c noa nua nob nub omega H1A_oo H1A_vv H1B_oo H1B_vv shift r4c,
   update_R_4h2p_r4d noa nua nob nub omega H1A_oo H1A_vv H1B_oo H1B_vv shift r4d)

end Ccpy.Precondition
