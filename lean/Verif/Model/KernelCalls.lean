import Verif.Model.TensorArrays
import Verif.Model.UpdateKernels
import Mathlib.Algebra.Field.Rat

/-! The calls of the Fortran update kernels from Python: arrays are functions of 0-based index lists on the Python side and of
1-based keys in the kernels. -/

namespace Ccpy.Tensor
open Ccpy.UpdateKernels Ccpy.Writes

/-- What an amplitude program is given: `n` orbitals with `na` and `nb` occupied ones, the stored Hamiltonian and the level
shift. -/
structure Setup where
  (n na nb : ℕ)
  f : Integrals.OneBody ℚ
  v : Integrals.TwoBody ℚ
  shift : ℚ

/-- The arrays in memory, by name. -/
abbrev Memory := ℕ → List ℕ → ℚ

/-- `numpy` evaluates an expression. -/
def Setup.eval (s : Setup) (m : Memory) (x : Ex) : List ℕ → ℚ :=
  x.denote (dims s.n s.na s.nb) (elements s.na s.nb s.f s.v m)

/-- `H.a.oo`, `H.a.vv`, `H.b.oo`, `H.b.vv` as the kernels see them, with 1-based indices. -/
def Setup.foo (s : Setup) (i j : ℕ) : ℚ := s.f.a (i - 1) (j - 1)
def Setup.fvv (s : Setup) (a b : ℕ) : ℚ := s.f.a (s.na + (a - 1)) (s.na + (b - 1))
def Setup.goo (s : Setup) (i j : ℕ) : ℚ := s.f.b (i - 1) (j - 1)
def Setup.gvv (s : Setup) (a b : ℕ) : ℚ := s.f.b (s.nb + (a - 1)) (s.nb + (b - 1))

/-- An array as a kernel sees it. -/
def seen1 (x : List ℕ → ℚ) (k : Key1) : ℚ := x [k.1 0 - 1, k.2 0 - 1]
def seen2 (x : List ℕ → ℚ) (k : Key2) : ℚ := x [k.1 0 - 1, k.1 1 - 1, k.2 0 - 1, k.2 1 - 1]

/-- A result of a kernel as Python sees it; `t` has the elements outside of the array. -/
def back1 (t : List ℕ → ℚ) (r : Key1 → ℚ) : List ℕ → ℚ
  | [a, i] => r (![a + 1], ![i + 1])
  | l => t l
def back2 (t : List ℕ → ℚ) (r : Key2 → ℚ) : List ℕ → ℚ
  | [a, b, i, j] => r (![a + 1, b + 1], ![i + 1, j + 1])
  | l => t l

/-- `T.a, dT.a = cc_loops2.update_t1a(T.a, X, H.a.oo, H.a.vv, shift)`, as in `/repo/ccpy/cc/ccsd.py:50-52`. -/
def callT1a (s : Setup) (X t : List ℕ → ℚ) : (List ℕ → ℚ) × (List ℕ → ℚ) :=
  let r := updateT1a s.na (s.n - s.na) s.foo s.fvv s.shift (seen1 X) (seen1 t)
  (back1 t r.1, back1 (fun _ => 0) r.2)
/-- `cc_loops2.update_t1b`, as in `/repo/ccpy/cc/ccsd.py:71-73`. -/
def callT1b (s : Setup) (X t : List ℕ → ℚ) : (List ℕ → ℚ) × (List ℕ → ℚ) :=
  let r := updateT1b s.nb (s.n - s.nb) s.goo s.gvv s.shift (seen1 X) (seen1 t)
  (back1 t r.1, back1 (fun _ => 0) r.2)
/-- `cc_loops2.update_t2a`, as in `/repo/ccpy/cc/ccsd.py:103-105`. -/
def callT2a (s : Setup) (X t : List ℕ → ℚ) : (List ℕ → ℚ) × (List ℕ → ℚ) :=
  let r := updateT2a s.na (s.n - s.na) s.foo s.fvv s.shift (seen2 X) (seen2 t)
  (back2 t r.1, back2 (fun _ => 0) r.2)
/-- `cc_loops2.update_t2b`, as in `/repo/ccpy/cc/ccsd.py:148-150`. -/
def callT2b (s : Setup) (X t : List ℕ → ℚ) : (List ℕ → ℚ) × (List ℕ → ℚ) :=
  let r := updateT2b s.na (s.n - s.na) s.nb (s.n - s.nb) s.foo s.fvv s.goo s.gvv s.shift (seen2 X) (seen2 t)
  (back2 t r.1, back2 (fun _ => 0) r.2)
/-- `cc_loops2.update_t2c`, as in `/repo/ccpy/cc/ccsd.py:180-182`. -/
def callT2c (s : Setup) (X t : List ℕ → ℚ) : (List ℕ → ℚ) × (List ℕ → ℚ) :=
  let r := updateT2c s.nb (s.n - s.nb) s.goo s.gvv s.shift (seen2 X) (seen2 t)
  (back2 t r.1, back2 (fun _ => 0) r.2)

/-- A kernel call stores the new amplitudes under the name `k` and the increments under the name `k + 5`. -/
def Memory.store (m : Memory) (k : ℕ) (r : (List ℕ → ℚ) × (List ℕ → ℚ)) : Memory :=
  Function.update (Function.update m k r.1) (k + 5) r.2

end Ccpy.Tensor
