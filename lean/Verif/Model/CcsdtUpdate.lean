import Verif.Model.Ccsdt
import Verif.Model.HbarCcs
import Verif.Model.KernelCalls

/-! One iteration of the CCSDT program, `/repo/ccpy/cc/ccsdt.py:11-51`.

Arrays that are overwritten get a new name, so that an expression formed earlier keeps its value: the amplitudes are the
arrays 6 to 10 and 106 to 109 before and 11 to 15 and 110 to 113 after the iteration; the arrays 16 to 20 and 114 to 117 are the
increments `dT`. -/

namespace Ccpy.Tensor
open Ccpy.UpdateKernels Ccpy.Writes

/-- An array as a kernel sees it. -/
def seen3 (x : List ℕ → ℚ) (k : Key3) : ℚ := x [k.1 0 - 1, k.1 1 - 1, k.1 2 - 1, k.2 0 - 1, k.2 1 - 1, k.2 2 - 1]
/-- A result of a kernel as Python sees it; `t` has the elements outside of the array. -/
def back3 (t : List ℕ → ℚ) (r : Key3 → ℚ) : List ℕ → ℚ
  | [a, b, c, i, j, k] => r (![a + 1, b + 1, c + 1], ![i + 1, j + 1, k + 1])
  | l => t l

/-- `cc_loops2.update_t3a_v2`, as in `/repo/ccpy/cc/ccsdt.py:253-259`. -/
def callT3a (s : Setup) (X t : List ℕ → ℚ) : (List ℕ → ℚ) × (List ℕ → ℚ) :=
  let r := updateT3a s.na (s.n - s.na) s.foo s.fvv s.shift (seen3 X) (seen3 t)
  (back3 t r.1, back3 (fun _ => 0) r.2)
/-- `cc_loops2.update_t3b_v2`, as in `/repo/ccpy/cc/ccsdt.py:316-324`. -/
def callT3b (s : Setup) (X t : List ℕ → ℚ) : (List ℕ → ℚ) × (List ℕ → ℚ) :=
  let r := updateT3b s.na (s.n - s.na) s.nb (s.n - s.nb) s.foo s.fvv s.goo s.gvv s.shift (seen3 X) (seen3 t)
  (back3 t r.1, back3 (fun _ => 0) r.2)
/-- `cc_loops2.update_t3c_v2`, as in `/repo/ccpy/cc/ccsdt.py:381-389`. -/
def callT3c (s : Setup) (X t : List ℕ → ℚ) : (List ℕ → ℚ) × (List ℕ → ℚ) :=
  let r := updateT3c s.na (s.n - s.na) s.nb (s.n - s.nb) s.foo s.fvv s.goo s.gvv s.shift (seen3 X) (seen3 t)
  (back3 t r.1, back3 (fun _ => 0) r.2)
/-- `cc_loops2.update_t3d_v2`, as in `/repo/ccpy/cc/ccsdt.py:416-422`. -/
def callT3d (s : Setup) (X t : List ℕ → ℚ) : (List ℕ → ℚ) × (List ℕ → ℚ) :=
  let r := updateT3d s.nb (s.n - s.nb) s.goo s.gvv s.shift (seen3 X) (seen3 t)
  (back3 t r.1, back3 (fun _ => 0) r.2)

/-- A kernel call for triple excitations stores the new amplitudes under the name `k` and the increments under the name
`k + 4`. -/
def Memory.store3 (m : Memory) (k : ℕ) (r : (List ℕ → ℚ) × (List ℕ → ℚ)) : Memory :=
  Function.update (Function.update m k r.1) (k + 4) r.2

end Ccpy.Tensor

namespace Ccpy.Ccsdt
open Ccpy.Tensor Ccpy.HbarCcs

/-- `update(T, dT, H, X, shift, flag_RHF=False)`, `/repo/ccpy/cc/ccsdt.py:11-51`.  `X` are the intermediates of the last
iteration. -/
def update (s : Setup) (X : Ints) (m : Memory) : Memory :=
  let T := amplitudes3
  let X := getPreCcsIntermediates X T.toAmps stored false
  let m := m.store 11 (callT1a s (s.eval m (residualT1a T X stored)) (m 6))
  let T := { T with a := .arr 11 [1, 0] }
  let m := m.store 12 (callT1b s (s.eval m (residualT1b T X stored)) (m 7))
  let T := { T with b := .arr 12 [3, 2] }
  let X := getCcsIntermediatesOpt X T.toAmps stored false
  let m := m.store 13 (callT2a s (s.eval m (residualT2a T X stored)) (m 8))
  let T := { T with aa := .arr 13 [1, 1, 0, 0] }
  let m := m.store 14 (callT2b s (s.eval m (residualT2b T X stored)) (m 9))
  let T := { T with ab := .arr 14 [1, 3, 0, 2] }
  let m := m.store 15 (callT2c s (s.eval m (residualT2c T X stored)) (m 10))
  let T := { T with bb := .arr 15 [3, 3, 2, 2] }
  let X := HbarCcsd.getCcsdIntermediates T.toAmps X stored false
  let m := m.store3 110 (callT3a s (s.eval m (residualT3a T X stored)) (m 106))
  let T := { T with aaa := .arr 110 [1, 1, 1, 0, 0, 0] }
  let m := m.store3 111 (callT3b s (s.eval m (residualT3b T X stored)) (m 107))
  let T := { T with aab := .arr 111 [1, 1, 3, 0, 0, 2] }
  let m := m.store3 112 (callT3c s (s.eval m (residualT3c T X stored)) (m 108))
  let T := { T with abb := .arr 112 [1, 3, 3, 0, 2, 2] }
  m.store3 113 (callT3d s (s.eval m (residualT3d T X stored)) (m 109))

/-- `np.transpose(x, (2, 1, 0, 5, 4, 3))` -/
def reversed (x : List ℕ → ℚ) : List ℕ → ℚ
  | [a, b, c, i, j, k] => x [c, b, a, k, j, i]
  | l => x l

/-- `update(T, dT, H, X, shift, flag_RHF=True)`, `/repo/ccpy/cc/ccsdt.py:11-51`: the arrays of mostly spin down come from those
of mostly spin up. -/
def updateRhf (s : Setup) (X : Ints) (m : Memory) : Memory :=
  let T := amplitudes3
  let X := getPreCcsIntermediates X T.toAmps stored true
  let m := m.store 11 (callT1a s (s.eval m (residualT1a T X stored)) (m 6))
  let T := { T with a := .arr 11 [1, 0] }
  let m := m.store 12 (m 11, m 16)
  let T := { T with b := .arr 12 [3, 2] }
  let X := getCcsIntermediatesOpt X T.toAmps stored true
  let m := m.store 13 (callT2a s (s.eval m (residualT2a T X stored)) (m 8))
  let T := { T with aa := .arr 13 [1, 1, 0, 0] }
  let m := m.store 14 (callT2b s (s.eval m (residualT2b T X stored)) (m 9))
  let T := { T with ab := .arr 14 [1, 3, 0, 2] }
  let m := m.store 15 (m 13, m 18)
  let T := { T with bb := .arr 15 [3, 3, 2, 2] }
  let X := HbarCcsd.getCcsdIntermediates T.toAmps X stored true
  let m := m.store3 110 (callT3a s (s.eval m (residualT3a T X stored)) (m 106))
  let T := { T with aaa := .arr 110 [1, 1, 1, 0, 0, 0] }
  let m := m.store3 111 (callT3b s (s.eval m (residualT3b T X stored)) (m 107))
  let m := m.store3 112 (reversed (m 111), reversed (m 115))
  m.store3 113 (m 110, m 114)

end Ccpy.Ccsdt
