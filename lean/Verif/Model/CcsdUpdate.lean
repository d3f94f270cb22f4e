import Verif.Model.Ccsd
import Verif.Model.KernelCalls

/-! One iteration of the CCSD program, `/repo/ccpy/cc/ccsd.py:9-33`.

Arrays that are overwritten get a new name, so that an expression formed earlier keeps its value: the amplitudes are the
arrays 6 to 10 before and 11 to 15 after the iteration; the arrays 16 to 20 are the increments `dT`. -/

namespace Ccpy.Ccsd
open Ccpy.Tensor Ccpy.HbarCcs

/-- `update(T, dT, H, X, shift, flag_RHF=False)`, `/repo/ccpy/cc/ccsd.py:9-33`.  `X` are the intermediates of the last
iteration. -/
def update (s : Setup) (X : Ints) (m : Memory) : Memory :=
  let T := amplitudes
  let X := getPreCcsIntermediates X T stored false
  let m := m.store 11 (callT1a s (s.eval m (residualT1a T X stored)) (m 6))
  let T := { T with a := .arr 11 [1, 0] }
  let m := m.store 12 (callT1b s (s.eval m (residualT1b T X stored)) (m 7))
  let T := { T with b := .arr 12 [3, 2] }
  let X := getCcsIntermediatesOpt X T stored false
  let m := m.store 13 (callT2a s (s.eval m (residualT2a T X stored)) (m 8))
  let T := { T with aa := .arr 13 [1, 1, 0, 0] }
  let m := m.store 14 (callT2b s (s.eval m (residualT2b T X stored)) (m 9))
  let T := { T with ab := .arr 14 [1, 3, 0, 2] }
  m.store 15 (callT2c s (s.eval m (residualT2c T X stored)) (m 10))

/-- `update(T, dT, H, X, shift, flag_RHF=True)`, `/repo/ccpy/cc/ccsd.py:9-33`: the arrays of spin down are copies of those of
spin up. -/
def updateRhf (s : Setup) (X : Ints) (m : Memory) : Memory :=
  let T := amplitudes
  let X := getPreCcsIntermediates X T stored true
  let m := m.store 11 (callT1a s (s.eval m (residualT1a T X stored)) (m 6))
  let T := { T with a := .arr 11 [1, 0] }
  let m := m.store 12 (m 11, m 16)
  let T := { T with b := .arr 12 [3, 2] }
  let X := getCcsIntermediatesOpt X T stored true
  let m := m.store 13 (callT2a s (s.eval m (residualT2a T X stored)) (m 8))
  let T := { T with aa := .arr 13 [1, 1, 0, 0] }
  let m := m.store 14 (callT2b s (s.eval m (residualT2b T X stored)) (m 9))
  m.store 15 (m 13, m 18)

end Ccpy.Ccsd
