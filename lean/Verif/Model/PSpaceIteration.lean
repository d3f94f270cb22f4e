import Verif.Model.PSpaceSingles
import Verif.Model.PSpaceDoubles
import Verif.Model.PSpaceA
import Verif.Model.PSpaceB
import Verif.Model.PSpaceC
import Verif.Model.PSpaceD
import Verif.Model.PSpaceUpdate
import Verif.Model.HbarCcs
import Verif.Model.HbarCcsd

/-! One iteration of the CCSDT(P) program, `/repo/ccpy/cc/ccsdt_p.py:15-132`.

The names of the arrays are those of `Verif.Model.CcsdtUpdate`: the amplitudes of single and double excitations are the arrays 6 to
10 before and 11 to 15 after the iteration, the increments are 16 to 20. -/

namespace Ccpy.PSpace
open Ccpy.Tensor Ccpy.HbarCcs Ccpy.Ccsdt

/-- `t3_excitations` together with `T.aaa`, ..., `T.bbb` and `dT.aaa`, ..., `dT.bbb`. -/
structure Lists where
  aaa : State
  aab : State
  abb : State
  bbb : State

/-- A list as an argument of a kernel. -/
def State.buffer (s : State) : Buffer := ⟨s.excits, s.amps⟩

/-- `do_t3[spincase]`, `/repo/ccpy/cc/ccsdt_p.py:56-67`: the first row is not the placeholder `[1, 1, 1, 1, 1, 1]`.  Without a
first row Python raises an `IndexError`. -/
def State.active (s : State) : Option Bool := s.excits.head?.map fun q => decide (q ≠ [1, 1, 1, 1, 1, 1])

/-- The updates of single and double excitations, `/repo/ccpy/cc/ccsdt_p.py:70-91` with `flag_RHF=False`.  The result is the
memory, `T` and `X`. -/
def updateLow (s : Setup) (X : Ints) (m : Memory) (L : Lists) : Memory × Amps × Ints :=
  let T := amplitudes3.toAmps
  let X := getPreCcsIntermediates X T stored false
  let m := m.store 11 (callT1a s m T X stored L.aaa.buffer L.aab.buffer L.abb.buffer (m 6))
  let T := { T with a := .arr 11 [1, 0] }
  let m := m.store 12 (callT1b s m T X stored L.aab.buffer L.abb.buffer L.bbb.buffer (m 7))
  let T := { T with b := .arr 12 [3, 2] }
  let X := getCcsIntermediatesOpt X T stored false
  let m := m.store 13 (callT2a s m T X stored L.aaa.buffer L.aab.buffer (m 8))
  let T := { T with aa := .arr 13 [1, 1, 0, 0] }
  let m := m.store 14 (callT2b s m T X stored L.aab.buffer L.abb.buffer (m 9))
  let T := { T with ab := .arr 14 [1, 3, 0, 2] }
  let m := m.store 15 (callT2c s m T X stored L.abb.buffer L.bbb.buffer (m 10))
  let T := { T with bb := .arr 15 [3, 3, 2, 2] }
  (m, T, X)

/-- `if flag: T, dT, t3_excitations = ...`, `/repo/ccpy/cc/ccsdt_p.py:118-130`. -/
def onlyIf (flag : Bool) (r : Option Lists) (L : Lists) : Option Lists := if flag then r else some L

/-- `update_t3a`, `/repo/ccpy/cc/ccsdt_p.py:315-333`. -/
def Lists.stepA (d : Dims) (D : Dressed) (L : Lists) : Option Lists := do
  let r ← updateT3a d D.argsA L.aaa.buffer L.aab.buffer
  some { L with aaa := r }
/-- `update_t3b`, `/repo/ccpy/cc/ccsdt_p.py:335-358`. -/
def Lists.stepB (d : Dims) (D : Dressed) (L : Lists) : Option Lists := do
  let r ← updateT3b d D.argsB L.aaa.buffer L.aab.buffer L.abb.buffer
  some { L with aab := r }
/-- `update_t3c`, `/repo/ccpy/cc/ccsdt_p.py:360-383`. -/
def Lists.stepC (d : Dims) (D : Dressed) (L : Lists) : Option Lists := do
  let r ← updateT3c d D.argsC L.aab.buffer L.abb.buffer L.bbb.buffer
  some { L with abb := r }
/-- `update_t3d`, `/repo/ccpy/cc/ccsdt_p.py:385-403`. -/
def Lists.stepD (d : Dims) (D : Dressed) (L : Lists) : Option Lists := do
  let r ← updateT3d d D.argsD L.abb.buffer L.bbb.buffer
  some { L with bbb := r }

/-- `update(T, dT, H, X, shift, flag_RHF=False, t3_excitations)`, `/repo/ccpy/cc/ccsdt_p.py:15-132`.  `X` are the intermediates
of the last iteration; `none` is an error.  The transpositions `:97-115` are part of `Dressed.argsA`, ..., `Dressed.argsD`. -/
def update (s : Setup) (X : Ints) (m : Memory) (L : Lists) : Option (Memory × Lists) := do
  let do_aaa ← L.aaa.active
  let do_aab ← L.aab.active
  let do_abb ← L.abb.active
  let do_bbb ← L.bbb.active
  let build_hbar := do_aaa || do_aab || do_abb || do_bbb
  let r := updateLow s X m L
  let m := r.1
  let T := r.2.1
  let X := r.2.2
  let X := if build_hbar then HbarCcsd.getCcsdIntermediates T X stored false else X
  let D := dressed s m T X
  let L ← onlyIf do_aaa (L.stepA (dimsOf s) D) L
  let L ← onlyIf do_aab (L.stepB (dimsOf s) D) L
  let L ← onlyIf do_abb (L.stepC (dimsOf s) D) L
  let L ← onlyIf do_bbb (L.stepD (dimsOf s) D) L
  some (m, L)

/-- The updates of single and double excitations, `/repo/ccpy/cc/ccsdt_p.py:70-91` with `flag_RHF=True`. -/
def updateLowRhf (s : Setup) (X : Ints) (m : Memory) (L : Lists) : Memory × Amps × Ints :=
  let T := amplitudes3.toAmps
  let X := getPreCcsIntermediates X T stored true
  let m := m.store 11 (callT1a s m T X stored L.aaa.buffer L.aab.buffer L.abb.buffer (m 6))
  let T := { T with a := .arr 11 [1, 0] }
  let m := m.store 12 (m 11, m 16)
  let T := { T with b := .arr 12 [3, 2] }
  let X := getCcsIntermediatesOpt X T stored true
  let m := m.store 13 (callT2a s m T X stored L.aaa.buffer L.aab.buffer (m 8))
  let T := { T with aa := .arr 13 [1, 1, 0, 0] }
  let m := m.store 14 (callT2b s m T X stored L.aab.buffer L.abb.buffer (m 9))
  let T := { T with ab := .arr 14 [1, 3, 0, 2] }
  let m := m.store 15 (m 13, m 18)
  let T := { T with bb := .arr 15 [3, 3, 2, 2] }
  (m, T, X)

/-- `t3_excitations["aab"][:, [2, 0, 1, 5, 3, 4]]` of one row, `/repo/ccpy/cc/ccsdt_p.py:124`. -/
def mirrorRow (q : List ℕ) : List ℕ := [2, 0, 1, 5, 3, 4].map fun n => q.getD n 0

/-- The copies of the lists for `flag_RHF=True`, `/repo/ccpy/cc/ccsdt_p.py:121-127`. -/
def Lists.mirror (L : Lists) : Lists :=
  { L with
    abb := ⟨L.aab.excits.map mirrorRow, L.aab.amps, L.aab.resid⟩
    bbb := L.aaa }

/-- `update(T, dT, H, X, shift, flag_RHF=True, t3_excitations)`, `/repo/ccpy/cc/ccsdt_p.py:15-132`. -/
def updateRhf (s : Setup) (X : Ints) (m : Memory) (L : Lists) : Option (Memory × Lists) := do
  let do_aaa ← L.aaa.active
  let do_aab ← L.aab.active
  let do_abb ← L.abb.active
  let do_bbb ← L.bbb.active
  let build_hbar := do_aaa || do_aab || do_abb || do_bbb
  let r := updateLowRhf s X m L
  let m := r.1
  let T := r.2.1
  let X := r.2.2
  let X := if build_hbar then HbarCcsd.getCcsdIntermediates T X stored true else X
  let D := dressed s m T X
  let L ← onlyIf do_aaa (L.stepA (dimsOf s) D) L
  let L ← onlyIf do_aab (L.stepB (dimsOf s) D) L
  some (m, L.mirror)

end Ccpy.PSpace
