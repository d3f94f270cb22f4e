import Verif.Model.HbarCcs
import Verif.Model.KernelCalls

/-! The CC2 equations, `/repo/ccpy/cc/cc2.py`, statement by statement: the arrays handed to the Fortran update kernels and one
iteration.

The amplitudes are the arrays 6 to 10 before and 11 to 15 after the iteration; 16 to 20 are the increments `dT`. -/

namespace Ccpy.Cc2
open Ccpy.Tensor Ccpy.HbarCcs

/-- The second argument of the kernel call of `update_t1a`, `/repo/ccpy/cc/cc2.py:42-59`. -/
def residualT1a (T : Amps) (H X : Ints) : Ex :=
  let dT_a := -(es% "mi,am->ai" X.a.oo, T.a)
  let dT_a := dT_a + (es% "ae,ei->ai" X.a.vv, T.a)
  let dT_a := dT_a + (es% "me,aeim->ai" X.a.ov, T.aa)
  let dT_a := dT_a + (es% "me,aeim->ai" X.b.ov, T.ab)
  let dT_a := dT_a + (es% "anif,fn->ai" H.aa.voov, T.a)
  let dT_a := dT_a + (es% "anif,fn->ai" H.ab.voov, T.b)
  let dT_a := dT_a - half (es% "mnif,afmn->ai" H.aa.ooov, T.aa)
  let dT_a := dT_a - (es% "mnif,afmn->ai" H.ab.ooov, T.ab)
  let dT_a := dT_a + half (es% "anef,efin->ai" H.aa.vovv, T.aa)
  let dT_a := dT_a + (es% "anef,efin->ai" H.ab.vovv, T.ab)
  dT_a + H.a.vo

/-- The second argument of the kernel call of `update_t1b`, `/repo/ccpy/cc/cc2.py:61-78`. -/
def residualT1b (T : Amps) (H X : Ints) : Ex :=
  let dT_b := -(es% "mi,am->ai" X.b.oo, T.b)
  let dT_b := dT_b + (es% "ae,ei->ai" X.b.vv, T.b)
  let dT_b := dT_b + (es% "anif,fn->ai" H.bb.voov, T.b)
  let dT_b := dT_b + (es% "nafi,fn->ai" H.ab.ovvo, T.a)
  let dT_b := dT_b + (es% "me,eami->ai" X.a.ov, T.ab)
  let dT_b := dT_b + (es% "me,aeim->ai" X.b.ov, T.bb)
  let dT_b := dT_b - half (es% "mnif,afmn->ai" H.bb.ooov, T.bb)
  let dT_b := dT_b - (es% "nmfi,fanm->ai" H.ab.oovo, T.ab)
  let dT_b := dT_b + half (es% "anef,efin->ai" H.bb.vovv, T.bb)
  let dT_b := dT_b + (es% "nafe,feni->ai" H.ab.ovvv, T.ab)
  dT_b + H.b.vo

/-- The second argument of the kernel call of `update_t2a`, `/repo/ccpy/cc/cc2.py:80-92`. -/
def residualT2a (T : Amps) (H H0 : Ints) : Ex :=
  let dT_aa := -half (es% "amij,bm->abij" H.aa.vooo, T.a)
  let dT_aa := dT_aa + half (es% "abie,ej->abij" H.aa.vvov, T.a)
  let dT_aa := dT_aa - half (es% "mi,abmj->abij" H0.a.oo, T.aa)
  let dT_aa := dT_aa + half (es% "ae,ebij->abij" H0.a.vv, T.aa)
  dT_aa + quarter H0.aa.vvoo

/-- The second argument of the kernel call of `update_t2b`, `/repo/ccpy/cc/cc2.py:94-110`. -/
def residualT2b (T : Amps) (H H0 : Ints) : Ex :=
  let dT_ab := -(es% "mbij,am->abij" H.ab.ovoo, T.a)
  let dT_ab := dT_ab - (es% "amij,bm->abij" H.ab.vooo, T.b)
  let dT_ab := dT_ab + (es% "abej,ei->abij" H.ab.vvvo, T.a)
  let dT_ab := dT_ab + (es% "abie,ej->abij" H.ab.vvov, T.b)
  let dT_ab := dT_ab - (es% "mi,abmj->abij" H0.a.oo, T.ab)
  let dT_ab := dT_ab - (es% "mj,abim->abij" H0.b.oo, T.ab)
  let dT_ab := dT_ab + (es% "ae,ebij->abij" H0.a.vv, T.ab)
  let dT_ab := dT_ab + (es% "be,aeij->abij" H0.b.vv, T.ab)
  dT_ab + H0.ab.vvoo

/-- The second argument of the kernel call of `update_t2c`, `/repo/ccpy/cc/cc2.py:112-124`. -/
def residualT2c (T : Amps) (H H0 : Ints) : Ex :=
  let dT_bb := -half (es% "amij,bm->abij" H.bb.vooo, T.b)
  let dT_bb := dT_bb + half (es% "abie,ej->abij" H.bb.vvov, T.b)
  let dT_bb := dT_bb - half (es% "mi,abmj->abij" H0.b.oo, T.bb)
  let dT_bb := dT_bb + half (es% "ae,ebij->abij" H0.b.vv, T.bb)
  dT_bb + quarter H0.bb.vvoo

/-- The statements that complete `X.aa.vvov`, `X.ab.vvov` and `X.bb.vvov`, `/repo/ccpy/cc/cc2.py:26-29`.  The statements add in
place.  With `flag_RHF=True` the attributes `X.aa.vvov` and `X.bb.vvov` are the same array
(`/repo/ccpy/hbar/hbar_ccs.py:43`), so both additions change both of them. -/
def addVvvv (X : Ints) (T : Amps) (H : Ints) (rhf : Bool) : Ints :=
  let X := { X with aa.vvov := X.aa.vvov + half (es% "abef,ei->abif" H.aa.vvvv, T.a) }
  let X := if rhf then { X with bb.vvov := X.aa.vvov } else X
  let X := { X with ab.vvov := X.ab.vvov + (es% "abef,ei->abif" H.ab.vvvv, T.a) }
  let X := { X with bb.vvov := X.bb.vvov + half (es% "abef,ei->abif" H.bb.vvvv, T.b) }
  if rhf then { X with aa.vvov := X.bb.vvov } else X

/-- `update(T, dT, H, X, shift, flag_RHF=False)`, `/repo/ccpy/cc/cc2.py:10-40`.  `X` are the intermediates of the last
iteration. -/
def update (s : Setup) (X : Ints) (m : Memory) : Memory :=
  let T := amplitudes
  let X := getPreCcsIntermediates X T stored false
  let m := m.store 11 (callT1a s (s.eval m (residualT1a T stored X)) (m 6))
  let T := { T with a := .arr 11 [1, 0] }
  let m := m.store 12 (callT1b s (s.eval m (residualT1b T stored X)) (m 7))
  let T := { T with b := .arr 12 [3, 2] }
  let X := addVvvv (getCcsIntermediatesOpt X T stored false) T stored false
  let m := m.store 13 (callT2a s (s.eval m (residualT2a T X stored)) (m 8))
  let T := { T with aa := .arr 13 [1, 1, 0, 0] }
  let m := m.store 14 (callT2b s (s.eval m (residualT2b T X stored)) (m 9))
  let T := { T with ab := .arr 14 [1, 3, 0, 2] }
  m.store 15 (callT2c s (s.eval m (residualT2c T X stored)) (m 10))

/-- `update(T, dT, H, X, shift, flag_RHF=True)`, `/repo/ccpy/cc/cc2.py:10-40`. -/
def updateRhf (s : Setup) (X : Ints) (m : Memory) : Memory :=
  let T := amplitudes
  let X := getPreCcsIntermediates X T stored true
  let m := m.store 11 (callT1a s (s.eval m (residualT1a T stored X)) (m 6))
  let T := { T with a := .arr 11 [1, 0] }
  let m := m.store 12 (m 11, m 16)
  let T := { T with b := .arr 12 [3, 2] }
  let X := addVvvv (getCcsIntermediatesOpt X T stored true) T stored true
  let m := m.store 13 (callT2a s (s.eval m (residualT2a T X stored)) (m 8))
  let T := { T with aa := .arr 13 [1, 1, 0, 0] }
  let m := m.store 14 (callT2b s (s.eval m (residualT2b T X stored)) (m 9))
  m.store 15 (m 13, m 18)

end Ccpy.Cc2
