import Verif.Model.KernelCalls

/-! The CCD equations, `/repo/ccpy/cc/ccd.py`, statement by statement: the arrays handed to the Fortran update kernels and one
iteration.

The arrays of double excitation amplitudes are 8 to 10 before and 13 to 15 after the iteration; 18 to 20 are the increments
`dT`. -/

namespace Ccpy.Ccd
open Ccpy.Tensor

/-- The second argument of the kernel call of `update_t2a`, `/repo/ccpy/cc/ccd.py:23-64`. -/
def residualT2a (T : Amps) (H : Ints) : Ex :=
  let I1A_oo := H.a.oo + half (es% "mnef,efin->mi" H.aa.oovv, T.aa) + (es% "mnef,efin->mi" H.ab.oovv, T.ab)
  let I1A_vv := H.a.vv - half (es% "mnef,afmn->ae" H.aa.oovv, T.aa) - (es% "mnef,afmn->ae" H.ab.oovv, T.ab)
  let I2A_voov := H.aa.voov + half (es% "mnef,afin->amie" H.aa.oovv, T.aa) + (es% "mnef,afin->amie" H.ab.oovv, T.ab)
  let I2A_oooo := H.aa.oooo + half (es% "mnef,efij->mnij" H.aa.oovv, T.aa)
  let I2B_voov := H.ab.voov + half (es% "mnef,afin->amie" H.bb.oovv, T.ab)
  let dT_aa := half (es% "ae,ebij->abij" I1A_vv, T.aa)
  let dT_aa := dT_aa - half (es% "mi,abmj->abij" I1A_oo, T.aa)
  let dT_aa := dT_aa + (es% "amie,ebmj->abij" I2A_voov, T.aa)
  let dT_aa := dT_aa + (es% "amie,bejm->abij" I2B_voov, T.ab)
  let dT_aa := dT_aa + eighth (es% "abef,efij->abij" H.aa.vvvv, T.aa)
  let dT_aa := dT_aa + eighth (es% "mnij,abmn->abij" I2A_oooo, T.aa)
  dT_aa + quarter H.aa.vvoo

/-- The second argument of the kernel call of `update_t2b`, `/repo/ccpy/cc/ccd.py:66-127`. -/
def residualT2b (T : Amps) (H : Ints) : Ex :=
  let I1A_vv := H.a.vv - half (es% "mnef,afmn->ae" H.aa.oovv, T.aa) - (es% "mnef,afmn->ae" H.ab.oovv, T.ab)
  let I1B_vv := H.b.vv - (es% "nmfe,fbnm->be" H.ab.oovv, T.ab) - half (es% "mnef,fbnm->be" H.bb.oovv, T.bb)
  let I1A_oo := H.a.oo + half (es% "mnef,efin->mi" H.aa.oovv, T.aa) + (es% "mnef,efin->mi" H.ab.oovv, T.ab)
  let I1B_oo := H.b.oo + (es% "nmfe,fenj->mj" H.ab.oovv, T.ab) + half (es% "mnef,efjn->mj" H.bb.oovv, T.bb)
  let I2A_voov := H.aa.voov + (es% "mnef,aeim->anif" H.aa.oovv, T.aa) + (es% "nmfe,aeim->anif" H.ab.oovv, T.ab)
  let I2B_voov := H.ab.voov + (es% "mnef,aeim->anif" H.ab.oovv, T.aa) + (es% "mnef,aeim->anif" H.bb.oovv, T.ab)
  let I2B_oooo := H.ab.oooo + (es% "mnef,efij->mnij" H.ab.oovv, T.ab)
  let I2B_vovo := H.ab.vovo - (es% "mnef,afmj->anej" H.ab.oovv, T.ab)
  let dT_ab := es% "ae,ebij->abij" I1A_vv, T.ab
  let dT_ab := dT_ab + (es% "be,aeij->abij" I1B_vv, T.ab)
  let dT_ab := dT_ab - (es% "mi,abmj->abij" I1A_oo, T.ab)
  let dT_ab := dT_ab - (es% "mj,abim->abij" I1B_oo, T.ab)
  let dT_ab := dT_ab + (es% "amie,ebmj->abij" I2A_voov, T.ab)
  let dT_ab := dT_ab + (es% "amie,ebmj->abij" I2B_voov, T.bb)
  let dT_ab := dT_ab + (es% "mbej,aeim->abij" H.ab.ovvo, T.aa)
  let dT_ab := dT_ab + (es% "bmje,aeim->abij" H.bb.voov, T.ab)
  let dT_ab := dT_ab - (es% "mbie,aemj->abij" H.ab.ovov, T.ab)
  let dT_ab := dT_ab - (es% "amej,ebim->abij" I2B_vovo, T.ab)
  let dT_ab := dT_ab + (es% "mnij,abmn->abij" I2B_oooo, T.ab)
  let dT_ab := dT_ab + (es% "abef,efij->abij" H.ab.vvvv, T.ab)
  dT_ab + H.ab.vvoo

/-- The second argument of the kernel call of `update_t2c`, `/repo/ccpy/cc/ccd.py:129-170`. -/
def residualT2c (T : Amps) (H : Ints) : Ex :=
  let I1B_oo := H.b.oo + half (es% "mnef,efin->mi" H.bb.oovv, T.bb) + (es% "nmfe,feni->mi" H.ab.oovv, T.ab)
  let I1B_vv := H.b.vv - half (es% "mnef,afmn->ae" H.bb.oovv, T.bb) - (es% "nmfe,fanm->ae" H.ab.oovv, T.ab)
  let I2C_oooo := H.bb.oooo + half (es% "mnef,efij->mnij" H.bb.oovv, T.bb)
  let I2B_ovvo := H.ab.ovvo + (es% "mnef,afin->maei" H.ab.oovv, T.bb) + half (es% "mnef,fani->maei" H.aa.oovv, T.ab)
  let I2C_voov := H.bb.voov + half (es% "mnef,afin->amie" H.bb.oovv, T.bb)
  let dT_bb := half (es% "ae,ebij->abij" I1B_vv, T.bb)
  let dT_bb := dT_bb - half (es% "mi,abmj->abij" I1B_oo, T.bb)
  let dT_bb := dT_bb + (es% "amie,ebmj->abij" I2C_voov, T.bb)
  let dT_bb := dT_bb + (es% "maei,ebmj->abij" I2B_ovvo, T.ab)
  let dT_bb := dT_bb + eighth (es% "abef,efij->abij" H.bb.vvvv, T.bb)
  let dT_bb := dT_bb + eighth (es% "mnij,abmn->abij" I2C_oooo, T.bb)
  dT_bb + quarter H.bb.vvoo

/-- `update(T, dT, H, X, shift, flag_RHF=False)`, `/repo/ccpy/cc/ccd.py:10-22`. -/
def update (s : Setup) (m : Memory) : Memory :=
  let T := amplitudes
  let m := m.store 13 (callT2a s (s.eval m (residualT2a T stored)) (m 8))
  let T := { T with aa := .arr 13 [1, 1, 0, 0] }
  let m := m.store 14 (callT2b s (s.eval m (residualT2b T stored)) (m 9))
  let T := { T with ab := .arr 14 [1, 3, 0, 2] }
  m.store 15 (callT2c s (s.eval m (residualT2c T stored)) (m 10))

/-- `update(T, dT, H, X, shift, flag_RHF=True)`, `/repo/ccpy/cc/ccd.py:10-22`. -/
def updateRhf (s : Setup) (m : Memory) : Memory :=
  let T := amplitudes
  let m := m.store 13 (callT2a s (s.eval m (residualT2a T stored)) (m 8))
  let T := { T with aa := .arr 13 [1, 1, 0, 0] }
  let m := m.store 14 (callT2b s (s.eval m (residualT2b T stored)) (m 9))
  m.store 15 (m 13, m 18)

end Ccpy.Ccd
