import Verif.Model.HbarCcs

/-! The CCSD equations, `/repo/ccpy/cc/ccsd.py`, statement by statement: the arrays handed to the Fortran update kernels. -/

namespace Ccpy.Ccsd
open Ccpy.Tensor

/-- The second argument of the kernel call of `update_t1a`, `/repo/ccpy/cc/ccsd.py:36-53`. -/
def residualT1a (T : Amps) (X H : Ints) : Ex :=
  let dT_a := -(es% "mi,am->ai" X.a.oo, T.a)
  let dT_a := dT_a + (es% "ae,ei->ai" X.a.vv, T.a)
  let dT_a := dT_a + (es% "me,aeim->ai" X.a.ov, T.aa)
  let dT_a := dT_a + (es% "me,aeim->ai" X.b.ov, T.ab)
  let dT_a := dT_a + (es% "anif,fn->ai" H.aa.voov, T.a)
  let dT_a := dT_a + (es% "anif,fn->ai" H.ab.voov, T.b)
  let dT_a := dT_a - half (es% "mnif,afmn->ai" H.aa.ooov, T.aa)
  let dT_a := dT_a - (es% "mnif,afmn->ai" H.ab.ooov, T.ab)
  let dT_a := dT_a + half (es% "anef,efin->ai" H.aa.vovv, T.aa)
  let dT_a := dT_a + (es% "anef,efin->ai" H.ab.vovv, T.ab)
  dT_a + H.a.vo

/-- The second argument of the kernel call of `update_t1b`, `/repo/ccpy/cc/ccsd.py:57-74`. -/
def residualT1b (T : Amps) (X H : Ints) : Ex :=
  let dT_b := -(es% "mi,am->ai" X.b.oo, T.b)
  let dT_b := dT_b + (es% "ae,ei->ai" X.b.vv, T.b)
  let dT_b := dT_b + (es% "anif,fn->ai" H.bb.voov, T.b)
  let dT_b := dT_b + (es% "nafi,fn->ai" H.ab.ovvo, T.a)
  let dT_b := dT_b + (es% "me,eami->ai" X.a.ov, T.ab)
  let dT_b := dT_b + (es% "me,aeim->ai" X.b.ov, T.bb)
  let dT_b := dT_b - half (es% "mnif,afmn->ai" H.bb.ooov, T.bb)
  let dT_b := dT_b - (es% "nmfi,fanm->ai" H.ab.oovo, T.ab)
  let dT_b := dT_b + half (es% "anef,efin->ai" H.bb.vovv, T.bb)
  let dT_b := dT_b + (es% "nafe,feni->ai" H.ab.ovvv, T.ab)
  dT_b + H.b.vo

/-- The second argument of the kernel call of `update_t2a`, `/repo/ccpy/cc/ccsd.py:78-106`. -/
def residualT2a (T : Amps) (H H0 : Ints) : Ex :=
  let I2A_voov := H.aa.voov + (half (es% "mnef,afin->amie" H0.aa.oovv, T.aa) + es% "mnef,afin->amie" H0.ab.oovv, T.ab)
  let I2A_oooo := H.aa.oooo + half (es% "mnef,efij->mnij" H0.aa.oovv, T.aa)
  let I2B_voov := H.ab.voov + half (es% "mnef,afin->amie" H0.bb.oovv, T.ab)
  let I2A_vooo := H.aa.vooo + half (es% "anef,efij->anij" (H0.aa.vovv + half H.aa.vovv), T.aa)
  let tau := half T.aa + (es% "ai,bj->abij" T.a, T.a)
  let dT_aa := -half (es% "amij,bm->abij" I2A_vooo, T.a)
  let dT_aa := dT_aa + half (es% "abie,ej->abij" H.aa.vvov, T.a)
  let dT_aa := dT_aa + half (es% "ae,ebij->abij" H.a.vv, T.aa)
  let dT_aa := dT_aa - half (es% "mi,abmj->abij" H.a.oo, T.aa)
  let dT_aa := dT_aa + (es% "amie,ebmj->abij" I2A_voov, T.aa)
  let dT_aa := dT_aa + (es% "amie,bejm->abij" I2B_voov, T.ab)
  let dT_aa := dT_aa + eighth (es% "mnij,abmn->abij" I2A_oooo, T.aa)
  let dT_aa := dT_aa + quarter (es% "abef,efij->abij" H0.aa.vvvv, tau)
  dT_aa + quarter H0.aa.vvoo

/-- The second argument of the kernel call of `update_t2b`, `/repo/ccpy/cc/ccsd.py:110-151`. -/
def residualT2b (T : Amps) (H H0 : Ints) : Ex :=
  let I2A_voov := H.aa.voov + (es% "mnef,aeim->anif" H0.aa.oovv, T.aa + es% "nmfe,aeim->anif" H0.ab.oovv, T.ab)
  let I2B_voov := H.ab.voov + (es% "mnef,aeim->anif" H0.ab.oovv, T.aa + es% "mnef,aeim->anif" H0.bb.oovv, T.ab)
  let I2B_oooo := H.ab.oooo + (es% "mnef,efij->mnij" H0.ab.oovv, T.ab)
  let I2B_vovo := H.ab.vovo - (es% "mnef,afmj->anej" H0.ab.oovv, T.ab)
  let I2B_ovoo := H.ab.ovoo + (es% "maef,efij->maij" (H0.ab.ovvv + half H.ab.ovvv), T.ab)
  let I2B_vooo := H.ab.vooo + (es% "amef,efij->amij" (H0.ab.vovv + half H.ab.vovv), T.ab)
  let tau := T.ab + (es% "ai,bj->abij" T.a, T.b)
  let dT_ab := -(es% "mbij,am->abij" I2B_ovoo, T.a)
  let dT_ab := dT_ab - (es% "amij,bm->abij" I2B_vooo, T.b)
  let dT_ab := dT_ab + (es% "abej,ei->abij" H.ab.vvvo, T.a)
  let dT_ab := dT_ab + (es% "abie,ej->abij" H.ab.vvov, T.b)
  let dT_ab := dT_ab + (es% "ae,ebij->abij" H.a.vv, T.ab)
  let dT_ab := dT_ab + (es% "be,aeij->abij" H.b.vv, T.ab)
  let dT_ab := dT_ab - (es% "mi,abmj->abij" H.a.oo, T.ab)
  let dT_ab := dT_ab - (es% "mj,abim->abij" H.b.oo, T.ab)
  let dT_ab := dT_ab + (es% "amie,ebmj->abij" I2A_voov, T.ab)
  let dT_ab := dT_ab + (es% "amie,ebmj->abij" I2B_voov, T.bb)
  let dT_ab := dT_ab + (es% "mbej,aeim->abij" H.ab.ovvo, T.aa)
  let dT_ab := dT_ab + (es% "bmje,aeim->abij" H.bb.voov, T.ab)
  let dT_ab := dT_ab - (es% "mbie,aemj->abij" H.ab.ovov, T.ab)
  let dT_ab := dT_ab - (es% "amej,ebim->abij" I2B_vovo, T.ab)
  let dT_ab := dT_ab + (es% "mnij,abmn->abij" I2B_oooo, T.ab)
  let dT_ab := dT_ab + (es% "abef,efij->abij" H0.ab.vvvv, tau)
  dT_ab + H0.ab.vvoo

/-- The second argument of the kernel call of `update_t2c`, `/repo/ccpy/cc/ccsd.py:155-183`. -/
def residualT2c (T : Amps) (H H0 : Ints) : Ex :=
  let I2C_oooo := H.bb.oooo + half (es% "mnef,efij->mnij" H0.bb.oovv, T.bb)
  let I2B_ovvo := H.ab.ovvo + (es% "mnef,afin->maei" H0.ab.oovv, T.bb + half (es% "mnef,fani->maei" H0.aa.oovv, T.ab))
  let I2C_voov := H.bb.voov + half (es% "mnef,afin->amie" H0.bb.oovv, T.bb)
  let I2C_vooo := H.bb.vooo + half (es% "anef,efij->anij" (H0.bb.vovv + half H.bb.vovv), T.bb)
  let tau := half T.bb + (es% "ai,bj->abij" T.b, T.b)
  let dT_bb := -half (es% "amij,bm->abij" I2C_vooo, T.b)
  let dT_bb := dT_bb + half (es% "abie,ej->abij" H.bb.vvov, T.b)
  let dT_bb := dT_bb + half (es% "ae,ebij->abij" H.b.vv, T.bb)
  let dT_bb := dT_bb - half (es% "mi,abmj->abij" H.b.oo, T.bb)
  let dT_bb := dT_bb + (es% "amie,ebmj->abij" I2C_voov, T.bb)
  let dT_bb := dT_bb + (es% "maei,ebmj->abij" I2B_ovvo, T.ab)
  let dT_bb := dT_bb + eighth (es% "mnij,abmn->abij" I2C_oooo, T.bb)
  let dT_bb := dT_bb + quarter (es% "abef,efij->abij" H0.bb.vvvv, tau)
  dT_bb + quarter H0.bb.vvoo

end Ccpy.Ccsd
