import Verif.Model.HbarCcsd

/-! The CCSDT equations, `/repo/ccpy/cc/ccsdt.py`, statement by statement: the arrays handed to the Fortran update kernels. -/

namespace Ccpy.Ccsdt
open Ccpy.Tensor

/-- A `ClusterOperator` of order 3, `/repo/ccpy/models/operators.py`. -/
structure Amps3 extends Amps where
  (aaa aab abb bbb : Ex)

/-- The stored amplitudes: arrays 6 to 10 and 106 to 109. -/
def amplitudes3 : Amps3 where
  toAmps := amplitudes
  aaa := .arr 106 [1, 1, 1, 0, 0, 0]
  aab := .arr 107 [1, 1, 3, 0, 0, 2]
  abb := .arr 108 [1, 3, 3, 0, 2, 2]
  bbb := .arr 109 [3, 3, 3, 2, 2, 2]

/-- The second argument of the kernel call of `update_t1a`, `/repo/ccpy/cc/ccsdt.py:53-78`. -/
def residualT1a (T : Amps3) (X H : Ints) : Ex :=
  let dT_a := -(es% "mi,am->ai" X.a.oo, T.a)
  let dT_a := dT_a + (es% "ae,ei->ai" X.a.vv, T.a)
  let dT_a := dT_a + (es% "me,aeim->ai" X.a.ov, T.aa)
  let dT_a := dT_a + (es% "me,aeim->ai" X.b.ov, T.ab)
  let dT_a := dT_a + (es% "anif,fn->ai" H.aa.voov, T.a)
  let dT_a := dT_a + (es% "anif,fn->ai" H.ab.voov, T.b)
  let dT_a := dT_a - half (es% "mnif,afmn->ai" H.aa.ooov, T.aa)
  let dT_a := dT_a - (es% "mnif,afmn->ai" H.ab.ooov, T.ab)
  let dT_a := dT_a + half (es% "anef,efin->ai" H.aa.vovv, T.aa)
  let dT_a := dT_a + (es% "anef,efin->ai" H.ab.vovv, T.ab)
  let dT_a := dT_a + quarter (es% "mnef,aefimn->ai" H.aa.oovv, T.aaa)
  let dT_a := dT_a + (es% "mnef,aefimn->ai" H.ab.oovv, T.aab)
  let dT_a := dT_a + quarter (es% "mnef,aefimn->ai" H.bb.oovv, T.abb)
  dT_a + H.a.vo

/-- The second argument of the kernel call of `update_t1b`, `/repo/ccpy/cc/ccsdt.py:80-105`. -/
def residualT1b (T : Amps3) (X H : Ints) : Ex :=
  let dT_b := -(es% "mi,am->ai" X.b.oo, T.b)
  let dT_b := dT_b + (es% "ae,ei->ai" X.b.vv, T.b)
  let dT_b := dT_b + (es% "anif,fn->ai" H.bb.voov, T.b)
  let dT_b := dT_b + (es% "nafi,fn->ai" H.ab.ovvo, T.a)
  let dT_b := dT_b + (es% "me,eami->ai" X.a.ov, T.ab)
  let dT_b := dT_b + (es% "me,aeim->ai" X.b.ov, T.bb)
  let dT_b := dT_b - half (es% "mnif,afmn->ai" H.bb.ooov, T.bb)
  let dT_b := dT_b - (es% "nmfi,fanm->ai" H.ab.oovo, T.ab)
  let dT_b := dT_b + half (es% "anef,efin->ai" H.bb.vovv, T.bb)
  let dT_b := dT_b + (es% "nafe,feni->ai" H.ab.ovvv, T.ab)
  let dT_b := dT_b + quarter (es% "mnef,aefimn->ai" H.bb.oovv, T.bbb)
  let dT_b := dT_b + quarter (es% "mnef,efamni->ai" H.aa.oovv, T.aab)
  let dT_b := dT_b + (es% "mnef,efamni->ai" H.ab.oovv, T.abb)
  dT_b + H.b.vo

/-- The second argument of the kernel call of `update_t2a`, `/repo/ccpy/cc/ccsdt.py:107-140`. -/
def residualT2a (T : Amps3) (H H0 : Ints) : Ex :=
  let I2A_voov := H.aa.voov + (half (es% "mnef,afin->amie" H0.aa.oovv, T.aa) + es% "mnef,afin->amie" H0.ab.oovv, T.ab)
  let I2A_oooo := H.aa.oooo + half (es% "mnef,efij->mnij" H0.aa.oovv, T.aa)
  let I2B_voov := H.ab.voov + half (es% "mnef,afin->amie" H0.bb.oovv, T.ab)
  let I2A_vooo := H.aa.vooo + half (es% "anef,efij->anij" (H0.aa.vovv + half H.aa.vovv), T.aa)
  let tau := half T.aa + (es% "ai,bj->abij" T.a, T.a)
  let dT_aa := -half (es% "amij,bm->abij" I2A_vooo, T.a)
  let dT_aa := dT_aa + half (es% "abie,ej->abij" H.aa.vvov, T.a)
  let dT_aa := dT_aa + half (es% "ae,ebij->abij" H.a.vv, T.aa)
  let dT_aa := dT_aa - half (es% "mi,abmj->abij" H.a.oo, T.aa)
  let dT_aa := dT_aa + (es% "amie,ebmj->abij" I2A_voov, T.aa)
  let dT_aa := dT_aa + (es% "amie,bejm->abij" I2B_voov, T.ab)
  let dT_aa := dT_aa + quarter (es% "abef,efij->abij" H0.aa.vvvv, tau)
  let dT_aa := dT_aa + eighth (es% "mnij,abmn->abij" I2A_oooo, T.aa)
  let dT_aa := dT_aa + quarter (es% "me,abeijm->abij" H.a.ov, T.aaa)
  let dT_aa := dT_aa + quarter (es% "me,abeijm->abij" H.b.ov, T.aab)
  let dT_aa := dT_aa - half (es% "mnif,abfmjn->abij" (H0.ab.ooov + H.ab.ooov), T.aab)
  let dT_aa := dT_aa - quarter (es% "mnif,abfmjn->abij" (H0.aa.ooov + H.aa.ooov), T.aaa)
  let dT_aa := dT_aa + quarter (es% "anef,ebfijn->abij" (H0.aa.vovv + H.aa.vovv), T.aaa)
  let dT_aa := dT_aa + half (es% "anef,ebfijn->abij" (H0.ab.vovv + H.ab.vovv), T.aab)
  dT_aa + quarter H0.aa.vvoo

/-- The second argument of the kernel call of `update_t2b`, `/repo/ccpy/cc/ccsdt.py:142-192`. -/
def residualT2b (T : Amps3) (H H0 : Ints) : Ex :=
  let I2A_voov := H.aa.voov + (es% "mnef,aeim->anif" H0.aa.oovv, T.aa + es% "nmfe,aeim->anif" H0.ab.oovv, T.ab)
  let I2B_voov := H.ab.voov + (es% "mnef,aeim->anif" H0.ab.oovv, T.aa + es% "mnef,aeim->anif" H0.bb.oovv, T.ab)
  let I2B_oooo := H.ab.oooo + (es% "mnef,efij->mnij" H0.ab.oovv, T.ab)
  let I2B_vovo := H.ab.vovo - (es% "mnef,afmj->anej" H0.ab.oovv, T.ab)
  let I2B_ovoo := H.ab.ovoo + (es% "maef,efij->maij" (H0.ab.ovvv + half H.ab.ovvv), T.ab)
  let I2B_vooo := H.ab.vooo + (es% "amef,efij->amij" (H0.ab.vovv + half H.ab.vovv), T.ab)
  let tau := T.ab + (es% "ai,bj->abij" T.a, T.b)
  let dT_ab := -(es% "mbij,am->abij" I2B_ovoo, T.a)
  let dT_ab := dT_ab - (es% "amij,bm->abij" I2B_vooo, T.b)
  let dT_ab := dT_ab + (es% "abej,ei->abij" H.ab.vvvo, T.a)
  let dT_ab := dT_ab + (es% "abie,ej->abij" H.ab.vvov, T.b)
  let dT_ab := dT_ab + (es% "ae,ebij->abij" H.a.vv, T.ab)
  let dT_ab := dT_ab + (es% "be,aeij->abij" H.b.vv, T.ab)
  let dT_ab := dT_ab - (es% "mi,abmj->abij" H.a.oo, T.ab)
  let dT_ab := dT_ab - (es% "mj,abim->abij" H.b.oo, T.ab)
  let dT_ab := dT_ab + (es% "amie,ebmj->abij" I2A_voov, T.ab)
  let dT_ab := dT_ab + (es% "amie,ebmj->abij" I2B_voov, T.bb)
  let dT_ab := dT_ab + (es% "mbej,aeim->abij" H.ab.ovvo, T.aa)
  let dT_ab := dT_ab + (es% "bmje,aeim->abij" H.bb.voov, T.ab)
  let dT_ab := dT_ab - (es% "mbie,aemj->abij" H.ab.ovov, T.ab)
  let dT_ab := dT_ab - (es% "amej,ebim->abij" I2B_vovo, T.ab)
  let dT_ab := dT_ab + (es% "mnij,abmn->abij" I2B_oooo, T.ab)
  let dT_ab := dT_ab + (es% "abef,efij->abij" H0.ab.vvvv, tau)
  let dT_ab := dT_ab - half (es% "mnif,afbmnj->abij" (H0.aa.ooov + H.aa.ooov), T.aab)
  let dT_ab := dT_ab - (es% "nmfj,afbinm->abij" (H0.ab.oovo + H.ab.oovo), T.aab)
  let dT_ab := dT_ab - half (es% "mnjf,afbinm->abij" (H0.bb.ooov + H.bb.ooov), T.abb)
  let dT_ab := dT_ab - (es% "mnif,afbmnj->abij" (H0.ab.ooov + H.ab.ooov), T.abb)
  let dT_ab := dT_ab + half (es% "anef,efbinj->abij" (H0.aa.vovv + H.aa.vovv), T.aab)
  let dT_ab := dT_ab + (es% "anef,efbinj->abij" (H0.ab.vovv + H.ab.vovv), T.abb)
  let dT_ab := dT_ab + (es% "nbfe,afeinj->abij" (H0.ab.ovvv + H.ab.ovvv), T.aab)
  let dT_ab := dT_ab + half (es% "bnef,afeinj->abij" (H0.bb.vovv + H.bb.vovv), T.abb)
  let dT_ab := dT_ab + (es% "me,aebimj->abij" H.a.ov, T.aab)
  let dT_ab := dT_ab + (es% "me,aebimj->abij" H.b.ov, T.abb)
  dT_ab + H0.ab.vvoo

/-- The second argument of the kernel call of `update_t2c`, `/repo/ccpy/cc/ccsdt.py:194-228`. -/
def residualT2c (T : Amps3) (H H0 : Ints) : Ex :=
  let I2C_oooo := H.bb.oooo + half (es% "mnef,efij->mnij" H0.bb.oovv, T.bb)
  let I2B_ovvo := H.ab.ovvo + (es% "mnef,afin->maei" H0.ab.oovv, T.bb + half (es% "mnef,fani->maei" H0.aa.oovv, T.ab))
  let I2C_voov := H.bb.voov + half (es% "mnef,afin->amie" H0.bb.oovv, T.bb)
  let I2C_vooo := H.bb.vooo + half (es% "anef,efij->anij" (H0.bb.vovv + half H.bb.vovv), T.bb)
  let tau := half T.bb + (es% "ai,bj->abij" T.b, T.b)
  let dT_bb := -half (es% "amij,bm->abij" I2C_vooo, T.b)
  let dT_bb := dT_bb + half (es% "abie,ej->abij" H.bb.vvov, T.b)
  let dT_bb := dT_bb + half (es% "ae,ebij->abij" H.b.vv, T.bb)
  let dT_bb := dT_bb - half (es% "mi,abmj->abij" H.b.oo, T.bb)
  let dT_bb := dT_bb + (es% "amie,ebmj->abij" I2C_voov, T.bb)
  let dT_bb := dT_bb + (es% "maei,ebmj->abij" I2B_ovvo, T.ab)
  let dT_bb := dT_bb + quarter (es% "abef,efij->abij" H0.bb.vvvv, tau)
  let dT_bb := dT_bb + eighth (es% "mnij,abmn->abij" I2C_oooo, T.bb)
  let dT_bb := dT_bb + quarter (es% "me,eabmij->abij" H.a.ov, T.abb)
  let dT_bb := dT_bb + quarter (es% "me,abeijm->abij" H.b.ov, T.bbb)
  let dT_bb := dT_bb + quarter (es% "anef,ebfijn->abij" (H0.bb.vovv + H.bb.vovv), T.bbb)
  let dT_bb := dT_bb + half (es% "nafe,febnij->abij" (H0.ab.ovvv + H.ab.ovvv), T.abb)
  let dT_bb := dT_bb - quarter (es% "mnif,abfmjn->abij" (H0.bb.ooov + H.bb.ooov), T.bbb)
  let dT_bb := dT_bb - half (es% "nmfi,fabnmj->abij" (H0.ab.oovo + H.ab.oovo), T.abb)
  dT_bb + quarter H0.bb.vvoo

/-- The second argument of the kernel call of `update_t3a`, `/repo/ccpy/cc/ccsdt.py:230-260`. -/
def residualT3a (T : Amps3) (H H0 : Ints) : Ex :=
  let I2A_vvov := -half (es% "mnef,abfimn->abie" H0.aa.oovv, T.aaa)
  let I2A_vvov := I2A_vvov - (es% "mnef,abfimn->abie" H0.ab.oovv, T.aab)
  let I2A_vvov := I2A_vvov + H.aa.vvov
  let I2A_vooo := half (es% "mnef,aefijn->amij" H0.aa.oovv, T.aaa)
  let I2A_vooo := I2A_vooo + (H.aa.vooo + es% "mnef,aefijn->amij" H0.ab.oovv, T.aab)
  let I2A_vooo := I2A_vooo - (es% "me,aeij->amij" H.a.ov, T.aa)
  let dT_aaa := -quarter (es% "amij,bcmk->abcijk" I2A_vooo, T.aa)
  let dT_aaa := dT_aaa + quarter (es% "abie,ecjk->abcijk" I2A_vvov, T.aa)
  let dT_aaa := dT_aaa - scale 1 12 (es% "mk,abcijm->abcijk" H.a.oo, T.aaa)
  let dT_aaa := dT_aaa + scale 1 12 (es% "ce,abeijk->abcijk" H.a.vv, T.aaa)
  let dT_aaa := dT_aaa + scale 1 24 (es% "mnij,abcmnk->abcijk" H.aa.oooo, T.aaa)
  let dT_aaa := dT_aaa + scale 1 24 (es% "abef,efcijk->abcijk" H.aa.vvvv, T.aaa)
  let dT_aaa := dT_aaa + quarter (es% "cmke,abeijm->abcijk" H.aa.voov, T.aaa)
  let dT_aaa := dT_aaa + quarter (es% "cmke,abeijm->abcijk" H.ab.voov, T.aab)
  dT_aaa

/-- The second argument of the kernel call of `update_t3b`, `/repo/ccpy/cc/ccsdt.py:262-325`. -/
def residualT3b (T : Amps3) (H H0 : Ints) : Ex :=
  let I2A_vvov := -half (es% "mnef,abfimn->abie" H0.aa.oovv, T.aaa)
  let I2A_vvov := I2A_vvov + (-(es% "mnef,abfimn->abie" H0.ab.oovv, T.aab))
  let I2A_vvov := I2A_vvov + H.aa.vvov
  let I2A_vooo := half (es% "mnef,aefijn->amij" H0.aa.oovv, T.aaa)
  let I2A_vooo := I2A_vooo + (es% "mnef,aefijn->amij" H0.ab.oovv, T.aab)
  let I2A_vooo := I2A_vooo + (-(es% "me,aeij->amij" H.a.ov, T.aa))
  let I2A_vooo := I2A_vooo + H.aa.vooo
  let I2B_vvvo := -half (es% "mnef,afbmnj->abej" H0.aa.oovv, T.aab)
  let I2B_vvvo := I2B_vvvo + (-(es% "mnef,afbmnj->abej" H0.ab.oovv, T.abb))
  let I2B_vvvo := I2B_vvvo + H.ab.vvvo
  let I2B_ovoo := half (es% "mnef,efbinj->mbij" H0.aa.oovv, T.aab)
  let I2B_ovoo := I2B_ovoo + (es% "mnef,efbinj->mbij" H0.ab.oovv, T.abb)
  let I2B_ovoo := I2B_ovoo + (-(es% "me,ecjk->mcjk" H.a.ov, T.ab))
  let I2B_ovoo := I2B_ovoo + H.ab.ovoo
  let I2B_vvov := -(es% "nmfe,afbinm->abie" H0.ab.oovv, T.aab)
  let I2B_vvov := I2B_vvov + (-half (es% "nmfe,afbinm->abie" H0.bb.oovv, T.abb))
  let I2B_vvov := I2B_vvov + H.ab.vvov
  let I2B_vooo := es% "nmfe,afeinj->amij" H0.ab.oovv, T.aab
  let I2B_vooo := I2B_vooo + half (es% "nmfe,afeinj->amij" H0.bb.oovv, T.abb)
  let I2B_vooo := I2B_vooo + (-(es% "me,aeik->amik" H.b.ov, T.ab))
  let I2B_vooo := I2B_vooo + H.ab.vooo
  let dT_aab := half (es% "bcek,aeij->abcijk" I2B_vvvo, T.aa)
  let dT_aab := dT_aab - half (es% "mcjk,abim->abcijk" I2B_ovoo, T.aa)
  let dT_aab := dT_aab + (es% "acie,bejk->abcijk" I2B_vvov, T.ab)
  let dT_aab := dT_aab - (es% "amik,bcjm->abcijk" I2B_vooo, T.ab)
  let dT_aab := dT_aab + half (es% "abie,ecjk->abcijk" I2A_vvov, T.ab)
  let dT_aab := dT_aab - half (es% "amij,bcmk->abcijk" I2A_vooo, T.ab)
  let dT_aab := dT_aab - half (es% "mi,abcmjk->abcijk" H.a.oo, T.aab)
  let dT_aab := dT_aab - quarter (es% "mk,abcijm->abcijk" H.b.oo, T.aab)
  let dT_aab := dT_aab + half (es% "ae,ebcijk->abcijk" H.a.vv, T.aab)
  let dT_aab := dT_aab + quarter (es% "ce,abeijk->abcijk" H.b.vv, T.aab)
  let dT_aab := dT_aab + eighth (es% "mnij,abcmnk->abcijk" H.aa.oooo, T.aab)
  let dT_aab := dT_aab + half (es% "mnjk,abcimn->abcijk" H.ab.oooo, T.aab)
  let dT_aab := dT_aab + eighth (es% "abef,efcijk->abcijk" H.aa.vvvv, T.aab)
  let dT_aab := dT_aab + half (es% "bcef,aefijk->abcijk" H.ab.vvvv, T.aab)
  let dT_aab := dT_aab + (es% "amie,ebcmjk->abcijk" H.aa.voov, T.aab)
  let dT_aab := dT_aab + (es% "amie,becjmk->abcijk" H.ab.voov, T.abb)
  let dT_aab := dT_aab + quarter (es% "mcek,abeijm->abcijk" H.ab.ovvo, T.aaa)
  let dT_aab := dT_aab + quarter (es% "cmke,abeijm->abcijk" H.bb.voov, T.aab)
  let dT_aab := dT_aab - half (es% "amek,ebcijm->abcijk" H.ab.vovo, T.aab)
  let dT_aab := dT_aab - half (es% "mcie,abemjk->abcijk" H.ab.ovov, T.aab)
  dT_aab

/-- The second argument of the kernel call of `update_t3c`, `/repo/ccpy/cc/ccsdt.py:327-390`. -/
def residualT3c (T : Amps3) (H H0 : Ints) : Ex :=
  let I2B_vvvo := -half (es% "mnef,afbmnj->abej" H0.aa.oovv, T.aab)
  let I2B_vvvo := I2B_vvvo + (-(es% "mnef,afbmnj->abej" H0.ab.oovv, T.abb))
  let I2B_vvvo := I2B_vvvo + H.ab.vvvo
  let I2B_ovoo := half (es% "mnef,efbinj->mbij" H0.aa.oovv, T.aab)
  let I2B_ovoo := I2B_ovoo + (es% "mnef,efbinj->mbij" H0.ab.oovv, T.abb)
  let I2B_ovoo := I2B_ovoo - (es% "me,ebij->mbij" H.a.ov, T.ab)
  let I2B_ovoo := I2B_ovoo + H.ab.ovoo
  let I2B_vvov := -(es% "nmfe,afbinm->abie" H0.ab.oovv, T.aab)
  let I2B_vvov := I2B_vvov + (-half (es% "nmfe,afbinm->abie" H0.bb.oovv, T.abb))
  let I2B_vvov := I2B_vvov + H.ab.vvov
  let I2B_vooo := es% "nmfe,afeinj->amij" H0.ab.oovv, T.aab
  let I2B_vooo := I2B_vooo + half (es% "nmfe,afeinj->amij" H0.bb.oovv, T.abb)
  let I2B_vooo := I2B_vooo - (es% "me,aeij->amij" H.b.ov, T.ab)
  let I2B_vooo := I2B_vooo + H.ab.vooo
  let I2C_vvov := -half (es% "mnef,abfimn->abie" H0.bb.oovv, T.bbb)
  let I2C_vvov := I2C_vvov + (-(es% "nmfe,fabnim->abie" H0.ab.oovv, T.abb))
  let I2C_vvov := I2C_vvov + H.bb.vvov
  let I2C_vooo := es% "nmfe,faenij->amij" H0.ab.oovv, T.abb
  let I2C_vooo := I2C_vooo + half (es% "mnef,aefijn->amij" H0.bb.oovv, T.bbb)
  let I2C_vooo := I2C_vooo - (es% "me,cekj->cmkj" H.b.ov, T.bb)
  let I2C_vooo := I2C_vooo + H.bb.vooo
  let dT_abb := half (es% "abie,ecjk->abcijk" I2B_vvov, T.bb)
  let dT_abb := dT_abb - half (es% "amij,bcmk->abcijk" I2B_vooo, T.bb)
  let dT_abb := dT_abb + half (es% "cbke,aeij->abcijk" I2C_vvov, T.ab)
  let dT_abb := dT_abb - half (es% "cmkj,abim->abcijk" I2C_vooo, T.ab)
  let dT_abb := dT_abb + (es% "abej,ecik->abcijk" I2B_vvvo, T.ab)
  let dT_abb := dT_abb - (es% "mbij,acmk->abcijk" I2B_ovoo, T.ab)
  let dT_abb := dT_abb - quarter (es% "mi,abcmjk->abcijk" H.a.oo, T.abb)
  let dT_abb := dT_abb - half (es% "mj,abcimk->abcijk" H.b.oo, T.abb)
  let dT_abb := dT_abb + quarter (es% "ae,ebcijk->abcijk" H.a.vv, T.abb)
  let dT_abb := dT_abb + half (es% "be,aecijk->abcijk" H.b.vv, T.abb)
  let dT_abb := dT_abb + eighth (es% "mnjk,abcimn->abcijk" H.bb.oooo, T.abb)
  let dT_abb := dT_abb + half (es% "mnij,abcmnk->abcijk" H.ab.oooo, T.abb)
  let dT_abb := dT_abb + eighth (es% "bcef,aefijk->abcijk" H.bb.vvvv, T.abb)
  let dT_abb := dT_abb + half (es% "abef,efcijk->abcijk" H.ab.vvvv, T.abb)
  let dT_abb := dT_abb + quarter (es% "amie,ebcmjk->abcijk" H.aa.voov, T.abb)
  let dT_abb := dT_abb + quarter (es% "amie,ebcmjk->abcijk" H.ab.voov, T.bbb)
  let dT_abb := dT_abb + (es% "mbej,aecimk->abcijk" H.ab.ovvo, T.aab)
  let dT_abb := dT_abb + (es% "bmje,aecimk->abcijk" H.bb.voov, T.abb)
  let dT_abb := dT_abb - half (es% "mbie,aecmjk->abcijk" H.ab.ovov, T.abb)
  let dT_abb := dT_abb - half (es% "amej,ebcimk->abcijk" H.ab.vovo, T.abb)
  dT_abb

/-- The second argument of the kernel call of `update_t3d`, `/repo/ccpy/cc/ccsdt.py:392-423`. -/
def residualT3d (T : Amps3) (H H0 : Ints) : Ex :=
  let I2C_vvov := -half (es% "mnef,abfimn->abie" H0.bb.oovv, T.bbb)
  let I2C_vvov := I2C_vvov - (es% "nmfe,fabnim->abie" H0.ab.oovv, T.abb)
  let I2C_vvov := I2C_vvov + H.bb.vvov
  let I2C_vooo := half (es% "mnef,aefijn->amij" H0.bb.oovv, T.bbb)
  let I2C_vooo := I2C_vooo + (es% "nmfe,faenij->amij" H0.ab.oovv, T.abb)
  let I2C_vooo := I2C_vooo - (es% "me,aeij->amij" H.b.ov, T.bb)
  let I2C_vooo := I2C_vooo + H.bb.vooo
  let dT_bbb := -quarter (es% "amij,bcmk->abcijk" I2C_vooo, T.bb)
  let dT_bbb := dT_bbb + quarter (es% "abie,ecjk->abcijk" I2C_vvov, T.bb)
  let dT_bbb := dT_bbb - scale 1 12 (es% "mk,abcijm->abcijk" H.b.oo, T.bbb)
  let dT_bbb := dT_bbb + scale 1 12 (es% "ce,abeijk->abcijk" H.b.vv, T.bbb)
  let dT_bbb := dT_bbb + scale 1 24 (es% "mnij,abcmnk->abcijk" H.bb.oooo, T.bbb)
  let dT_bbb := dT_bbb + scale 1 24 (es% "abef,efcijk->abcijk" H.bb.vvvv, T.bbb)
  let dT_bbb := dT_bbb + quarter (es% "maei,ebcmjk->abcijk" H.ab.ovvo, T.abb)
  let dT_bbb := dT_bbb + quarter (es% "amie,ebcmjk->abcijk" H.bb.voov, T.bbb)
  dT_bbb

end Ccpy.Ccsdt
