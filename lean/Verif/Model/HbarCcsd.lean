import Verif.Model.TensorArrays

/-! The similarity-transformed Hamiltonian of CCSD, `/repo/ccpy/hbar/hbar_ccsd.py`, statement by statement. -/

namespace Ccpy.HbarCcsd
open Ccpy.Tensor

/-- `build_hbar_ccsd`, `/repo/ccpy/hbar/hbar_ccsd.py:4-304`.  `H0` and `H` are the same object, so every
assignment changes both. -/
def buildHbarCcsd (T : Amps) (H : Ints) (rhf : Bool) : Ints :=
  let H := { H with a.ov := H.a.ov + (es% "imae,em->ia" H.aa.oovv, T.a + es% "imae,em->ia" H.ab.oovv, T.b) }
  let H := { H with a.oo := (H.a.oo + (es% "je,ei->ji" H.a.ov, T.a + es% "jmie,em->ji" H.aa.ooov, T.a
      + es% "jmie,em->ji" H.ab.ooov, T.b + half (es% "jnef,efin->ji" H.aa.oovv, T.aa)
      + es% "jnef,efin->ji" H.ab.oovv, T.ab)) }
  let H := { H with a.vv := (H.a.vv + (-(es% "mb,am->ab" H.a.ov, T.a) + es% "ambe,em->ab" H.aa.vovv, T.a
      + es% "ambe,em->ab" H.ab.vovv, T.b - half (es% "mnbf,afmn->ab" H.aa.oovv, T.aa)
      - es% "mnbf,afmn->ab" H.ab.oovv, T.ab)) }
  let H := { H with b.ov := H.b.ov + (es% "imae,em->ia" H.bb.oovv, T.b + es% "miea,em->ia" H.ab.oovv, T.a) }
  let H := { H with b.oo := (H.b.oo + (es% "je,ei->ji" H.b.ov, T.b + es% "jmie,em->ji" H.bb.ooov, T.b
      + es% "mjei,em->ji" H.ab.oovo, T.a + half (es% "jnef,efin->ji" H.bb.oovv, T.bb)
      + es% "njfe,feni->ji" H.ab.oovv, T.ab)) }
  let H := { H with b.vv := (H.b.vv + (-(es% "mb,am->ab" H.b.ov, T.b) + es% "ambe,em->ab" H.bb.vovv, T.b
      + es% "maeb,em->ab" H.ab.ovvv, T.a - half (es% "mnbf,afmn->ab" H.bb.oovv, T.bb)
      - es% "nmfb,fanm->ab" H.ab.oovv, T.ab)) }
  let tau_aa := half T.aa + (es% "ai,bj->abij" T.a, T.a)
  let tau_aa := tau_aa - transpose [0, 1, 3, 2] tau_aa
  let tau_bb := if rhf then
      let tau_bb := tau_aa
      tau_bb
    else
      let tau_bb := half T.bb + (es% "ai,bj->abij" T.b, T.b)
      let tau_bb := tau_bb - transpose [0, 1, 3, 2] tau_bb
      tau_bb
  let tau_ab := T.ab + (es% "ai,bj->abij" T.a, T.b)
  let H := { H with aa.oooo := (half H.aa.oooo + (es% "nmje,ei->mnij" H.aa.ooov, T.a)
      + quarter (es% "mnef,efij->mnij" H.aa.oovv, tau_aa)) }
  let H := { H with aa.oooo := H.aa.oooo - transpose [0, 1, 3, 2] H.aa.oooo }
  let H := if rhf then
      let H := { H with bb.oooo := H.aa.oooo }
      H
    else
      let H := { H with bb.oooo := (half H.bb.oooo + (es% "nmje,ei->mnij" H.bb.ooov, T.b)
          + quarter (es% "mnef,efij->mnij" H.bb.oovv, tau_bb)) }
      let H := { H with bb.oooo := H.bb.oooo - transpose [0, 1, 3, 2] H.bb.oooo }
      H
  let H := { H with ab.oooo := (H.ab.oooo + (es% "mnej,ei->mnij" H.ab.oovo, T.a)
      + (es% "mnie,ej->mnij" H.ab.ooov, T.b) + (es% "mnef,efij->mnij" H.ab.oovv, tau_ab)) }
  let H := { H with aa.ooov := H.aa.ooov + (es% "mnfe,fi->mnie" H.aa.oovv, T.a) }
  let H := if rhf then
      let H := { H with bb.ooov := H.aa.ooov }
      H
    else
      let H := { H with bb.ooov := H.bb.ooov + (es% "mnfe,fi->mnie" H.bb.oovv, T.b) }
      H
  let H := { H with ab.ooov := H.ab.ooov + (es% "mnfe,fi->mnie" H.ab.oovv, T.a) }
  let H := { H with ab.oovo := H.ab.oovo + (es% "nmef,fi->nmei" H.ab.oovv, T.b) }
  let Q1 := (es% "mnjf,afin->amij" H.aa.ooov, T.aa) + (es% "mnjf,afin->amij" H.ab.ooov, T.ab)
  let Q2 := H.aa.voov + half (es% "amef,ei->amif" H.aa.vovv, T.a)
  let Q2 := es% "amif,fj->amij" Q2, T.a
  let Q1 := Q1 + Q2
  let Q1 := Q1 - transpose [0, 1, 3, 2] Q1
  let H := { H with aa.vooo := (H.aa.vooo + Q1 + (es% "me,aeij->amij" H.a.ov, T.aa
      - es% "nmij,an->amij" H.aa.oooo, T.a + half (es% "amef,efij->amij" H.aa.vovv, T.aa))) }
  let H := if rhf then
      let H := { H with bb.vooo := H.aa.vooo }
      H
    else
      let Q1 := (es% "mnjf,afin->amij" H.bb.ooov, T.bb) + (es% "nmfj,fani->amij" H.ab.oovo, T.ab)
      let Q2 := H.bb.voov + half (es% "amef,ei->amif" H.bb.vovv, T.b)
      let Q2 := es% "amif,fj->amij" Q2, T.b
      let Q1 := Q1 + Q2
      let Q1 := Q1 - transpose [0, 1, 3, 2] Q1
      let H := { H with bb.vooo := (H.bb.vooo + Q1 + (es% "me,aeij->amij" H.b.ov, T.bb
          - es% "nmij,an->amij" H.bb.oooo, T.b + half (es% "amef,efij->amij" H.bb.vovv, T.bb))) }
      H
  let Q1 := H.ab.voov + (es% "amfe,fi->amie" H.ab.vovv, T.a)
  let H := { H with ab.vooo := (H.ab.vooo + (es% "me,aeij->amij" H.b.ov, T.ab - es% "nmij,an->amij" H.ab.oooo, T.a
      + es% "mnjf,afin->amij" H.bb.ooov, T.ab + es% "nmfj,afin->amij" H.ab.oovo, T.aa
      - es% "nmif,afnj->amij" H.ab.ooov, T.ab + es% "amej,ei->amij" H.ab.vovo, T.a + es% "amie,ej->amij" Q1, T.b
      + es% "amef,efij->amij" H.ab.vovv, T.ab)) }
  let Q1 := H.ab.ovov + (es% "mafe,fj->maje" H.ab.ovvv, T.a)
  let H := { H with ab.ovoo := (H.ab.ovoo + (es% "me,eaji->maji" H.a.ov, T.ab - es% "mnji,an->maji" H.ab.oooo, T.b
      + es% "mnjf,fani->maji" H.aa.ooov, T.ab + es% "mnjf,fani->maji" H.ab.ooov, T.bb
      - es% "mnfi,fajn->maji" H.ab.oovo, T.ab + es% "maje,ei->maji" Q1, T.b + es% "maei,ej->maji" H.ab.ovvo, T.a
      + es% "mafe,feji->maji" H.ab.ovvv, T.ab)) }
  let H := { H with aa.voov := (H.aa.voov + (es% "amfe,fi->amie" H.aa.vovv, T.a)
      - (es% "nmie,an->amie" H.aa.ooov, T.a) + (es% "nmfe,afin->amie" H.aa.oovv, T.aa)
      + (es% "mnef,afin->amie" H.ab.oovv, T.ab)) }
  let H := if rhf then
      let H := { H with bb.voov := H.aa.voov }
      H
    else
      let H := { H with bb.voov := (H.bb.voov + (es% "amfe,fi->amie" H.bb.vovv, T.b)
          - (es% "nmie,an->amie" H.bb.ooov, T.b) + (es% "nmfe,afin->amie" H.bb.oovv, T.bb)
          + (es% "nmfe,fani->amie" H.ab.oovv, T.ab)) }
      H
  let H := { H with ab.voov := (H.ab.voov + (es% "amfe,fi->amie" H.ab.vovv, T.a)
      - (es% "nmie,an->amie" H.ab.ooov, T.a) + (es% "nmfe,afin->amie" H.ab.oovv, T.aa)
      + (es% "nmfe,afin->amie" H.bb.oovv, T.ab)) }
  let H := { H with ab.ovvo := (H.ab.ovvo + (es% "maef,fi->maei" H.ab.ovvv, T.b)
      - (es% "mnei,an->maei" H.ab.oovo, T.b) + (es% "mnef,afin->maei" H.ab.oovv, T.bb)
      + (es% "mnef,fani->maei" H.aa.oovv, T.ab)) }
  let H := { H with ab.ovov := (H.ab.ovov + (es% "mafe,fi->maie" H.ab.ovvv, T.a)
      - (es% "mnie,an->maie" H.ab.ooov, T.b) - (es% "mnfe,fain->maie" H.ab.oovv, T.ab)) }
  let H := { H with ab.vovo := (H.ab.vovo - (es% "nmei,an->amei" H.ab.oovo, T.a)
      + (es% "amef,fi->amei" H.ab.vovv, T.b) - (es% "nmef,afni->amei" H.ab.oovv, T.ab)) }
  let x2a_voov := H.aa.voov + half (es% "nmie,an->amie" H.aa.ooov, T.a)
  let H := { H with aa.vvov := (half H.aa.vvov - half (es% "me,abim->abie" H.a.ov, T.aa)
      - (es% "amie,bm->abie" x2a_voov, T.a) + quarter (es% "mnie,abmn->abie" H.aa.ooov, T.aa)
      + half (es% "abfe,fi->abie" H.aa.vvvv, T.a) + (es% "bnef,afin->abie" H.aa.vovv, T.aa)
      + (es% "bnef,afin->abie" H.ab.vovv, T.ab)) }
  let H := { H with aa.vvov := H.aa.vvov - transpose [1, 0, 2, 3] H.aa.vvov }
  let H := if rhf then
      let H := { H with bb.vvov := H.aa.vvov }
      H
    else
      let x2c_voov := H.bb.voov + half (es% "nmie,an->amie" H.bb.ooov, T.b)
      let H := { H with bb.vvov := (half H.bb.vvov - half (es% "me,abim->abie" H.b.ov, T.bb)
          - (es% "amie,bm->abie" x2c_voov, T.b) + quarter (es% "mnie,abmn->abie" H.bb.ooov, T.bb)
          + half (es% "abfe,fi->abie" H.bb.vvvv, T.b) + (es% "bnef,afin->abie" H.bb.vovv, T.bb)
          + (es% "nbfe,fani->abie" H.ab.ovvv, T.ab)) }
      let H := { H with bb.vvov := H.bb.vvov - transpose [1, 0, 2, 3] H.bb.vvov }
      H
  let x2b_voov := H.ab.voov + half (es% "nmie,an->amie" H.ab.ooov, T.a)
  let x2b_ovov := H.ab.ovov + half (es% "nmie,bm->nbie" H.ab.ooov, T.b)
  let H := { H with ab.vvov := (H.ab.vvov - (es% "me,abim->abie" H.b.ov, T.ab)
      - (es% "amie,bm->abie" x2b_voov, T.b) - (es% "mbie,am->abie" x2b_ovov, T.a)
      + (es% "nmie,abnm->abie" H.ab.ooov, T.ab) + (es% "abfe,fi->abie" H.ab.vvvv, T.a)
      + (es% "mbfe,afim->abie" H.ab.ovvv, T.aa) + (es% "bmef,afim->abie" H.bb.vovv, T.ab)
      - (es% "amfe,fbim->abie" H.ab.vovv, T.ab)) }
  let x2b_ovvo := H.ab.ovvo + half (es% "nmei,am->naei" H.ab.oovo, T.b)
  let x2b_vovo := H.ab.vovo + half (es% "nmei,bn->bmei" H.ab.oovo, T.a)
  let H := { H with ab.vvvo := (H.ab.vvvo - (es% "me,bami->baei" H.a.ov, T.ab)
      - (es% "maei,bm->baei" x2b_ovvo, T.a) - (es% "bmei,am->baei" x2b_vovo, T.b)
      + (es% "nmei,banm->baei" H.ab.oovo, T.ab) + (es% "baef,fi->baei" H.ab.vvvv, T.b)
      + (es% "bmef,afim->baei" H.ab.vovv, T.bb) + (es% "bmef,fami->baei" H.aa.vovv, T.ab)
      - (es% "maef,bfmi->baei" H.ab.ovvv, T.ab)) }
  let H := { H with aa.vvvv := (half H.aa.vvvv + quarter (es% "mnef,abmn->abef" H.aa.oovv, tau_aa)
      - (es% "amef,bm->abef" H.aa.vovv, T.a)) }
  let H := { H with aa.vvvv := H.aa.vvvv - transpose [1, 0, 2, 3] H.aa.vvvv }
  let H := if rhf then
      let H := { H with bb.vvvv := H.aa.vvvv }
      H
    else
      let H := { H with bb.vvvv := (half H.bb.vvvv + quarter (es% "mnef,abmn->abef" H.bb.oovv, tau_bb)
          - (es% "amef,bm->abef" H.bb.vovv, T.b)) }
      let H := { H with bb.vvvv := H.bb.vvvv - transpose [1, 0, 2, 3] H.bb.vvvv }
      H
  let H := { H with ab.vvvv := (H.ab.vvvv - (es% "mbef,am->abef" H.ab.ovvv, T.a)
      - (es% "amef,bm->abef" H.ab.vovv, T.b) + (es% "mnef,abmn->abef" H.ab.oovv, tau_ab)) }
  let H := { H with aa.vovv := H.aa.vovv - (es% "mnfe,an->amef" H.aa.oovv, T.a) }
  let H := if rhf then
      let H := { H with bb.vovv := H.aa.vovv }
      H
    else
      let H := { H with bb.vovv := H.bb.vovv - (es% "mnfe,an->amef" H.bb.oovv, T.b) }
      H
  let H := { H with ab.vovv := H.ab.vovv - (es% "nmef,an->amef" H.ab.oovv, T.a) }
  let H := { H with ab.ovvv := H.ab.ovvv - (es% "mnef,an->maef" H.ab.oovv, T.b) }
  H

/-- `get_ccsd_intermediates`, `/repo/ccpy/hbar/hbar_ccsd.py:307-556`. -/
def getCcsdIntermediates (T : Amps) (H H0 : Ints) (rhf : Bool) : Ints :=
  let tau_aa := half T.aa + (es% "ai,bj->abij" T.a, T.a)
  let tau_aa := tau_aa - transpose [0, 1, 3, 2] tau_aa
  let tau_bb := if rhf then
      let tau_bb := tau_aa
      tau_bb
    else
      let tau_bb := half T.bb + (es% "ai,bj->abij" T.b, T.b)
      let tau_bb := tau_bb - transpose [0, 1, 3, 2] tau_bb
      tau_bb
  let tau_ab := T.ab + (es% "ai,bj->abij" T.a, T.b)
  let H := { H with aa.vovv := H.aa.vovv + H0.aa.vovv }
  let H := if rhf then
      let H := { H with bb.vovv := H.aa.vovv }
      H
    else
      let H := { H with bb.vovv := H.bb.vovv + H0.bb.vovv }
      H
  let H := { H with ab.vovv := H.ab.vovv + H0.ab.vovv }
  let H := { H with ab.ovvv := H.ab.ovvv + H0.ab.ovvv }
  let H := { H with aa.ooov := H.aa.ooov + H0.aa.ooov }
  let H := if rhf then
      let H := { H with bb.ooov := H.aa.ooov }
      H
    else
      let H := { H with bb.ooov := H.bb.ooov + H0.bb.ooov }
      H
  let H := { H with ab.ooov := H.ab.ooov + H0.ab.ooov }
  let H := { H with ab.oovo := H.ab.oovo + H0.ab.oovo }
  let H := { H with aa.vvvv := (half H0.aa.vvvv + quarter (es% "mnef,abmn->abef" H0.aa.oovv, tau_aa)
      - (es% "amef,bm->abef" H0.aa.vovv, T.a)) }
  let H := { H with aa.vvvv := H.aa.vvvv - transpose [1, 0, 2, 3] H.aa.vvvv }
  let H := if rhf then
      let H := { H with bb.vvvv := H.aa.vvvv }
      H
    else
      let H := { H with bb.vvvv := (half H0.bb.vvvv + quarter (es% "mnef,abmn->abef" H0.bb.oovv, tau_bb)
          - (es% "amef,bm->abef" H0.bb.vovv, T.b)) }
      let H := { H with bb.vvvv := H.bb.vvvv - transpose [1, 0, 2, 3] H.bb.vvvv }
      H
  let H := { H with ab.vvvv := (H0.ab.vvvv - (es% "mbef,am->abef" H0.ab.ovvv, T.a)
      - (es% "amef,bm->abef" H0.ab.vovv, T.b) + (es% "mnef,abmn->abef" H0.ab.oovv, tau_ab)) }
  let H := { H with aa.oooo := (half H0.aa.oooo + (es% "nmje,ei->mnij" H0.aa.ooov, T.a)
      + quarter (es% "mnef,efij->mnij" H0.aa.oovv, tau_aa)) }
  let H := { H with aa.oooo := H.aa.oooo - transpose [0, 1, 3, 2] H.aa.oooo }
  let H := if rhf then
      let H := { H with bb.oooo := H.aa.oooo }
      H
    else
      let H := { H with bb.oooo := (half H0.bb.oooo + (es% "nmje,ei->mnij" H0.bb.ooov, T.b)
          + quarter (es% "mnef,efij->mnij" H0.bb.oovv, tau_bb)) }
      let H := { H with bb.oooo := H.bb.oooo - transpose [0, 1, 3, 2] H.bb.oooo }
      H
  let H := { H with ab.oooo := (H0.ab.oooo + (es% "mnej,ei->mnij" H0.ab.oovo, T.a)
      + (es% "mnie,ej->mnij" H0.ab.ooov, T.b) + (es% "mnef,efij->mnij" H0.ab.oovv, tau_ab)) }
  let H := { H with aa.voov := (H0.aa.voov + (es% "amfe,fi->amie" H0.aa.vovv, T.a)
      - (es% "nmie,an->amie" H.aa.ooov, T.a) + (es% "nmfe,afin->amie" H0.aa.oovv, T.aa)
      + (es% "mnef,afin->amie" H0.ab.oovv, T.ab)) }
  let H := if rhf then
      let H := { H with bb.voov := H.aa.voov }
      H
    else
      let H := { H with bb.voov := (H0.bb.voov + (es% "amfe,fi->amie" H0.bb.vovv, T.b)
          - (es% "nmie,an->amie" H.bb.ooov, T.b) + (es% "nmfe,afin->amie" H0.bb.oovv, T.bb)
          + (es% "nmfe,fani->amie" H0.ab.oovv, T.ab)) }
      H
  let H := { H with ab.voov := (H0.ab.voov + (es% "amfe,fi->amie" H0.ab.vovv, T.a)
      - (es% "nmie,an->amie" H.ab.ooov, T.a) + (es% "nmfe,afin->amie" H0.ab.oovv, T.aa)
      + (es% "nmfe,afin->amie" H0.bb.oovv, T.ab)) }
  let H := { H with ab.ovvo := (H0.ab.ovvo + (es% "maef,fi->maei" H0.ab.ovvv, T.b)
      - (es% "mnei,an->maei" H.ab.oovo, T.b) + (es% "mnef,afin->maei" H0.ab.oovv, T.bb)
      + (es% "mnef,fani->maei" H0.aa.oovv, T.ab)) }
  let H := { H with ab.ovov := (H0.ab.ovov + (es% "mafe,fi->maie" H0.ab.ovvv, T.a)
      - (es% "mnie,an->maie" H.ab.ooov, T.b) - (es% "mnfe,fain->maie" H0.ab.oovv, T.ab)) }
  let H := { H with ab.vovo := (H0.ab.vovo - (es% "nmei,an->amei" H.ab.oovo, T.a)
      + (es% "amef,fi->amei" H0.ab.vovv, T.b) - (es% "nmef,afni->amei" H0.ab.oovv, T.ab)) }
  let Q1 := (es% "mnjf,afin->amij" H.aa.ooov, T.aa) + (es% "mnjf,afin->amij" H.ab.ooov, T.ab)
  let Q2 := H0.aa.voov + half (es% "amef,ei->amif" H0.aa.vovv, T.a)
  let Q2 := es% "amif,fj->amij" Q2, T.a
  let Q1 := Q1 + Q2
  let Q1 := Q1 - transpose [0, 1, 3, 2] Q1
  let H := { H with aa.vooo := (H0.aa.vooo + Q1 + (es% "me,aeij->amij" H.a.ov, T.aa
      - es% "nmij,an->amij" H.aa.oooo, T.a + half (es% "amef,efij->amij" H0.aa.vovv, T.aa))) }
  let H := if rhf then
      let H := { H with bb.vooo := H.aa.vooo }
      H
    else
      let Q1 := (es% "mnjf,afin->amij" H.bb.ooov, T.bb) + (es% "nmfj,fani->amij" H.ab.oovo, T.ab)
      let Q2 := H0.bb.voov + half (es% "amef,ei->amif" H0.bb.vovv, T.b)
      let Q2 := es% "amif,fj->amij" Q2, T.b
      let Q1 := Q1 + Q2
      let Q1 := Q1 - transpose [0, 1, 3, 2] Q1
      let H := { H with bb.vooo := (H0.bb.vooo + Q1 + (es% "me,aeij->amij" H.b.ov, T.bb
          - es% "nmij,an->amij" H.bb.oooo, T.b + half (es% "amef,efij->amij" H0.bb.vovv, T.bb))) }
      H
  let Q1 := H0.ab.voov + (es% "amfe,fi->amie" H0.ab.vovv, T.a)
  let H := { H with ab.vooo := (H0.ab.vooo + (es% "me,aeij->amij" H.b.ov, T.ab - es% "nmij,an->amij" H.ab.oooo, T.a
      + es% "mnjf,afin->amij" H.bb.ooov, T.ab + es% "nmfj,afin->amij" H.ab.oovo, T.aa
      - es% "nmif,afnj->amij" H.ab.ooov, T.ab + es% "amej,ei->amij" H0.ab.vovo, T.a + es% "amie,ej->amij" Q1, T.b
      + es% "amef,efij->amij" H0.ab.vovv, T.ab)) }
  let Q1 := H0.ab.ovov + (es% "mafe,fj->maje" H0.ab.ovvv, T.a)
  let H := { H with ab.ovoo := (H0.ab.ovoo + (es% "me,eaji->maji" H.a.ov, T.ab - es% "mnji,an->maji" H.ab.oooo, T.b
      + es% "mnjf,fani->maji" H.aa.ooov, T.ab + es% "mnjf,fani->maji" H.ab.ooov, T.bb
      - es% "mnfi,fajn->maji" H.ab.oovo, T.ab + es% "maje,ei->maji" Q1, T.b + es% "maei,ej->maji" H0.ab.ovvo, T.a
      + es% "mafe,feji->maji" H0.ab.ovvv, T.ab)) }
  let x2a_voov := H.aa.voov + half (es% "nmie,an->amie" H.aa.ooov, T.a)
  let H := { H with aa.vvov := (half H0.aa.vvov - half (es% "me,abim->abie" H.a.ov, T.aa)
      - (es% "amie,bm->abie" x2a_voov, T.a) + quarter (es% "mnie,abmn->abie" H.aa.ooov, T.aa)
      + half (es% "abfe,fi->abie" H0.aa.vvvv, T.a) + (es% "bnef,afin->abie" H0.aa.vovv, T.aa)
      + (es% "bnef,afin->abie" H0.ab.vovv, T.ab)) }
  let H := { H with aa.vvov := H.aa.vvov - transpose [1, 0, 2, 3] H.aa.vvov }
  let H := if rhf then
      let H := { H with bb.vvov := H.aa.vvov }
      H
    else
      let x2c_voov := H.bb.voov + half (es% "nmie,an->amie" H.bb.ooov, T.b)
      let H := { H with bb.vvov := (half H0.bb.vvov - half (es% "me,abim->abie" H.b.ov, T.bb)
          - (es% "amie,bm->abie" x2c_voov, T.b) + quarter (es% "mnie,abmn->abie" H.bb.ooov, T.bb)
          + half (es% "abfe,fi->abie" H0.bb.vvvv, T.b) + (es% "bnef,afin->abie" H0.bb.vovv, T.bb)
          + (es% "nbfe,fani->abie" H0.ab.ovvv, T.ab)) }
      let H := { H with bb.vvov := H.bb.vvov - transpose [1, 0, 2, 3] H.bb.vvov }
      H
  let x2b_voov := H.ab.voov + half (es% "nmie,an->amie" H.ab.ooov, T.a)
  let x2b_ovov := H.ab.ovov + half (es% "nmie,bm->nbie" H.ab.ooov, T.b)
  let H := { H with ab.vvov := (H0.ab.vvov - (es% "me,abim->abie" H.b.ov, T.ab)
      - (es% "amie,bm->abie" x2b_voov, T.b) - (es% "mbie,am->abie" x2b_ovov, T.a)
      + (es% "nmie,abnm->abie" H.ab.ooov, T.ab) + (es% "abfe,fi->abie" H0.ab.vvvv, T.a)
      + (es% "mbfe,afim->abie" H0.ab.ovvv, T.aa) + (es% "bmef,afim->abie" H0.bb.vovv, T.ab)
      - (es% "amfe,fbim->abie" H0.ab.vovv, T.ab)) }
  let x2b_ovvo := H.ab.ovvo + half (es% "nmei,am->naei" H.ab.oovo, T.b)
  let x2b_vovo := H.ab.vovo + half (es% "nmei,bn->bmei" H.ab.oovo, T.a)
  let H := { H with ab.vvvo := (H0.ab.vvvo - (es% "me,bami->baei" H.a.ov, T.ab)
      - (es% "maei,bm->baei" x2b_ovvo, T.a) - (es% "bmei,am->baei" x2b_vovo, T.b)
      + (es% "nmei,banm->baei" H.ab.oovo, T.ab) + (es% "baef,fi->baei" H0.ab.vvvv, T.b)
      + (es% "bmef,afim->baei" H0.ab.vovv, T.bb) + (es% "bmef,fami->baei" H0.aa.vovv, T.ab)
      - (es% "maef,bfmi->baei" H0.ab.ovvv, T.ab)) }
  H

end Ccpy.HbarCcsd
