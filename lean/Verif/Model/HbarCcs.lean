import Verif.Model.TensorArrays

/-! CCS-like similarity-transformed Hamiltonian, `/repo/ccpy/hbar/hbar_ccs.py`, statement by statement. -/

namespace Ccpy.HbarCcs
open Ccpy.Tensor

/-- `get_pre_ccs_intermediates`, `/repo/ccpy/hbar/hbar_ccs.py:107-149`. -/
def getPreCcsIntermediates (X : Ints) (T : Amps) (H : Ints) (rhf : Bool) : Ints :=
  let X := { X with a.ov := H.a.ov + (es% "mnef,fn->me" H.aa.oovv, T.a + es% "mnef,fn->me" H.ab.oovv, T.b) }
  let X := if rhf then
      let X := { X with b.ov := X.a.ov }
      X
    else
      let X := { X with b.ov := H.b.ov + (es% "nmfe,fn->me" H.ab.oovv, T.a + es% "mnef,fn->me" H.bb.oovv, T.b) }
      X
  let X := { X with a.vv := H.a.vv + (es% "anef,fn->ae" H.aa.vovv, T.a + es% "anef,fn->ae" H.ab.vovv, T.b
      - half (es% "mnef,afmn->ae" H.aa.oovv, T.aa) - es% "mnef,afmn->ae" H.ab.oovv, T.ab) }
  let X := { X with a.oo := H.a.oo + (es% "mnif,fn->mi" H.aa.ooov, T.a + es% "mnif,fn->mi" H.ab.ooov, T.b
      + es% "me,ei->mi" X.a.ov, T.a + half (es% "mnef,efin->mi" H.aa.oovv, T.aa)
      + es% "mnef,efin->mi" H.ab.oovv, T.ab) }
  let X := if rhf then
      let X := { X with b.vv := X.a.vv }
      let X := { X with b.oo := X.a.oo }
      X
    else
      let X := { X with b.vv := H.b.vv + (es% "anef,fn->ae" H.bb.vovv, T.b + es% "nafe,fn->ae" H.ab.ovvv, T.a
          - half (es% "mnef,afmn->ae" H.bb.oovv, T.bb) - es% "nmfe,fanm->ae" H.ab.oovv, T.ab) }
      let X := { X with b.oo := H.b.oo + (es% "mnif,fn->mi" H.bb.ooov, T.b + es% "nmfi,fn->mi" H.ab.oovo, T.a
          + es% "me,ei->mi" X.b.ov, T.b + half (es% "mnef,efin->mi" H.bb.oovv, T.bb)
          + es% "nmfe,feni->mi" H.ab.oovv, T.ab) }
      X
  X

/-- `get_ccs_intermediates_opt`, `/repo/ccpy/hbar/hbar_ccs.py:3-105`. -/
def getCcsIntermediatesOpt (X : Ints) (T : Amps) (H : Ints) (rhf : Bool) : Ints :=
  let X := { X with a.vv := X.a.vv - (es% "me,am->ae" X.a.ov, T.a) }
  let X := if rhf then
      let X := { X with b.vv := X.a.vv }
      X
    else
      let X := { X with b.vv := X.b.vv - (es% "me,am->ae" X.b.ov, T.b) }
      X
  let X := { X with aa.ooov := es% "mnfe,fi->mnie" H.aa.oovv, T.a }
  let X := { X with aa.vovv := -(es% "mnfe,an->amef" H.aa.oovv, T.a) }
  let X := { X with aa.oooo := half H.aa.oooo + (es% "nmje,ei->mnij" (H.aa.ooov + half X.aa.ooov), T.a) }
  let X := { X with aa.oooo := X.aa.oooo - transpose [0, 1, 3, 2] X.aa.oooo }
  let X := { X with aa.voov := H.aa.voov + (es% "amfe,fi->amie" (H.aa.vovv + half X.aa.vovv), T.a
      - es% "nmie,an->amie" (H.aa.ooov + half X.aa.ooov), T.a) }
  let L_amie := H.aa.voov + half (es% "amef,ei->amif" H.aa.vovv, T.a)
  let X_mnij := H.aa.oooo + (es% "mnie,ej->mnij" X.aa.ooov, T.a)
  let X := { X with aa.vooo := half H.aa.vooo + (es% "amie,ej->amij" L_amie, T.a
      - quarter (es% "mnij,am->anij" X_mnij, T.a)) }
  let X := { X with aa.vooo := X.aa.vooo - transpose [0, 1, 3, 2] X.aa.vooo }
  let L_amie := es% "mnie,am->anie" H.aa.ooov, T.a
  let X := { X with aa.vvov := H.aa.vvov + (es% "anie,bn->abie" L_amie, T.a) }
  let X := if rhf then
      let X := { X with bb.ooov := X.aa.ooov }
      let X := { X with bb.oooo := X.aa.oooo }
      let X := { X with bb.vovv := X.aa.vovv }
      let X := { X with bb.voov := X.aa.voov }
      let X := { X with bb.vooo := X.aa.vooo }
      let X := { X with bb.vvov := X.aa.vvov }
      X
    else
      let X := { X with bb.ooov := es% "mnfe,fi->mnie" H.bb.oovv, T.b }
      let X := { X with bb.oooo := half H.bb.oooo + (es% "nmje,ei->mnij" (H.bb.ooov + half X.bb.ooov), T.b) }
      let X := { X with bb.oooo := X.bb.oooo - transpose [0, 1, 3, 2] X.bb.oooo }
      let X := { X with bb.vovv := -(es% "mnfe,an->amef" H.bb.oovv, T.b) }
      let X := { X with bb.voov := H.bb.voov + (es% "amfe,fi->amie" (H.bb.vovv + half X.bb.vovv), T.b
          - es% "nmie,an->amie" (H.bb.ooov + half X.bb.ooov), T.b) }
      let L_amie := H.bb.voov + half (es% "amef,ei->amif" H.bb.vovv, T.b)
      let X_mnij := H.bb.oooo + (es% "mnie,ej->mnij" X.bb.ooov, T.b)
      let X := { X with bb.vooo := half H.bb.vooo + (es% "amie,ej->amij" L_amie, T.b
          - quarter (es% "mnij,am->anij" X_mnij, T.b)) }
      let X := { X with bb.vooo := X.bb.vooo - transpose [0, 1, 3, 2] X.bb.vooo }
      let L_amie := es% "mnie,am->anie" H.bb.ooov, T.b
      let X := { X with bb.vvov := H.bb.vvov + (es% "anie,bn->abie" L_amie, T.b) }
      X
  let X := { X with ab.ooov := es% "mnfe,fi->mnie" H.ab.oovv, T.a }
  let X := { X with ab.oovo := es% "nmef,fi->nmei" H.ab.oovv, T.b }
  let X := { X with ab.oooo := H.ab.oooo + (es% "mnej,ei->mnij" (H.ab.oovo + half X.ab.oovo), T.a
      + es% "mnie,ej->mnij" (H.ab.ooov + half X.ab.ooov), T.b) }
  let X := { X with ab.vovv := -(es% "nmef,an->amef" H.ab.oovv, T.a) }
  let X := { X with ab.ovvv := -(es% "mnef,an->maef" H.ab.oovv, T.b) }
  let X := { X with ab.voov := H.ab.voov + (es% "amfe,fi->amie" (H.ab.vovv + half X.ab.vovv), T.a
      - es% "nmie,an->amie" (H.ab.ooov + half X.ab.ooov), T.a) }
  let X := { X with ab.ovvo := H.ab.ovvo + (es% "maef,fi->maei" (H.ab.ovvv + half X.ab.ovvv), T.b
      - es% "mnei,an->maei" (H.ab.oovo + half X.ab.oovo), T.b) }
  let X := { X with ab.ovov := H.ab.ovov + (es% "mafe,fi->maie" (H.ab.ovvv + half X.ab.ovvv), T.a
      - es% "mnie,an->maie" (H.ab.ooov + half X.ab.ooov), T.b) }
  let X := { X with ab.vovo := H.ab.vovo - (es% "nmei,an->amei" (H.ab.oovo + half X.ab.oovo), T.a
      - es% "amef,fi->amei" (H.ab.vovv + half X.ab.vovv), T.b) }
  let X_mnij := H.ab.oooo + (es% "mnif,fj->mnij" H.ab.ooov, T.b + es% "mnej,ei->mnij" H.ab.oovo, T.a)
  let L_mbej := H.ab.ovvo + (es% "mbef,fj->mbej" H.ab.ovvv, T.b)
  let X := { X with ab.ovoo := H.ab.ovoo + (es% "mbej,ei->mbij" L_mbej, T.a - es% "mnij,bn->mbij" X_mnij, T.b) }
  let L_amie := es% "amef,ei->amif" (H.ab.vovv + X.ab.vovv), T.a
  let X := { X with ab.vooo := H.ab.vooo + (es% "amif,fj->amij" (H.ab.voov + L_amie), T.b) }
  let X := { X with ab.vvvo := H.ab.vvvo - (es% "anej,bn->abej" H.ab.vovo, T.b) }
  let X := { X with ab.vvov := H.ab.vvov - (es% "mbie,am->abie" H.ab.ovov, T.a) }
  X

end Ccpy.HbarCcs
