import Verif.Model.HbarCcsd

/-! Left CCSD, `/repo/ccpy/left/left_ccsd.py` and `/repo/ccpy/left/left_cc_intermediates.py`, statement by statement. -/

namespace Ccpy.LeftCcsd
open Ccpy.Tensor

/-- `build_left_ccsd_intermediates`, `/repo/ccpy/left/left_cc_intermediates.py:5-27`; `X` are the empty arrays it
starts from. -/
def buildLeftCcsdIntermediates (X : Ints) (L T : Amps) : Ints :=
  let X := { X with a.vv := half (es% "efmn,fgnm->ge" L.aa, T.aa) + (es% "abij,fbij->fa" L.ab, T.ab) }
  let X := { X with a.oo := -half (es% "efmo,efno->mn" L.aa, T.aa) - (es% "abij,abnj->in" L.ab, T.ab) }
  let X := { X with b.vv := half (es% "abij,fbij->fa" L.bb, T.bb) + (es% "abij,afij->fb" L.ab, T.ab) }
  let X := { X with b.oo := -half (es% "abij,abnj->in" L.bb, T.bb) - (es% "abij,abin->jn" L.ab, T.ab) }
  X

/-- `build_LH_1A`, `/repo/ccpy/left/left_ccsd.py:91-105`. -/
def buildLH1A (L LH : Amps) (X H : Ints) : Amps :=
  let LH := { LH with a := es% "ea,ei->ai" H.a.vv, L.a }
  let LH := { LH with a := LH.a - (es% "im,am->ai" H.a.oo, L.a) }
  let LH := { LH with a := LH.a + (es% "eima,em->ai" H.aa.voov, L.a) }
  let LH := { LH with a := LH.a + (es% "ieam,em->ai" H.ab.ovvo, L.b) }
  let LH := { LH with a := LH.a + half (es% "fena,efin->ai" H.aa.vvov, L.aa) }
  let LH := { LH with a := LH.a + (es% "efan,efin->ai" H.ab.vvvo, L.ab) }
  let LH := { LH with a := LH.a - half (es% "finm,afmn->ai" H.aa.vooo, L.aa) }
  let LH := { LH with a := LH.a - (es% "ifmn,afmn->ai" H.ab.ovoo, L.ab) }
  let LH := { LH with a := LH.a + (es% "ge,eiga->ai" X.a.vv, H.aa.vovv) }
  let LH := { LH with a := LH.a + (es% "mn,nima->ai" X.a.oo, H.aa.ooov) }
  let LH := { LH with a := LH.a + (es% "fa,maef->em" X.b.vv, H.ab.ovvv) }
  let LH := { LH with a := LH.a + (es% "in,mnei->em" X.b.oo, H.ab.oovo) }
  LH

/-- `build_LH_1B`, `/repo/ccpy/left/left_ccsd.py:108-126`. -/
def buildLH1B (L LH : Amps) (X H : Ints) : Amps :=
  let LH := { LH with b := es% "ea,ei->ai" H.b.vv, L.b }
  let LH := { LH with b := LH.b - (es% "im,am->ai" H.b.oo, L.b) }
  let LH := { LH with b := LH.b + (es% "eima,em->ai" H.ab.voov, L.a) }
  let LH := { LH with b := LH.b + (es% "eima,em->ai" H.bb.voov, L.b) }
  let LH := { LH with b := LH.b - half (es% "finm,afmn->ai" H.bb.vooo, L.bb) }
  let LH := { LH with b := LH.b - (es% "finm,fanm->ai" H.ab.vooo, L.ab) }
  let LH := { LH with b := LH.b + (es% "fena,feni->ai" H.ab.vvov, L.ab) }
  let LH := { LH with b := LH.b + half (es% "fena,efin->ai" H.bb.vvov, L.bb) }
  let LH := { LH with b := LH.b + (es% "ge,eiga->ai" X.b.vv, H.bb.vovv + es% "mo,oima->ai" X.b.oo, H.bb.ooov) }
  let LH := { LH with b := LH.b + (es% "ge,eiga->ai" X.a.vv, H.ab.vovv + es% "mo,oima->ai" X.a.oo, H.ab.ooov) }
  LH

/-- `build_LH_2A`, `/repo/ccpy/left/left_ccsd.py:128-141`. -/
def buildLH2A (L LH : Amps) (X H : Ints) : Amps :=
  let LH := { LH with aa := half (es% "ea,ebij->abij" H.a.vv, L.aa) }
  let LH := { LH with aa := LH.aa - half (es% "im,abmj->abij" H.a.oo, L.aa) }
  let LH := { LH with aa := LH.aa + (es% "jb,ai->abij" H.a.ov, L.a) }
  let LH := { LH with aa := LH.aa - half (es% "ea,ijeb->abij" X.a.vv, H.aa.oovv) }
  let LH := { LH with aa := LH.aa + half (es% "im,mjab->abij" X.a.oo, H.aa.oovv) }
  let LH := { LH with aa := LH.aa + (es% "eima,ebmj->abij" H.aa.voov, L.aa) }
  let LH := { LH with aa := LH.aa + (es% "ieam,bejm->abij" H.ab.ovvo, L.ab) }
  let LH := { LH with aa := LH.aa + eighth (es% "ijmn,abmn->abij" H.aa.oooo, L.aa) }
  let LH := { LH with aa := LH.aa + eighth (es% "efab,efij->abij" H.aa.vvvv, L.aa) }
  let LH := { LH with aa := LH.aa + half (es% "ejab,ei->abij" H.aa.vovv, L.a) }
  let LH := { LH with aa := LH.aa - half (es% "ijmb,am->abij" H.aa.ooov, L.a) }
  let LH := { LH with aa := LH.aa - (transpose [1, 0, 2, 3] LH.aa + transpose [0, 1, 3, 2] LH.aa
      - transpose [1, 0, 3, 2] LH.aa) }
  LH

/-- `build_LH_2B`, `/repo/ccpy/left/left_ccsd.py:144-167`. -/
def buildLH2B (L LH : Amps) (X H : Ints) : Amps :=
  let LH := { LH with ab := -(es% "ijmb,am->abij" H.ab.ooov, L.a) }
  let LH := { LH with ab := LH.ab - (es% "ijam,bm->abij" H.ab.oovo, L.b) }
  let LH := { LH with ab := LH.ab + (es% "ejab,ei->abij" H.ab.vovv, L.a) }
  let LH := { LH with ab := LH.ab + (es% "ieab,ej->abij" H.ab.ovvv, L.b) }
  let LH := { LH with ab := LH.ab + (es% "ijmn,abmn->abij" H.ab.oooo, L.ab) }
  let LH := { LH with ab := LH.ab + (es% "efab,efij->abij" H.ab.vvvv, L.ab) }
  let LH := { LH with ab := LH.ab + (es% "ejmb,aeim->abij" H.ab.voov, L.aa) }
  let LH := { LH with ab := LH.ab + (es% "eima,ebmj->abij" H.aa.voov, L.ab) }
  let LH := { LH with ab := LH.ab + (es% "ejmb,aeim->abij" H.bb.voov, L.ab) }
  let LH := { LH with ab := LH.ab + (es% "ieam,ebmj->abij" H.ab.ovvo, L.bb) }
  let LH := { LH with ab := LH.ab - (es% "iemb,aemj->abij" H.ab.ovov, L.ab) }
  let LH := { LH with ab := LH.ab - (es% "ejam,ebim->abij" H.ab.vovo, L.ab) }
  let LH := { LH with ab := LH.ab - (es% "ea,ijeb->abij" X.a.vv, H.ab.oovv) }
  let LH := { LH with ab := LH.ab + (es% "im,mjab->abij" X.a.oo, H.ab.oovv) }
  let LH := { LH with ab := LH.ab - (es% "ea,jibe->baji" X.b.vv, H.ab.oovv) }
  let LH := { LH with ab := LH.ab + (es% "im,jmba->baji" X.b.oo, H.ab.oovv) }
  let LH := { LH with ab := LH.ab + (es% "ea,ebij->abij" H.a.vv, L.ab) }
  let LH := { LH with ab := LH.ab + (es% "eb,aeij->abij" H.b.vv, L.ab) }
  let LH := { LH with ab := LH.ab - (es% "im,abmj->abij" H.a.oo, L.ab) }
  let LH := { LH with ab := LH.ab - (es% "jm,abim->abij" H.b.oo, L.ab) }
  let LH := { LH with ab := LH.ab + (es% "jb,ai->abij" H.b.ov, L.a) }
  let LH := { LH with ab := LH.ab + (es% "ia,bj->abij" H.a.ov, L.b) }
  LH

/-- `build_LH_2C`, `/repo/ccpy/left/left_ccsd.py:169-182`. -/
def buildLH2C (L LH : Amps) (X H : Ints) : Amps :=
  let LH := { LH with bb := half (es% "ea,ebij->abij" H.b.vv, L.bb) }
  let LH := { LH with bb := LH.bb - half (es% "im,abmj->abij" H.b.oo, L.bb) }
  let LH := { LH with bb := LH.bb + (es% "jb,ai->abij" H.b.ov, L.b) }
  let LH := { LH with bb := LH.bb - half (es% "ea,ijeb->abij" X.b.vv, H.bb.oovv) }
  let LH := { LH with bb := LH.bb + half (es% "im,mjab->abij" X.b.oo, H.bb.oovv) }
  let LH := { LH with bb := LH.bb + (es% "eima,ebmj->abij" H.bb.voov, L.bb) }
  let LH := { LH with bb := LH.bb + (es% "eima,ebmj->abij" H.ab.voov, L.ab) }
  let LH := { LH with bb := LH.bb + eighth (es% "ijmn,abmn->abij" H.bb.oooo, L.bb) }
  let LH := { LH with bb := LH.bb + eighth (es% "efab,efij->abij" H.bb.vvvv, L.bb) }
  let LH := { LH with bb := LH.bb + half (es% "ejab,ei->abij" H.bb.vovv, L.b) }
  let LH := { LH with bb := LH.bb - half (es% "ijmb,am->abij" H.bb.ooov, L.b) }
  let LH := { LH with bb := LH.bb - (transpose [1, 0, 2, 3] LH.bb + transpose [0, 1, 3, 2] LH.bb
      - transpose [1, 0, 3, 2] LH.bb) }
  LH

/-- `LH_fun`, `/repo/ccpy/left/left_ccsd.py:71-89`, before the result is flattened; `X` are the empty intermediates. -/
def LHFun (LH L T : Amps) (X H : Ints) (rhf : Bool) : Amps :=
  let X := buildLeftCcsdIntermediates X L T
  let LH := buildLH1A L LH X H
  let LH := if rhf then { LH with b := LH.a } else buildLH1B L LH X H
  let LH := buildLH2A L LH X H
  let LH := buildLH2B L LH X H
  let LH := if rhf then { LH with bb := LH.aa } else buildLH2C L LH X H
  LH

/-- `update`, `/repo/ccpy/left/left_ccsd.py:5-35`: the residual, before the kernels `update_l1`, `update_l2` use it. -/
def leftResidual (L LH T : Amps) (X H : Ints) (isGround rhf : Bool) : Amps :=
  let X := buildLeftCcsdIntermediates X L T
  let LH := buildLH1A L LH X H
  let LH := if rhf then { LH with b := LH.a } else buildLH1B L LH X H
  let LH := buildLH2A L LH X H
  let LH := buildLH2B L LH X H
  let LH := if rhf then { LH with bb := LH.aa } else buildLH2C L LH X H
  let LH := if isGround then
      let LH := { LH with a := LH.a + transpose [1, 0] H.a.ov }
      let LH := { LH with b := LH.b + transpose [1, 0] H.b.ov }
      let LH := { LH with aa := LH.aa + transpose [2, 3, 0, 1] H.aa.oovv }
      let LH := { LH with ab := LH.ab + transpose [2, 3, 0, 1] H.ab.oovv }
      let LH := { LH with bb := LH.bb + transpose [2, 3, 0, 1] H.bb.oovv }
      LH
    else LH
  LH

end Ccpy.LeftCcsd
