import Verif.Model.HbarCcsd

/-! Electron-attachment and ionisation EOM-CCSD with up to two-particle-one-hole and two-hole-one-particle excitations, and their
left counterparts: `/repo/ccpy/eomcc/eaeom2.py`, `/repo/ccpy/eomcc/ipeom2.py`, `/repo/ccpy/left/left_eaeom2.py`,
`/repo/ccpy/left/left_ipeom2.py`, statement by statement. -/

namespace Ccpy.Tensor

/-- A `FockOperator` with one added particle or hole and at most one excitation, `/repo/ccpy/models/operators.py:182-276`. -/
structure Attached where
  (a aa ab : Ex)

end Ccpy.Tensor

namespace Ccpy.EaEom
open Ccpy.Tensor

/-- `build_HR_1A`, `/repo/ccpy/eomcc/eaeom2.py:32-39`. -/
def buildHR1A (R : Attached) (T : Amps) (H : Ints) : Ex :=
  let X1A := es% "ae,e->a" H.a.vv, R.a
  let X1A := X1A + half (es% "anef,efn->a" H.aa.vovv, R.aa)
  let X1A := X1A + (es% "anef,efn->a" H.ab.vovv, R.ab)
  let X1A := X1A + (es% "me,aem->a" H.a.ov, R.aa)
  let X1A := X1A + (es% "me,aem->a" H.b.ov, R.ab)
  X1A

/-- `build_HR_2A`, `/repo/ccpy/eomcc/eaeom2.py:41-55`. -/
def buildHR2A (R : Attached) (T : Amps) (H : Ints) : Ex :=
  let X2A := half (es% "baje,e->abj" H.aa.vvov, R.a)
  let X2A := X2A - half (es% "mj,abm->abj" H.a.oo, R.aa)
  let X2A := X2A + quarter (es% "abef,efj->abj" H.aa.vvvv, R.aa)
  let I1 := half (es% "mnef,efn->m" H.aa.oovv, R.aa) + (es% "mnef,efn->m" H.ab.oovv, R.ab)
  let X2A := X2A - half (es% "m,abmj->abj" I1, T.aa)
  let X2A := X2A + (es% "ae,ebj->abj" H.a.vv, R.aa)
  let X2A := X2A + (es% "bmje,aem->abj" H.aa.voov, R.aa)
  let X2A := X2A + (es% "bmje,aem->abj" H.ab.voov, R.ab)
  let X2A := X2A - transpose [1, 0, 2] X2A
  X2A

/-- `build_HR_2B`, `/repo/ccpy/eomcc/eaeom2.py:57-72`. -/
def buildHR2B (R : Attached) (T : Amps) (H : Ints) : Ex :=
  let X2B := es% "abej,e->abj" H.ab.vvvo, R.a
  let X2B := X2B + (es% "ae,ebj->abj" H.a.vv, R.ab)
  let X2B := X2B + (es% "be,aej->abj" H.b.vv, R.ab)
  let X2B := X2B - (es% "mj,abm->abj" H.b.oo, R.ab)
  let X2B := X2B + (es% "mbej,aem->abj" H.ab.ovvo, R.aa)
  let X2B := X2B + (es% "bmje,aem->abj" H.bb.voov, R.ab)
  let X2B := X2B - (es% "amej,ebm->abj" H.ab.vovo, R.ab)
  let X2B := X2B + (es% "abef,efj->abj" H.ab.vvvv, R.ab)
  let I1 := half (es% "mnef,efn->m" H.aa.oovv, R.aa) + (es% "mnef,efn->m" H.ab.oovv, R.ab)
  let X2B := X2B - (es% "m,abmj->abj" I1, T.ab)
  X2B

/-- `HR`, `/repo/ccpy/eomcc/eaeom2.py:24-30`, before the result is flattened. -/
def HR (R : Attached) (T : Amps) (H : Ints) : Attached := ⟨buildHR1A R T H, buildHR2A R T H, buildHR2B R T H⟩

/-- `build_LH_1A`, `/repo/ccpy/left/left_eaeom2.py:27-32`. -/
def buildLH1A (L LH : Attached) (T : Amps) (H : Ints) : Attached :=
  let LH := { LH with a := es% "e,ea->a" L.a, H.a.vv }
  let LH := { LH with a := LH.a + half (es% "efn,fena->a" L.aa, H.aa.vvov) }
  let LH := { LH with a := LH.a + (es% "efn,efan->a" L.ab, H.ab.vvvo) }
  LH

/-- `build_LH_2A`, `/repo/ccpy/left/left_eaeom2.py:34-49`. -/
def buildLH2A (L LH : Attached) (T : Amps) (H : Ints) : Attached :=
  let LH := { LH with aa := es% "a,jb->abj" L.a, H.a.ov }
  let LH := { LH with aa := LH.aa + half (es% "e,ejab->abj" L.a, H.aa.vovv) }
  let LH := { LH with aa := LH.aa + (es% "ebj,ea->abj" L.aa, H.a.vv) }
  let LH := { LH with aa := LH.aa - half (es% "abm,jm->abj" L.aa, H.a.oo) }
  let LH := { LH with aa := LH.aa + (es% "afn,fjnb->abj" L.aa, H.aa.voov) }
  let LH := { LH with aa := LH.aa + (es% "afn,jfbn->abj" L.ab, H.ab.ovvo) }
  let LH := { LH with aa := LH.aa + quarter (es% "efj,efab->abj" L.aa, H.aa.vvvv) }
  let I1 := half (es% "efn,efmn->m" L.aa, T.aa) + (es% "efn,efmn->m" L.ab, T.ab)
  let LH := { LH with aa := LH.aa - half (es% "mjab,m->abj" H.aa.oovv, I1) }
  let LH := { LH with aa := LH.aa - transpose [1, 0, 2] LH.aa }
  LH

/-- `build_LH_2B`, `/repo/ccpy/left/left_eaeom2.py:51-67`. -/
def buildLH2B (L LH : Attached) (T : Amps) (H : Ints) : Attached :=
  let LH := { LH with ab := es% "a,jb->abj" L.a, H.b.ov }
  let LH := { LH with ab := LH.ab + (es% "e,ejab->abj" L.a, H.ab.vovv) }
  let LH := { LH with ab := LH.ab - (es% "abm,jm->abj" L.ab, H.b.oo) }
  let LH := { LH with ab := LH.ab + (es% "aej,eb->abj" L.ab, H.b.vv) }
  let LH := { LH with ab := LH.ab + (es% "ebj,ea->abj" L.ab, H.a.vv) }
  let LH := { LH with ab := LH.ab + (es% "afn,fjnb->abj" L.aa, H.ab.voov) }
  let LH := { LH with ab := LH.ab + (es% "afn,fjnb->abj" L.ab, H.bb.voov) }
  let LH := { LH with ab := LH.ab - (es% "ebm,ejam->abj" L.ab, H.ab.vovo) }
  let LH := { LH with ab := LH.ab + (es% "efj,efab->abj" L.ab, H.ab.vvvv) }
  let I1 := half (es% "efn,efmn->m" L.aa, T.aa) + (es% "efn,efmn->m" L.ab, T.ab)
  let LH := { LH with ab := LH.ab - (es% "mjab,m->abj" H.ab.oovv, I1) }
  LH

/-- `LH_fun`, `/repo/ccpy/left/left_eaeom2.py:19-25`, before the result is flattened. -/
def LHFun (LH L : Attached) (T : Amps) (H : Ints) : Attached :=
  let LH := buildLH1A L LH T H
  let LH := buildLH2A L LH T H
  let LH := buildLH2B L LH T H
  LH

end Ccpy.EaEom

namespace Ccpy.IpEom
open Ccpy.Tensor

/-- `build_HR_1A`, `/repo/ccpy/eomcc/ipeom2.py:33-41`. -/
def buildHR1A (R : Attached) (T : Amps) (H : Ints) : Ex :=
  let X1A := -(es% "mi,m->i" H.a.oo, R.a)
  let X1A := X1A - half (es% "mnif,mfn->i" H.aa.ooov, R.aa)
  let X1A := X1A - (es% "mnif,mfn->i" H.ab.ooov, R.ab)
  let X1A := X1A + (es% "me,iem->i" H.a.ov, R.aa)
  let X1A := X1A + (es% "me,iem->i" H.b.ov, R.ab)
  X1A

/-- `build_HR_2A`, `/repo/ccpy/eomcc/ipeom2.py:43-57`. -/
def buildHR2A (R : Attached) (T : Amps) (H : Ints) : Ex :=
  let X2A := -half (es% "bmji,m->ibj" H.aa.vooo, R.a)
  let X2A := X2A + half (es% "be,iej->ibj" H.a.vv, R.aa)
  let X2A := X2A + quarter (es% "mnij,mbn->ibj" H.aa.oooo, R.aa)
  let I1 := -half (es% "mnef,mfn->e" H.aa.oovv, R.aa) - (es% "mnef,mfn->e" H.ab.oovv, R.ab)
  let X2A := X2A + half (es% "e,ebij->ibj" I1, T.aa)
  let X2A := X2A - (es% "mi,mbj->ibj" H.a.oo, R.aa)
  let X2A := X2A + (es% "bmje,iem->ibj" H.aa.voov, R.aa)
  let X2A := X2A + (es% "bmje,iem->ibj" H.ab.voov, R.ab)
  let X2A := X2A - transpose [2, 1, 0] X2A
  X2A

/-- `build_HR_2B`, `/repo/ccpy/eomcc/ipeom2.py:59-74`. -/
def buildHR2B (R : Attached) (T : Amps) (H : Ints) : Ex :=
  let X2B := -(es% "mbij,m->ibj" H.ab.ovoo, R.a)
  let X2B := X2B - (es% "mi,mbj->ibj" H.a.oo, R.ab)
  let X2B := X2B - (es% "mj,ibm->ibj" H.b.oo, R.ab)
  let X2B := X2B + (es% "be,iej->ibj" H.b.vv, R.ab)
  let X2B := X2B + (es% "mnij,mbn->ibj" H.ab.oooo, R.ab)
  let X2B := X2B + (es% "mbej,iem->ibj" H.ab.ovvo, R.aa)
  let X2B := X2B + (es% "bmje,iem->ibj" H.bb.voov, R.ab)
  let X2B := X2B - (es% "mbie,mej->ibj" H.ab.ovov, R.ab)
  let I1 := -half (es% "mnef,mfn->e" H.aa.oovv, R.aa) - (es% "mnef,mfn->e" H.ab.oovv, R.ab)
  let X2B := X2B + (es% "e,ebij->ibj" I1, T.ab)
  X2B

/-- `HR`, `/repo/ccpy/eomcc/ipeom2.py:25-31`, before the result is flattened. -/
def HR (R : Attached) (T : Amps) (H : Ints) : Attached := ⟨buildHR1A R T H, buildHR2A R T H, buildHR2B R T H⟩

/-- `build_LH_1A`, `/repo/ccpy/left/left_ipeom2.py:43-48`. -/
def buildLH1A (L LH : Attached) (T : Amps) (H : Ints) : Attached :=
  let LH := { LH with a := -(es% "m,im->i" L.a, H.a.oo) }
  let LH := { LH with a := LH.a - half (es% "mfn,finm->i" L.aa, H.aa.vooo) }
  let LH := { LH with a := LH.a - (es% "mfn,ifmn->i" L.ab, H.ab.ovoo) }
  LH

/-- `build_LH_2A`, `/repo/ccpy/left/left_ipeom2.py:50-65`. -/
def buildLH2A (L LH : Attached) (T : Amps) (H : Ints) : Attached :=
  let LH := { LH with aa := es% "i,jb->ibj" L.a, H.a.ov }
  let LH := { LH with aa := LH.aa - half (es% "m,ijmb->ibj" L.a, H.aa.ooov) }
  let LH := { LH with aa := LH.aa + half (es% "iej,eb->ibj" L.aa, H.a.vv) }
  let LH := { LH with aa := LH.aa - (es% "ibm,jm->ibj" L.aa, H.a.oo) }
  let LH := { LH with aa := LH.aa + quarter (es% "mbn,ijmn->ibj" L.aa, H.aa.oooo) }
  let LH := { LH with aa := LH.aa + (es% "iem,ejmb->ibj" L.aa, H.aa.voov) }
  let LH := { LH with aa := LH.aa + (es% "iem,jebm->ibj" L.ab, H.ab.ovvo) }
  let I1 := -half (es% "mfn,efmn->e" L.aa, T.aa) - (es% "mfn,efmn->e" L.ab, T.ab)
  let LH := { LH with aa := LH.aa + half (es% "e,ijeb->ibj" I1, H.aa.oovv) }
  let LH := { LH with aa := LH.aa - transpose [2, 1, 0] LH.aa }
  LH

/-- `build_LH_2B`, `/repo/ccpy/left/left_ipeom2.py:67-83`. -/
def buildLH2B (L LH : Attached) (T : Amps) (H : Ints) : Attached :=
  let LH := { LH with ab := es% "i,jb->ibj" L.a, H.b.ov }
  let LH := { LH with ab := LH.ab - (es% "m,ijmb->ibj" L.a, H.ab.ooov) }
  let LH := { LH with ab := LH.ab - (es% "ibm,jm->ibj" L.ab, H.b.oo) }
  let LH := { LH with ab := LH.ab - (es% "mbj,im->ibj" L.ab, H.a.oo) }
  let LH := { LH with ab := LH.ab + (es% "iej,eb->ibj" L.ab, H.b.vv) }
  let LH := { LH with ab := LH.ab + (es% "mbn,ijmn->ibj" L.ab, H.ab.oooo) }
  let LH := { LH with ab := LH.ab + (es% "iem,ejmb->ibj" L.aa, H.ab.voov) }
  let LH := { LH with ab := LH.ab + (es% "iem,ejmb->ibj" L.ab, H.bb.voov) }
  let LH := { LH with ab := LH.ab - (es% "mej,iemb->ibj" L.ab, H.ab.ovov) }
  let I1 := -half (es% "mfn,efmn->e" L.aa, T.aa) - (es% "mfn,efmn->e" L.ab, T.ab)
  let LH := { LH with ab := LH.ab + (es% "e,ijeb->ibj" I1, H.ab.oovv) }
  LH

/-- `LH_fun`, `/repo/ccpy/left/left_ipeom2.py:35-41`, before the result is flattened. -/
def LHFun (LH L : Attached) (T : Amps) (H : Ints) : Attached :=
  let LH := buildLH1A L LH T H
  let LH := buildLH2A L LH T H
  let LH := buildLH2B L LH T H
  LH

end Ccpy.IpEom
