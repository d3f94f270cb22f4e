import Verif.Model.HbarCcsd

/-! EOM-CCSD, `/repo/ccpy/eomcc/eomccsd.py` and `/repo/ccpy/eomcc/eomccsd_intermediates.py`, statement by statement. -/

namespace Ccpy.EomCcsd
open Ccpy.Tensor

/-- `get_eomccsd_intermediates`, `/repo/ccpy/eomcc/eomccsd_intermediates.py:6-43`; `X` are the empty arrays it starts
from. -/
def getEomccsdIntermediates (X H : Ints) (R : Amps) : Ints :=
  let X := { X with a.oo := ((es% "mnjf,fn->mj" H.aa.ooov, R.a) + (es% "mnjf,fn->mj" H.ab.ooov, R.b)
      + half (es% "mnef,efjn->mj" H.aa.oovv, R.aa) + (es% "mnef,efjn->mj" H.ab.oovv, R.ab)) }
  let X := { X with a.vv := ((es% "bnef,fn->be" H.aa.vovv, R.a) + (es% "bnef,fn->be" H.ab.vovv, R.b)
      - half (es% "mnef,bfmn->be" H.aa.oovv, R.aa) - (es% "mnef,bfmn->be" H.ab.oovv, R.ab)) }
  let X := { X with b.oo := ((es% "nmfk,fn->mk" H.ab.oovo, R.a) + (es% "mnkf,fn->mk" H.bb.ooov, R.b)
      + (es% "nmfe,fenk->mk" H.ab.oovv, R.ab) + half (es% "mnef,efkn->mk" H.bb.oovv, R.bb)) }
  let X := { X with b.vv := ((es% "ncfe,fn->ce" H.ab.ovvv, R.a) + (es% "cnef,fn->ce" H.bb.vovv, R.b)
      - (es% "nmfe,fcnm->ce" H.ab.oovv, R.ab) - half (es% "mnef,fcnm->ce" H.bb.oovv, R.bb)) }
  X

/-- `build_HR_1A`, `/repo/ccpy/eomcc/eomccsd.py:50-62`. -/
def buildHR1A (R : Amps) (H : Ints) : Ex :=
  let X1A := -(es% "mi,am->ai" H.a.oo, R.a)
  let X1A := X1A + (es% "ae,ei->ai" H.a.vv, R.a)
  let X1A := X1A + (es% "amie,em->ai" H.aa.voov, R.a)
  let X1A := X1A + (es% "amie,em->ai" H.ab.voov, R.b)
  let X1A := X1A - half (es% "mnif,afmn->ai" H.aa.ooov, R.aa)
  let X1A := X1A - (es% "mnif,afmn->ai" H.ab.ooov, R.ab)
  let X1A := X1A + half (es% "anef,efin->ai" H.aa.vovv, R.aa)
  let X1A := X1A + (es% "anef,efin->ai" H.ab.vovv, R.ab)
  let X1A := X1A + (es% "me,aeim->ai" H.a.ov, R.aa)
  let X1A := X1A + (es% "me,aeim->ai" H.b.ov, R.ab)
  X1A

/-- `build_HR_1B`, `/repo/ccpy/eomcc/eomccsd.py:64-76`. -/
def buildHR1B (R : Amps) (H : Ints) : Ex :=
  let X1B := -(es% "mi,am->ai" H.b.oo, R.b)
  let X1B := X1B + (es% "ae,ei->ai" H.b.vv, R.b)
  let X1B := X1B + (es% "maei,em->ai" H.ab.ovvo, R.a)
  let X1B := X1B + (es% "amie,em->ai" H.bb.voov, R.b)
  let X1B := X1B - (es% "nmfi,fanm->ai" H.ab.oovo, R.ab)
  let X1B := X1B - half (es% "mnif,afmn->ai" H.bb.ooov, R.bb)
  let X1B := X1B + (es% "nafe,feni->ai" H.ab.ovvv, R.ab)
  let X1B := X1B + half (es% "anef,efin->ai" H.bb.vovv, R.bb)
  let X1B := X1B + (es% "me,eami->ai" H.a.ov, R.ab)
  let X1B := X1B + (es% "me,aeim->ai" H.b.ov, R.bb)
  X1B

/-- `build_HR_2A`, `/repo/ccpy/eomcc/eomccsd.py:78-92`. -/
def buildHR2A (R T : Amps) (X H : Ints) : Ex :=
  let X2A := -half (es% "mi,abmj->abij" H.a.oo, R.aa)
  let X2A := X2A + half (es% "ae,ebij->abij" H.a.vv, R.aa)
  let X2A := X2A + eighth (es% "mnij,abmn->abij" H.aa.oooo, R.aa)
  let X2A := X2A + eighth (es% "abef,efij->abij" H.aa.vvvv, R.aa)
  let X2A := X2A + (es% "amie,ebmj->abij" H.aa.voov, R.aa)
  let X2A := X2A + (es% "amie,bejm->abij" H.ab.voov, R.ab)
  let X2A := X2A - half (es% "bmji,am->abij" H.aa.vooo, R.a)
  let X2A := X2A + half (es% "baje,ei->abij" H.aa.vvov, R.a)
  let X2A := X2A + half (es% "be,aeij->abij" X.a.vv, T.aa)
  let X2A := X2A - half (es% "mj,abim->abij" X.a.oo, T.aa)
  let X2A := X2A - transpose [1, 0, 2, 3] X2A
  let X2A := X2A - transpose [0, 1, 3, 2] X2A
  X2A

/-- `build_HR_2B`, `/repo/ccpy/eomcc/eomccsd.py:94-116`. -/
def buildHR2B (R T : Amps) (X H : Ints) : Ex :=
  let X2B := es% "ae,ebij->abij" H.a.vv, R.ab
  let X2B := X2B + (es% "be,aeij->abij" H.b.vv, R.ab)
  let X2B := X2B - (es% "mi,abmj->abij" H.a.oo, R.ab)
  let X2B := X2B - (es% "mj,abim->abij" H.b.oo, R.ab)
  let X2B := X2B + (es% "mnij,abmn->abij" H.ab.oooo, R.ab)
  let X2B := X2B + (es% "abef,efij->abij" H.ab.vvvv, R.ab)
  let X2B := X2B + (es% "amie,ebmj->abij" H.aa.voov, R.ab)
  let X2B := X2B + (es% "amie,ebmj->abij" H.ab.voov, R.bb)
  let X2B := X2B + (es% "mbej,aeim->abij" H.ab.ovvo, R.aa)
  let X2B := X2B + (es% "bmje,aeim->abij" H.bb.voov, R.ab)
  let X2B := X2B - (es% "mbie,aemj->abij" H.ab.ovov, R.ab)
  let X2B := X2B - (es% "amej,ebim->abij" H.ab.vovo, R.ab)
  let X2B := X2B + (es% "abej,ei->abij" H.ab.vvvo, R.a)
  let X2B := X2B + (es% "abie,ej->abij" H.ab.vvov, R.b)
  let X2B := X2B - (es% "mbij,am->abij" H.ab.ovoo, R.a)
  let X2B := X2B - (es% "amij,bm->abij" H.ab.vooo, R.b)
  let X2B := X2B + (es% "ae,ebij->abij" X.a.vv, T.ab)
  let X2B := X2B - (es% "mi,abmj->abij" X.a.oo, T.ab)
  let X2B := X2B + (es% "be,aeij->abij" X.b.vv, T.ab)
  let X2B := X2B - (es% "mj,abim->abij" X.b.oo, T.ab)
  X2B

/-- `build_HR_2C`, `/repo/ccpy/eomcc/eomccsd.py:118-132`. -/
def buildHR2C (R T : Amps) (X H : Ints) : Ex :=
  let X2C := -half (es% "mi,abmj->abij" H.b.oo, R.bb)
  let X2C := X2C + half (es% "ae,ebij->abij" H.b.vv, R.bb)
  let X2C := X2C + eighth (es% "mnij,abmn->abij" H.bb.oooo, R.bb)
  let X2C := X2C + eighth (es% "abef,efij->abij" H.bb.vvvv, R.bb)
  let X2C := X2C + (es% "amie,ebmj->abij" H.bb.voov, R.bb)
  let X2C := X2C + (es% "maei,ebmj->abij" H.ab.ovvo, R.ab)
  let X2C := X2C - half (es% "bmji,am->abij" H.bb.vooo, R.b)
  let X2C := X2C + half (es% "baje,ei->abij" H.bb.vvov, R.b)
  let X2C := X2C + half (es% "be,aeij->abij" X.b.vv, T.bb)
  let X2C := X2C - half (es% "mj,abim->abij" X.b.oo, T.bb)
  let X2C := X2C - transpose [1, 0, 2, 3] X2C
  let X2C := X2C - transpose [0, 1, 3, 2] X2C
  X2C

/-- `HR`, `/repo/ccpy/eomcc/eomccsd.py:30-48`, before `flatten` (whose order is C10): the five arrays of `dR`.  `X` are the
empty arrays that `get_eomccsd_intermediates` starts from. -/
def HR (R T : Amps) (X H : Ints) (rhf : Bool) : Amps :=
  let X := getEomccsdIntermediates X H R
  let a := buildHR1A R H
  let b := if rhf then a else buildHR1B R H
  let aa := buildHR2A R T X H
  let ab := buildHR2B R T X H
  let bb := if rhf then aa else buildHR2C R T X H
  ⟨a, b, aa, ab, bb⟩

/-- The stored excitation amplitudes: arrays 11 to 15. -/
def excitation : Amps where
  a := .arr 11 [1, 0]
  b := .arr 12 [3, 2]
  aa := .arr 13 [1, 1, 0, 0]
  ab := .arr 14 [1, 3, 0, 2]
  bb := .arr 15 [3, 3, 2, 2]

end Ccpy.EomCcsd
