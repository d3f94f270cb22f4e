import Verif.Model.HbarCcsd

/-! Double electron-attachment and double ionisation EOM-CCSD with up to three-particle-one-hole and three-hole-one-particle
excitations, and spin-flip EOM-CCSD: `/repo/ccpy/eomcc/deaeom2.py`, `/repo/ccpy/eomcc/deaeom3.py`,
`/repo/ccpy/eomcc/dipeom3.py`, `/repo/ccpy/eomcc/sfeomccsd.py`, statement by statement. -/

namespace Ccpy.Tensor

/-- A `FockOperator` with two added particles or holes of different spins and at most one excitation,
`/repo/ccpy/models/operators.py:182-276`. -/
structure DoublyAttached where
  (ab aba abb : Ex)

/-- A `SpinFlipOperator` with one and two particle-hole pairs, `/repo/ccpy/models/operators.py:296-358`. -/
structure Flipped where
  (b ab bb : Ex)

end Ccpy.Tensor

namespace Ccpy.DeaEom2
open Ccpy.Tensor

/-- `build_HR_2B`, `/repo/ccpy/eomcc/deaeom2.py:25-29`. The operator `R` has the only block `R.ab`. -/
def buildHR2B (Rab : Ex) (T : Amps) (H : Ints) : Ex :=
  let x2b := es% "ae,eb->ab" H.a.vv, Rab
  let x2b := x2b + (es% "be,ae->ab" H.b.vv, Rab)
  let x2b := x2b + (es% "abef,ef->ab" H.ab.vvvv, Rab)
  x2b

end Ccpy.DeaEom2

namespace Ccpy.DeaEom
open Ccpy.Tensor

/-- `build_HR_2B`, `/repo/ccpy/eomcc/deaeom3.py:38-48`. -/
def buildHR2B (R : DoublyAttached) (T : Amps) (H : Ints) : Ex :=
  let x2b := es% "ae,eb->ab" H.a.vv, R.ab
  let x2b := x2b + (es% "be,ae->ab" H.b.vv, R.ab)
  let x2b := x2b + (es% "abef,ef->ab" H.ab.vvvv, R.ab)
  let x2b := x2b + (es% "me,abem->ab" H.a.ov, R.aba)
  let x2b := x2b + (es% "me,abem->ab" H.b.ov, R.abb)
  let x2b := x2b + (es% "nbfe,aefn->ab" H.ab.ovvv, R.aba)
  let x2b := x2b + half (es% "anef,ebfn->ab" H.aa.vovv, R.aba)
  let x2b := x2b + half (es% "bnef,aefn->ab" H.bb.vovv, R.abb)
  let x2b := x2b + (es% "anef,ebfn->ab" H.ab.vovv, R.abb)
  x2b

/-- `build_HR_3B`, `/repo/ccpy/eomcc/deaeom3.py:50-87`. -/
def buildHR3B (R : DoublyAttached) (T : Amps) (H : Ints) : Ex :=
  let x3b := half (es% "cake,eb->abck" H.aa.vvov, R.ab)
  let x3b := x3b + (es% "cbke,ae->abck" H.ab.vvov, R.ab)
  let x3b := x3b + (es% "ae,ebck->abck" H.a.vv, R.aba)
  let x3b := x3b + half (es% "be,aeck->abck" H.b.vv, R.aba)
  let x3b := x3b + (es% "abef,efck->abck" H.ab.vvvv, R.aba)
  let x3b := x3b + quarter (es% "acef,ebfk->abck" H.aa.vvvv, R.aba)
  let x3b := x3b + (es% "cmke,abem->abck" H.aa.voov, R.aba)
  let x3b := x3b + (es% "cmke,abem->abck" H.ab.voov, R.abb)
  let x3b := x3b - half (es% "mbke,aecm->abck" H.ab.ovov, R.aba)
  let x_ov := (es% "mbef,ef->mb" H.ab.ovvv, R.ab) + half (es% "mnef,ebfn->mb" H.aa.oovv, R.aba)
      + (es% "mnef,ebfn->mb" H.ab.oovv, R.abb)
  let x3b := x3b - half (es% "mb,acmk->abck" x_ov, T.aa)
  let x_vo := (es% "amef,ef->am" H.ab.vovv, R.ab) + half (es% "nmfe,aefn->am" H.bb.oovv, R.abb)
      + (es% "nmfe,aefn->am" H.ab.oovv, R.aba)
  let x3b := x3b - (es% "am,cbkm->abck" x_vo, T.ab)
  let x3b := x3b - half (es% "mk,abcm->abck" H.a.oo, R.aba)
  let x3b := x3b - (es% "abck->cbak" x3b)
  x3b

/-- `build_HR_3C`, `/repo/ccpy/eomcc/deaeom3.py:89-126`. -/
def buildHR3C (R : DoublyAttached) (T : Amps) (H : Ints) : Ex :=
  let x3c := es% "acek,eb->abck" H.ab.vvvo, R.ab
  let x3c := x3c + half (es% "cbke,ae->abck" H.bb.vvov, R.ab)
  let x3c := x3c + half (es% "ae,ebck->abck" H.a.vv, R.abb)
  let x3c := x3c + (es% "be,aeck->abck" H.b.vv, R.abb)
  let x3c := x3c + (es% "abef,efck->abck" H.ab.vvvv, R.abb)
  let x3c := x3c + quarter (es% "bcef,aefk->abck" H.bb.vvvv, R.abb)
  let x3c := x3c + (es% "mcek,abem->abck" H.ab.ovvo, R.aba)
  let x3c := x3c + (es% "cmke,abem->abck" H.bb.voov, R.abb)
  let x3c := x3c - half (es% "amek,ebcm->abck" H.ab.vovo, R.abb)
  let x_ov := (es% "mbef,ef->mb" H.ab.ovvv, R.ab) + half (es% "mnef,ebfn->mb" H.aa.oovv, R.aba)
      + (es% "mnef,ebfn->mb" H.ab.oovv, R.abb)
  let x3c := x3c - (es% "mb,acmk->abck" x_ov, T.ab)
  let x_vo := (es% "amef,ef->am" H.ab.vovv, R.ab) + half (es% "nmfe,aefn->am" H.bb.oovv, R.abb)
      + (es% "nmfe,aefn->am" H.ab.oovv, R.aba)
  let x3c := x3c - half (es% "am,bcmk->abck" x_vo, T.bb)
  let x3c := x3c - half (es% "mk,abcm->abck" H.b.oo, R.abb)
  let x3c := x3c - (es% "abck->acbk" x3c)
  x3c

/-- `HR`, `/repo/ccpy/eomcc/deaeom3.py:25-36`, before the result is flattened. -/
def HR (R : DoublyAttached) (T : Amps) (H : Ints) (flagRHF : Bool) : DoublyAttached :=
  let ab := buildHR2B R T H
  let aba := buildHR3B R T H
  ⟨ab, aba, if flagRHF then transpose [1, 0, 2, 3] aba else buildHR3C R T H⟩

end Ccpy.DeaEom

namespace Ccpy.DipEom
open Ccpy.Tensor

/-- `build_HR_2B`, `/repo/ccpy/eomcc/dipeom3.py:38-48`. -/
def buildHR2B (R : DoublyAttached) (T : Amps) (H : Ints) : Ex :=
  let x2b := -(es% "mi,mj->ij" H.a.oo, R.ab)
  let x2b := x2b - (es% "mj,im->ij" H.b.oo, R.ab)
  let x2b := x2b + (es% "mnij,mn->ij" H.ab.oooo, R.ab)
  let x2b := x2b + (es% "me,ijem->ij" H.a.ov, R.aba)
  let x2b := x2b + (es% "me,ijem->ij" H.b.ov, R.abb)
  let x2b := x2b - (es% "nmfj,imfn->ij" H.ab.oovo, R.aba)
  let x2b := x2b - half (es% "mnjf,imfn->ij" H.bb.ooov, R.abb)
  let x2b := x2b - half (es% "mnif,mjfn->ij" H.aa.ooov, R.aba)
  let x2b := x2b - (es% "mnif,mjfn->ij" H.ab.ooov, R.abb)
  x2b

/-- `build_HR_3B`, `/repo/ccpy/eomcc/dipeom3.py:50-78`. -/
def buildHR3B (R : DoublyAttached) (T : Amps) (H : Ints) : Ex :=
  let x3b := -half (es% "cmki,mj->ijck" H.aa.vooo, R.ab)
  let x3b := x3b - (es% "cmkj,im->ijck" H.ab.vooo, R.ab)
  let x3b := x3b - (es% "mk,ijcm->ijck" H.a.oo, R.aba)
  let x3b := x3b - half (es% "mj,imck->ijck" H.b.oo, R.aba)
  let x3b := x3b + half (es% "ce,ijek->ijck" H.a.vv, R.aba)
  let x3b := x3b + (es% "cmke,ijem->ijck" H.aa.voov, R.aba)
  let x3b := x3b + (es% "cmke,ijem->ijck" H.ab.voov, R.abb)
  let x3b := x3b + (es% "mnij,mnck->ijck" H.ab.oooo, R.aba)
  let x3b := x3b + quarter (es% "mnik,mjcn->ijck" H.aa.oooo, R.aba)
  let x3b := x3b - half (es% "cmej,imek->ijck" H.ab.vovo, R.aba)
  let x_ov := (es% "mnie,mn->ie" H.ab.ooov, R.ab) - (es% "nmfe,imfn->ie" H.ab.oovv, R.aba)
      - half (es% "nmfe,imfn->ie" H.bb.oovv, R.abb)
  let x_vo := (es% "mnej,mn->ej" H.ab.oovo, R.ab) - half (es% "mnef,mjfn->ej" H.aa.oovv, R.aba)
      - (es% "mnef,mjfn->ej" H.ab.oovv, R.abb)
  let x3b := x3b + (es% "ie,cekj->ijck" x_ov, T.ab)
  let x3b := x3b + half (es% "ej,ecik->ijck" x_vo, T.aa)
  let x3b := x3b - transpose [3, 1, 2, 0] x3b
  x3b

/-- `build_HR_3C`, `/repo/ccpy/eomcc/dipeom3.py:80-108`. -/
def buildHR3C (R : DoublyAttached) (T : Amps) (H : Ints) : Ex :=
  let x3c := -(es% "mcik,mj->ijck" H.ab.ovoo, R.ab)
  let x3c := x3c - half (es% "cmkj,im->ijck" H.bb.vooo, R.ab)
  let x3c := x3c - half (es% "mi,mjck->ijck" H.a.oo, R.abb)
  let x3c := x3c - (es% "mj,imck->ijck" H.b.oo, R.abb)
  let x3c := x3c + half (es% "ce,ijek->ijck" H.b.vv, R.abb)
  let x3c := x3c + (es% "mnij,mnck->ijck" H.ab.oooo, R.abb)
  let x3c := x3c + quarter (es% "mnjk,imcn->ijck" H.bb.oooo, R.abb)
  let x3c := x3c + (es% "mcek,ijem->ijck" H.ab.ovvo, R.aba)
  let x3c := x3c + (es% "cmke,ijem->ijck" H.bb.voov, R.abb)
  let x3c := x3c - half (es% "mcie,mjek->ijck" H.ab.ovov, R.abb)
  let x_ov := (es% "mnie,mn->ie" H.ab.ooov, R.ab) - (es% "nmfe,imfn->ie" H.ab.oovv, R.aba)
      - half (es% "nmfe,imfn->ie" H.bb.oovv, R.abb)
  let x_vo := (es% "mnej,mn->ej" H.ab.oovo, R.ab) - half (es% "mnef,mjfn->ej" H.aa.oovv, R.aba)
      - (es% "mnef,mjfn->ej" H.ab.oovv, R.abb)
  let x3c := x3c + (es% "ej,ecik->ijck" x_vo, T.ab)
  let x3c := x3c + half (es% "ie,ecjk->ijck" x_ov, T.bb)
  let x3c := x3c - (es% "ijck->ikcj" x3c)
  x3c

/-- `HR`, `/repo/ccpy/eomcc/dipeom3.py:25-36`, before the result is flattened. -/
def HR (R : DoublyAttached) (T : Amps) (H : Ints) (flagRHF : Bool) : DoublyAttached :=
  let ab := buildHR2B R T H
  let aba := buildHR3B R T H
  ⟨ab, aba, if flagRHF then transpose [1, 0, 2, 3] aba else buildHR3C R T H⟩

end Ccpy.DipEom

namespace Ccpy.SfEom
open Ccpy.Tensor

/-- `build_HR_1B`, `/repo/ccpy/eomcc/sfeomccsd.py:47-60`. -/
def buildHR1B (R : Flipped) (T : Amps) (H : Ints) : Ex :=
  let x1b := es% "ae,ei->ai" H.b.vv, R.b
  let x1b := x1b - (es% "mi,am->ai" H.a.oo, R.b)
  let x1b := x1b - (es% "maie,em->ai" H.ab.ovov, R.b)
  let x1b := x1b + (es% "me,eami->ai" H.a.ov, R.ab)
  let x1b := x1b + (es% "me,eami->ai" H.b.ov, R.bb)
  let x1b := x1b - half (es% "mnif,fanm->ai" H.aa.ooov, R.ab)
  let x1b := x1b - (es% "mnif,fanm->ai" H.ab.ooov, R.bb)
  let x1b := x1b + half (es% "anef,feni->ai" H.bb.vovv, R.bb)
  let x1b := x1b + (es% "nafe,feni->ai" H.ab.ovvv, R.ab)
  x1b

/-- `build_HR_2B`, `/repo/ccpy/eomcc/sfeomccsd.py:62-78`. -/
def buildHR2B (R : Flipped) (T : Amps) (H : Ints) (x_oo x_vv : Ex) : Ex :=
  let x2b := es% "abie,ej->abij" H.ab.vvov, R.b
  let x2b := x2b - half (es% "amij,bm->abij" H.aa.vooo, R.b)
  let x2b := x2b - (es% "mi,abmj->abij" H.a.oo, R.ab)
  let x2b := x2b + half (es% "be,aeij->abij" H.b.vv, R.ab)
  let x2b := x2b + half (es% "ae,ebij->abij" H.a.vv, R.ab)
  let x2b := x2b + quarter (es% "mnij,abmn->abij" H.aa.oooo, R.ab)
  let x2b := x2b + half (es% "abef,efij->abij" H.ab.vvvv, R.ab)
  let x2b := x2b + (es% "amie,ebmj->abij" H.aa.voov, R.ab)
  let x2b := x2b + (es% "amie,ebmj->abij" H.ab.voov, R.bb)
  let x2b := x2b - (es% "mbie,aemj->abij" H.ab.ovov, R.ab)
  let x2b := x2b - (es% "mj,abim->abij" x_oo, T.ab)
  let x2b := x2b + half (es% "be,aeij->abij" x_vv, T.aa)
  let x2b := x2b - transpose [0, 1, 3, 2] x2b
  x2b

/-- `build_HR_2C`, `/repo/ccpy/eomcc/sfeomccsd.py:80-96`. -/
def buildHR2C (R : Flipped) (T : Amps) (H : Ints) (x_oo x_vv : Ex) : Ex :=
  let x2c := half (es% "abie,ej->abij" H.bb.vvov, R.b)
  let x2c := x2c - (es% "maji,bm->abij" H.ab.ovoo, R.b)
  let x2c := x2c - half (es% "mj,abim->abij" H.a.oo, R.bb)
  let x2c := x2c - half (es% "mi,abmj->abij" H.b.oo, R.bb)
  let x2c := x2c + (es% "ae,ebij->abij" H.b.vv, R.bb)
  let x2c := x2c + quarter (es% "abef,efij->abij" H.bb.vvvv, R.bb)
  let x2c := x2c + half (es% "nmji,abmn->abij" H.ab.oooo, R.bb)
  let x2c := x2c + (es% "amie,ebmj->abij" H.bb.voov, R.bb)
  let x2c := x2c + (es% "maei,ebmj->abij" H.ab.ovvo, R.ab)
  let x2c := x2c - (es% "maje,ebim->abij" H.ab.ovov, R.bb)
  let x2c := x2c - half (es% "mj,abim->abij" x_oo, T.bb)
  let x2c := x2c + (es% "be,eaji->abij" x_vv, T.ab)
  let x2c := x2c - transpose [1, 0, 2, 3] x2c
  x2c

/-- `HR`, `/repo/ccpy/eomcc/sfeomccsd.py:24-45`, before the result is flattened. -/
def HR (R : Flipped) (T : Amps) (H : Ints) : Flipped :=
  let b := buildHR1B R T H
  let x_oo := (es% "nmfe,fenj->mj" H.ab.oovv, R.ab) + half (es% "mnef,fenj->mj" H.bb.oovv, R.bb)
      - (es% "mnje,em->nj" H.ab.ooov, R.b)
  let x_vv := -half (es% "mnef,fbnm->be" H.aa.oovv, R.ab) - (es% "mnef,fbnm->be" H.ab.oovv, R.bb)
      - (es% "mbfe,em->bf" H.ab.ovvv, R.b)
  let ab := buildHR2B R T H x_oo x_vv
  let bb := buildHR2C R T H x_oo x_vv
  ⟨b, ab, bb⟩

end Ccpy.SfEom
