import Verif.Model.EomCcsd

/-! Linear-response CCSD, `/repo/ccpy/lrcc/lrccsd.py`, `/repo/ccpy/lrcc/lrccsd_intermediates.py` and
`/repo/ccpy/energy/lrcc_energy.py`, statement by statement: the arrays handed to the Fortran update kernels.  `T1` are the amplitudes of
the response, `W` the one-body property. -/

namespace Ccpy.LrCcsd
open Ccpy.Tensor

/-- The one-body property, an `Integral` object of order 1, `/repo/ccpy/models/integrals.py:37-48`. -/
structure Prop1 where
  (a b : One)

/-- `get_lrccsd_intermediates`, `/repo/ccpy/lrcc/lrccsd_intermediates.py:3-37`. -/
def getLrccsdIntermediates (X H : Ints) (R : Amps) : Ints :=
  let X := { X with a.oo := ((es% "mnjf,fn->mj" H.aa.ooov, R.a) + (es% "mnjf,fn->mj" H.ab.ooov, R.b)
      + half (es% "mnef,efjn->mj" H.aa.oovv, R.aa) + (es% "mnef,efjn->mj" H.ab.oovv, R.ab)) }
  let X := { X with a.vv := ((es% "bnef,fn->be" H.aa.vovv, R.a) + (es% "bnef,fn->be" H.ab.vovv, R.b)
      - half (es% "mnef,bfmn->be" H.aa.oovv, R.aa) - (es% "mnef,bfmn->be" H.ab.oovv, R.ab)) }
  let X := { X with b.oo := ((es% "nmfk,fn->mk" H.ab.oovo, R.a) + (es% "mnkf,fn->mk" H.bb.ooov, R.b)
      + (es% "nmfe,fenk->mk" H.ab.oovv, R.ab) + half (es% "mnef,efkn->mk" H.bb.oovv, R.bb)) }
  let X := { X with b.vv := ((es% "ncfe,fn->ce" H.ab.ovvv, R.a) + (es% "cnef,fn->ce" H.bb.vovv, R.b)
      - (es% "nmfe,fcnm->ce" H.ab.oovv, R.ab) - half (es% "mnef,fcnm->ce" H.bb.oovv, R.bb)) }
  X

/-- The second argument of the kernel call of `update_t1a`, `/repo/ccpy/lrcc/lrccsd.py:34-52`. -/
def residualT1a (T1 T : Amps) (W : Prop1) (H : Ints) : Ex :=
  let dT := -(es% "mi,am->ai" H.a.oo, T1.a)
  let dT := dT + (es% "ae,ei->ai" H.a.vv, T1.a)
  let dT := dT + (es% "amie,em->ai" H.aa.voov, T1.a)
  let dT := dT + (es% "amie,em->ai" H.ab.voov, T1.b)
  let dT := dT - half (es% "mnif,afmn->ai" H.aa.ooov, T1.aa)
  let dT := dT - (es% "mnif,afmn->ai" H.ab.ooov, T1.ab)
  let dT := dT + half (es% "anef,efin->ai" H.aa.vovv, T1.aa)
  let dT := dT + (es% "anef,efin->ai" H.ab.vovv, T1.ab)
  let dT := dT + (es% "me,aeim->ai" H.a.ov, T1.aa)
  let dT := dT + (es% "me,aeim->ai" H.b.ov, T1.ab)
  let I1A_oo := W.a.oo + (es% "me,ei->mi" W.a.ov, T.a)
  let dT := dT - (es% "mi,am->ai" I1A_oo, T.a)
  let dT := dT + (es% "ae,ei->ai" W.a.vv, T.a)
  let dT := dT + (es% "me,aeim->ai" W.a.ov, T.aa)
  let dT := dT + (es% "me,aeim->ai" W.b.ov, T.ab)
  dT + W.a.vo

/-- The second argument of the kernel call of `update_t1b`, `/repo/ccpy/lrcc/lrccsd.py:62-80`. -/
def residualT1b (T1 T : Amps) (W : Prop1) (H : Ints) : Ex :=
  let dT := -(es% "mi,am->ai" H.b.oo, T1.b)
  let dT := dT + (es% "ae,ei->ai" H.b.vv, T1.b)
  let dT := dT + (es% "maei,em->ai" H.ab.ovvo, T1.a)
  let dT := dT + (es% "amie,em->ai" H.bb.voov, T1.b)
  let dT := dT - (es% "nmfi,fanm->ai" H.ab.oovo, T1.ab)
  let dT := dT - half (es% "mnif,afmn->ai" H.bb.ooov, T1.bb)
  let dT := dT + (es% "nafe,feni->ai" H.ab.ovvv, T1.ab)
  let dT := dT + half (es% "anef,efin->ai" H.bb.vovv, T1.bb)
  let dT := dT + (es% "me,eami->ai" H.a.ov, T1.ab)
  let dT := dT + (es% "me,aeim->ai" H.b.ov, T1.bb)
  let I1B_oo := W.b.oo + (es% "me,ei->mi" W.b.ov, T.b)
  let dT := dT - (es% "mi,am->ai" I1B_oo, T.b)
  let dT := dT + (es% "ae,ei->ai" W.b.vv, T.b)
  let dT := dT + (es% "me,aeim->ai" W.b.ov, T.bb)
  let dT := dT + (es% "me,eami->ai" W.a.ov, T.ab)
  dT + W.b.vo

/-- The second argument of the kernel call of `update_t2a`, `/repo/ccpy/lrcc/lrccsd.py:90-108`. -/
def residualT2a (T1 T : Amps) (W : Prop1) (X H : Ints) : Ex :=
  let dT := -half (es% "mi,abmj->abij" H.a.oo, T1.aa)
  let dT := dT + half (es% "ae,ebij->abij" H.a.vv, T1.aa)
  let dT := dT + eighth (es% "mnij,abmn->abij" H.aa.oooo, T1.aa)
  let dT := dT + eighth (es% "abef,efij->abij" H.aa.vvvv, T1.aa)
  let dT := dT + (es% "amie,ebmj->abij" H.aa.voov, T1.aa)
  let dT := dT + (es% "amie,bejm->abij" H.ab.voov, T1.ab)
  let dT := dT - half (es% "bmji,am->abij" H.aa.vooo, T1.a)
  let dT := dT + half (es% "baje,ei->abij" H.aa.vvov, T1.a)
  let dT := dT + half (es% "be,aeij->abij" X.a.vv, T.aa)
  let dT := dT - half (es% "mj,abim->abij" X.a.oo, T.aa)
  let I1A_oo := W.a.oo + (es% "me,ei->mi" W.a.ov, T.a)
  let I1A_vv := W.a.vv - (es% "me,am->ae" W.a.ov, T.a)
  let dT := dT - half (es% "mi,abmj->abij" I1A_oo, T.aa)
  dT + half (es% "ae,ebij->abij" I1A_vv, T.aa)

/-- The second argument of the kernel call of `update_t2b`, `/repo/ccpy/lrcc/lrccsd.py:118-150`.  `I1B_oo` and `I1B_vv` are
formed from `W.a`, as in the program. -/
def residualT2b (T1 T : Amps) (W : Prop1) (X H : Ints) : Ex :=
  let dT := es% "ae,ebij->abij" H.a.vv, T1.ab
  let dT := dT + (es% "be,aeij->abij" H.b.vv, T1.ab)
  let dT := dT - (es% "mi,abmj->abij" H.a.oo, T1.ab)
  let dT := dT - (es% "mj,abim->abij" H.b.oo, T1.ab)
  let dT := dT + (es% "mnij,abmn->abij" H.ab.oooo, T1.ab)
  let dT := dT + (es% "abef,efij->abij" H.ab.vvvv, T1.ab)
  let dT := dT + (es% "amie,ebmj->abij" H.aa.voov, T1.ab)
  let dT := dT + (es% "amie,ebmj->abij" H.ab.voov, T1.bb)
  let dT := dT + (es% "mbej,aeim->abij" H.ab.ovvo, T1.aa)
  let dT := dT + (es% "bmje,aeim->abij" H.bb.voov, T1.ab)
  let dT := dT - (es% "mbie,aemj->abij" H.ab.ovov, T1.ab)
  let dT := dT - (es% "amej,ebim->abij" H.ab.vovo, T1.ab)
  let dT := dT + (es% "abej,ei->abij" H.ab.vvvo, T1.a)
  let dT := dT + (es% "abie,ej->abij" H.ab.vvov, T1.b)
  let dT := dT - (es% "mbij,am->abij" H.ab.ovoo, T1.a)
  let dT := dT - (es% "amij,bm->abij" H.ab.vooo, T1.b)
  let dT := dT + (es% "ae,ebij->abij" X.a.vv, T.ab)
  let dT := dT - (es% "mi,abmj->abij" X.a.oo, T.ab)
  let dT := dT + (es% "be,aeij->abij" X.b.vv, T.ab)
  let dT := dT - (es% "mj,abim->abij" X.b.oo, T.ab)
  let I1A_oo := W.a.oo + (es% "me,ei->mi" W.a.ov, T.a)
  let I1A_vv := W.a.vv - (es% "me,am->ae" W.a.ov, T.a)
  let I1B_oo := W.a.oo + (es% "me,ei->mi" W.b.ov, T.b)
  let I1B_vv := W.a.vv - (es% "me,am->ae" W.b.ov, T.b)
  let dT := dT - (es% "mi,abmj->abij" I1A_oo, T.ab)
  let dT := dT + (es% "ae,ebij->abij" I1A_vv, T.ab)
  let dT := dT - (es% "mj,abim->abij" I1B_oo, T.ab)
  dT + (es% "be,aeij->abij" I1B_vv, T.ab)

/-- The second argument of the kernel call of `update_t2c`, `/repo/ccpy/lrcc/lrccsd.py:160-178`. -/
def residualT2c (T1 T : Amps) (W : Prop1) (X H : Ints) : Ex :=
  let dT := -half (es% "mi,abmj->abij" H.b.oo, T1.bb)
  let dT := dT + half (es% "ae,ebij->abij" H.b.vv, T1.bb)
  let dT := dT + eighth (es% "mnij,abmn->abij" H.bb.oooo, T1.bb)
  let dT := dT + eighth (es% "abef,efij->abij" H.bb.vvvv, T1.bb)
  let dT := dT + (es% "amie,ebmj->abij" H.bb.voov, T1.bb)
  let dT := dT + (es% "maei,ebmj->abij" H.ab.ovvo, T1.ab)
  let dT := dT - half (es% "bmji,am->abij" H.bb.vooo, T1.b)
  let dT := dT + half (es% "baje,ei->abij" H.bb.vvov, T1.b)
  let dT := dT + half (es% "be,aeij->abij" X.b.vv, T.bb)
  let dT := dT - half (es% "mj,abim->abij" X.b.oo, T.bb)
  let I1B_oo := W.b.oo + (es% "me,ei->mi" W.b.ov, T.b)
  let I1B_vv := W.b.vv - (es% "me,am->ae" W.b.ov, T.b)
  let dT := dT - half (es% "mi,abmj->abij" I1B_oo, T.bb)
  dT + half (es% "ae,ebij->abij" I1B_vv, T.bb)

/-- `get_lrcc_energy`, `/repo/ccpy/energy/lrcc_energy.py:3-13`. -/
def getLrccEnergy (T1 : Amps) (W : Prop1) (T : Amps) (H : Ints) : Ex :=
  let w1a := es% "me,em->" W.a.ov, T.a
  let w1b := es% "me,em->" W.b.ov, T.b
  let e1a := es% "me,em->" H.a.ov, T1.a
  let e1b := es% "me,em->" H.b.ov, T1.b
  let e2aa := quarter (es% "mnef,efmn->" H.aa.oovv, T1.aa)
  let e2ab := es% "mnef,efmn->" H.ab.oovv, T1.ab
  let e2bb := quarter (es% "mnef,efmn->" H.bb.oovv, T1.bb)
  w1a + w1b + e1a + e1b + e2aa + e2ab + e2bb

/-- The stored blocks of the property: arrays 26 to 33. -/
def property : Prop1 where
  a := ⟨.arr 26 [0, 0], .arr 27 [0, 1], .arr 28 [1, 0], .arr 29 [1, 1]⟩
  b := ⟨.arr 30 [2, 2], .arr 31 [2, 3], .arr 32 [3, 2], .arr 33 [3, 3]⟩

end Ccpy.LrCcsd
