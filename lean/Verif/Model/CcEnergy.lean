import Verif.Model.TensorArrays

/-! Correlation energies from amplitudes, `/repo/ccpy/energy/cc_energy.py`, statement by statement. -/

namespace Ccpy.CcEnergy
open Ccpy.Tensor

/-- `get_ci_energy`, `/repo/ccpy/energy/cc_energy.py:6-16`. -/
def ciEnergy (C : Amps) (H0 : Ints) : Ex :=
  let e1a := es% "me,em->" H0.a.ov, C.a
  let e1b := es% "me,em->" H0.b.ov, C.b
  let e2a := quarter (es% "mnef,efmn->" H0.aa.oovv, C.aa)
  let e2b := es% "mnef,efmn->" H0.ab.oovv, C.ab
  let e2c := quarter (es% "mnef,efmn->" H0.bb.oovv, C.bb)
  let Ecorr := e1a + e1b + e2a + e2b + e2c
  Ecorr

/-- `get_cc_energy`, `/repo/ccpy/energy/cc_energy.py:18-43`. -/
def ccEnergy (T : Amps) (H0 : Ints) : Ex :=
  let e1a := es% "me,em->" H0.a.ov, T.a
  let e1b := es% "me,em->" H0.b.ov, T.b
  let e2aa := quarter (es% "mnef,efmn->" H0.aa.oovv, T.aa)
  let e2ab := es% "mnef,efmn->" H0.ab.oovv, T.ab
  let e2bb := quarter (es% "mnef,efmn->" H0.bb.oovv, T.bb)
  let e1a1a := half (es% "mnef,fn,em->" H0.aa.oovv, T.a, T.a)
  let e1b1b := half (es% "mnef,fn,em->" H0.bb.oovv, T.b, T.b)
  let e1a1b := es% "mnef,em,fn->" H0.ab.oovv, T.a, T.b
  let Ecorr := e1a + e1b + e2aa + e2ab + e2bb + e1a1a + e1a1b + e1b1b
  Ecorr

end Ccpy.CcEnergy
