import Verif.Model.PSpaceCalls
import Verif.Model.Ccsdt
import Verif.Model.KernelCalls

/-! The arrays of the P-space kernels as tensor expressions. -/

namespace Ccpy.PSpace
open Ccpy.Tensor

/-- The lengths of the axes. -/
def dimsOf (s : Setup) : Dims where
  oa := s.na
  ua := s.n - s.na
  ob := s.nb
  ub := s.n - s.nb

/-- The arrays that `update_t3a`, ..., `update_t3d` work with: `T.aa`, ..., the intermediates `H` (called `X` in `update`) and
blocks of the Hamiltonian; `I2A_vooo`, `I2B_ovoo`, `I2B_vooo` and `I2C_vooo` are computed before the calls,
`/repo/ccpy/cc/ccsdt_p.py:315-407`. -/
def dressed (s : Setup) (m : Memory) (T : Amps) (H : Ints) : Dressed where
  t_aa a b i j := s.eval m T.aa [a, b, i, j]
  t_ab a b i j := s.eval m T.ab [a, b, i, j]
  t_bb a b i j := s.eval m T.bb [a, b, i, j]
  a_oo p q := s.eval m H.a.oo [p, q]
  a_vv p q := s.eval m H.a.vv [p, q]
  b_oo p q := s.eval m H.b.oo [p, q]
  b_vv p q := s.eval m H.b.vv [p, q]
  aa_oovv p q u v := s.eval m stored.aa.oovv [p, q, u, v]
  ab_oovv p q u v := s.eval m stored.ab.oovv [p, q, u, v]
  bb_oovv p q u v := s.eval m stored.bb.oovv [p, q, u, v]
  aa_vooo p q u v := s.eval m (H.aa.vooo - (es% "me,aeij->amij" H.a.ov, T.aa)) [p, q, u, v]
  aa_vvov p q u v := s.eval m H.aa.vvov [p, q, u, v]
  aa_oooo p q u v := s.eval m H.aa.oooo [p, q, u, v]
  aa_voov p q u v := s.eval m H.aa.voov [p, q, u, v]
  aa_vvvv p q u v := s.eval m H.aa.vvvv [p, q, u, v]
  ab_vooo p q u v := s.eval m (H.ab.vooo - (es% "me,aeik->amik" H.b.ov, T.ab)) [p, q, u, v]
  ab_ovoo p q u v := s.eval m (H.ab.ovoo - (es% "me,ecjk->mcjk" H.a.ov, T.ab)) [p, q, u, v]
  ab_vvov p q u v := s.eval m H.ab.vvov [p, q, u, v]
  ab_vvvo p q u v := s.eval m H.ab.vvvo [p, q, u, v]
  ab_oooo p q u v := s.eval m H.ab.oooo [p, q, u, v]
  ab_voov p q u v := s.eval m H.ab.voov [p, q, u, v]
  ab_vovo p q u v := s.eval m H.ab.vovo [p, q, u, v]
  ab_ovov p q u v := s.eval m H.ab.ovov [p, q, u, v]
  ab_ovvo p q u v := s.eval m H.ab.ovvo [p, q, u, v]
  ab_vvvv p q u v := s.eval m H.ab.vvvv [p, q, u, v]
  bb_vooo p q u v := s.eval m (H.bb.vooo - (es% "me,aeij->amij" H.b.ov, T.bb)) [p, q, u, v]
  bb_vvov p q u v := s.eval m H.bb.vvov [p, q, u, v]
  bb_oooo p q u v := s.eval m H.bb.oooo [p, q, u, v]
  bb_voov p q u v := s.eval m H.bb.voov [p, q, u, v]
  bb_vvvv p q u v := s.eval m H.bb.vvvv [p, q, u, v]
  fa_oo p q := s.eval m stored.a.oo [p, q]
  fa_vv p q := s.eval m stored.a.vv [p, q]
  fb_oo p q := s.eval m stored.b.oo [p, q]
  fb_vv p q := s.eval m stored.b.vv [p, q]
  shift := s.shift

end Ccpy.PSpace
