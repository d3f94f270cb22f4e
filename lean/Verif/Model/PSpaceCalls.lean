import Verif.Model.PSpaceA
import Verif.Model.PSpaceB
import Verif.Model.PSpaceC
import Verif.Model.PSpaceD

/-! The arrays that `/repo/ccpy/cc/ccsdt_p.py` passes to the P-space kernels: the axes are exchanged in Python so that the
kernels run through memory in order, and the kernels count from 1. -/

namespace Ccpy.PSpace

/-- The arrays of the program with 0-based indices before any axes are exchanged: `T.aa`, `X.a.oo`, `H.aa.oovv`, ...; the blocks
`vooo` and `ovoo` are those from which `update_t3a`, ... have subtracted a contraction,
`/repo/ccpy/cc/ccsdt_p.py:319`, `340-342`, `366-368`, `392`. -/
structure Dressed where
  t_aa : Arr4
  t_ab : Arr4
  t_bb : Arr4
  a_oo : Arr2
  a_vv : Arr2
  b_oo : Arr2
  b_vv : Arr2
  aa_oovv : Arr4
  ab_oovv : Arr4
  bb_oovv : Arr4
  aa_vooo : Arr4
  aa_vvov : Arr4
  aa_oooo : Arr4
  aa_voov : Arr4
  aa_vvvv : Arr4
  ab_vooo : Arr4
  ab_ovoo : Arr4
  ab_vvov : Arr4
  ab_vvvo : Arr4
  ab_oooo : Arr4
  ab_voov : Arr4
  ab_vovo : Arr4
  ab_ovov : Arr4
  ab_ovvo : Arr4
  ab_vvvv : Arr4
  bb_vooo : Arr4
  bb_vvov : Arr4
  bb_oooo : Arr4
  bb_voov : Arr4
  bb_vvvv : Arr4
  fa_oo : Arr2
  fa_vv : Arr2
  fb_oo : Arr2
  fb_vv : Arr2
  shift : ℚ

/-- An array as a kernel sees it. -/
def one2 (x : Arr2) : Arr2 := fun p q => x (p - 1) (q - 1)
def one4 (x : Arr4) : Arr4 := fun p q r s => x (p - 1) (q - 1) (r - 1) (s - 1)

/-- The arguments of `update_t3a_p`, `/repo/ccpy/cc/ccsdt_p.py:93-113`, `319-332`. -/
def Dressed.argsA (X : Dressed) : Arrays where
  t2a := one4 X.t_aa
  h1a_oo := one2 X.a_oo
  h1a_vv := one2 fun e a => X.a_vv a e
  h2a_oovv := one4 X.aa_oovv
  h2a_vvov := one4 fun e a b i => X.aa_vvov a b i e
  h2a_vooo := one4 fun m a i j => X.aa_vooo a m i j
  h2a_oooo := one4 X.aa_oooo
  h2a_voov := one4 fun m e a i => X.aa_voov a m i e
  h2a_vvvv := one4 fun f e b a => X.aa_vvvv a b e f
  h2b_oovv := one4 X.ab_oovv
  h2b_voov := one4 fun m e a i => X.ab_voov a m i e
  fa_oo := one2 X.fa_oo
  fa_vv := one2 X.fa_vv
  shift := X.shift

/-- The arguments of `update_t3b_p`, `/repo/ccpy/cc/ccsdt_p.py:93-113`, `340-360`. -/
def Dressed.argsB (X : Dressed) : Arrays where
  t2a := one4 X.t_aa
  t2b := one4 X.t_ab
  h1a_oo := one2 X.a_oo
  h1a_vv := one2 fun e a => X.a_vv a e
  h1b_oo := one2 X.b_oo
  h1b_vv := one2 fun e a => X.b_vv a e
  h2a_oovv := one4 X.aa_oovv
  h2a_vvov := one4 fun e a b i => X.aa_vvov a b i e
  h2a_vooo := one4 fun m a i j => X.aa_vooo a m i j
  h2a_oooo := one4 X.aa_oooo
  h2a_voov := one4 fun m e a i => X.aa_voov a m i e
  h2a_vvvv := one4 fun f e b a => X.aa_vvvv a b e f
  h2b_oovv := one4 X.ab_oovv
  h2b_vvov := one4 fun e a b i => X.ab_vvov a b i e
  h2b_vvvo := one4 fun e a b j => X.ab_vvvo a b e j
  h2b_vooo := one4 fun m a i j => X.ab_vooo a m i j
  h2b_ovoo := one4 X.ab_ovoo
  h2b_oooo := one4 X.ab_oooo
  h2b_voov := one4 fun m e a i => X.ab_voov a m i e
  h2b_vovo := one4 fun m e a j => X.ab_vovo a m e j
  h2b_ovov := one4 fun m e b i => X.ab_ovov m b i e
  h2b_ovvo := one4 fun m e b j => X.ab_ovvo m b e j
  h2b_vvvv := one4 fun f e b a => X.ab_vvvv a b e f
  h2c_oovv := one4 X.bb_oovv
  h2c_voov := one4 fun m e a i => X.bb_voov a m i e
  fa_oo := one2 X.fa_oo
  fa_vv := one2 X.fa_vv
  fb_oo := one2 X.fb_oo
  fb_vv := one2 X.fb_vv
  shift := X.shift

/-- The arguments of `update_t3c_p`, `/repo/ccpy/cc/ccsdt_p.py:93-113`, `366-386`. -/
def Dressed.argsC (X : Dressed) : Arrays where
  t2b := one4 X.t_ab
  t2c := one4 X.t_bb
  h1a_oo := one2 X.a_oo
  h1a_vv := one2 fun e a => X.a_vv a e
  h1b_oo := one2 X.b_oo
  h1b_vv := one2 fun e a => X.b_vv a e
  h2a_oovv := one4 X.aa_oovv
  h2a_voov := one4 fun m e a i => X.aa_voov a m i e
  h2b_oovv := one4 X.ab_oovv
  h2b_vooo := one4 fun m a i j => X.ab_vooo a m i j
  h2b_ovoo := one4 X.ab_ovoo
  h2b_vvov := one4 fun e a b i => X.ab_vvov a b i e
  h2b_vvvo := one4 fun e a b j => X.ab_vvvo a b e j
  h2b_oooo := one4 X.ab_oooo
  h2b_voov := one4 fun m e a i => X.ab_voov a m i e
  h2b_vovo := one4 fun m e a j => X.ab_vovo a m e j
  h2b_ovov := one4 fun m e b i => X.ab_ovov m b i e
  h2b_ovvo := one4 fun m e b j => X.ab_ovvo m b e j
  h2b_vvvv := one4 fun e f a b => X.ab_vvvv a b e f
  h2c_oovv := one4 X.bb_oovv
  h2c_vooo := one4 fun m a i j => X.bb_vooo a m i j
  h2c_vvov := one4 fun e a b i => X.bb_vvov a b i e
  h2c_oooo := one4 X.bb_oooo
  h2c_voov := one4 fun m e a i => X.bb_voov a m i e
  h2c_vvvv := one4 fun f e b a => X.bb_vvvv a b e f
  fa_oo := one2 X.fa_oo
  fa_vv := one2 X.fa_vv
  fb_oo := one2 X.fb_oo
  fb_vv := one2 X.fb_vv
  shift := X.shift

/-- The arguments of `update_t3d_p`, `/repo/ccpy/cc/ccsdt_p.py:93-113`, `392-405`. -/
def Dressed.argsD (X : Dressed) : Arrays where
  t2c := one4 X.t_bb
  h1b_oo := one2 X.b_oo
  h1b_vv := one2 fun e a => X.b_vv a e
  h2b_oovv := one4 X.ab_oovv
  h2b_ovvo := one4 fun m e b j => X.ab_ovvo m b e j
  h2c_oovv := one4 X.bb_oovv
  h2c_vvov := one4 fun e a b i => X.bb_vvov a b i e
  h2c_vooo := one4 fun m a i j => X.bb_vooo a m i j
  h2c_oooo := one4 X.bb_oooo
  h2c_voov := one4 fun m e a i => X.bb_voov a m i e
  h2c_vvvv := one4 fun f e b a => X.bb_vvvv a b e f
  fb_oo := one2 X.fb_oo
  fb_vv := one2 X.fb_vv
  shift := X.shift

end Ccpy.PSpace
