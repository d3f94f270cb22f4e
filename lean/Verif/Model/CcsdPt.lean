import Verif.Model.CrCc23

/-! The CCSD(T) correction, `/repo/ccpy/moments/crcc23.py:160-245` with the kernels `ccsdptA_opt`, ..., `ccsdptD_opt` of
`/repo/ccpy/lib/fortran/ccsdpt_loops.f90`.  The kernels count from 1. -/

namespace Ccpy.CrCc
open Ccpy.Tensor Ccpy.PSpace Ccpy.Fortran

/-- The arguments of `ccsdptA_opt`, `/repo/ccpy/lib/fortran/ccsdpt_loops.f90:11-22`. -/
structure PtA where
  t1a : Arr2
  t2a : Arr4
  va_vooo : Arr4
  i2a_vvov : Arr4
  va_oovv : Arr4
  fa_ov : Arr2
  va_vovv : Arr4
  va_ooov : Arr4
  fa_oo : Arr2
  fa_vv : Arr2

/-- `X3A(a,b,c)`, `/repo/ccpy/lib/fortran/ccsdpt_loops.f90:43-49`; `dgemm` treats two adjacent axes of an array as one.  The
reordered arrays are those of
`:28`. -/
def PtA.x3a (x : PtA) (d : Dims) (i j k a b c : ℕ) : ℚ :=
  let i2a_vvov_1243 : Arr4 := fun p q r s => x.i2a_vvov p q s r;
  -(1 / 2) * (sumTo d.oa fun m => x.va_vooo a m i j * x.t2a b c m k)
    + (1 / 2) * (sumTo d.oa fun m => x.va_vooo a m k j * x.t2a b c m i)
    + (1 / 2) * (sumTo d.oa fun m => x.va_vooo a m i k * x.t2a b c m j)
    + (1 / 2) * (sumTo d.ua fun e => i2a_vvov_1243 a b e i * x.t2a e c j k)
    - (1 / 2) * (sumTo d.ua fun e => i2a_vvov_1243 a b e j * x.t2a e c i k)
    - (1 / 2) * (sumTo d.ua fun e => i2a_vvov_1243 a b e k * x.t2a e c j i)

/-- `temp3` of `/repo/ccpy/lib/fortran/ccsdpt_loops.f90:70-79`. -/
def PtA.temp3 (x : PtA) (i j k a b c : ℕ) : ℚ :=
  x.t1a c k * x.va_oovv i j a b - x.t1a a k * x.va_oovv i j c b - x.t1a b k * x.va_oovv i j a c - x.t1a c i * x.va_oovv k j a b -
    x.t1a c j * x.va_oovv i k a b + x.t1a a i * x.va_oovv k j c b + x.t1a b i * x.va_oovv k j a c + x.t1a a j * x.va_oovv i k c b +
    x.t1a b j * x.va_oovv i k a c

/-- What `/repo/ccpy/lib/fortran/ccsdpt_loops.f90:81-90` adds to `temp3`. -/
def PtA.temp3f (x : PtA) (i j k a b c : ℕ) : ℚ :=
  x.fa_ov k c * x.t2a a b i j - x.fa_ov k a * x.t2a c b i j - x.fa_ov k b * x.t2a a c i j - x.fa_ov i c * x.t2a a b k j - x.fa_ov
    j c * x.t2a a b i k + x.fa_ov i a * x.t2a c b k j + x.fa_ov i b * x.t2a a c k j + x.fa_ov j a * x.t2a c b i k + x.fa_ov j b *
    x.t2a a c i k

/-- `D`, `/repo/ccpy/lib/fortran/ccsdpt_loops.f90:94-95`. -/
def PtA.denom (x : PtA) (i j k a b c : ℕ) : ℚ :=
  x.fa_oo i i + x.fa_oo j j + x.fa_oo k k - x.fa_vv a a - x.fa_vv b b - x.fa_vv c c

/-- `ccsdptA_opt`, `/repo/ccpy/lib/fortran/ccsdpt_loops.f90:11-106`; a division by zero gives zero here. -/
def ccsdptA (d : Dims) (x : PtA) : ℚ :=
  doLoop 1 d.oa (fun i =>
  doLoop (i + 1) d.oa fun j =>
  doLoop (j + 1) d.oa fun k =>
    let x3 := x.x3a d i j k
    doLoop 1 d.ua fun a =>
    doLoop (a + 1) d.ua fun b =>
    doLoop (b + 1) d.ua fun c s =>
      let temp1 := x3 a b c + x3 b c a + x3 c a b - x3 a c b - x3 b a c - x3 c b a
      let temp3 := x.temp3 i j k a b c + x.temp3f i j k a b c
      let lm := temp1 * (temp1 + temp3)
      s + lm / x.denom i j k a b c) 0

/-- The arguments of the call, `/repo/ccpy/moments/crcc23.py:179-185`. -/
def callPtA (s : Setup) (m : Memory) (T : Amps) (H : Ints) : PtA where
  t1a := axes2 (s.eval m T.a)
  t2a := axes4 (s.eval m T.aa)
  va_vooo := axes4 (s.eval m H.aa.vooo)
  i2a_vvov := axes4 (s.eval m H.aa.vvov)
  va_oovv := axes4 (s.eval m H.aa.oovv)
  fa_ov := axes2 (s.eval m H.a.ov)
  va_vovv := axes4 (s.eval m H.aa.vovv)
  va_ooov := axes4 (s.eval m H.aa.ooov)
  fa_oo := axes2 (s.eval m H.a.oo)
  fa_vv := axes2 (s.eval m H.a.vv)

/-- The arguments of `ccsdptB_opt`, `/repo/ccpy/lib/fortran/ccsdpt_loops.f90:108-133`. -/
structure PtB where
  t1a : Arr2
  t1b : Arr2
  t2a : Arr4
  t2b : Arr4
  i2b_ovoo : Arr4
  i2b_vooo : Arr4
  i2a_vooo : Arr4
  vb_vvvo : Arr4
  vb_vvov : Arr4
  va_vvov : Arr4
  vb_vovv : Arr4
  vb_ovvv : Arr4
  va_vovv : Arr4
  vb_ooov : Arr4
  vb_oovo : Arr4
  va_ooov : Arr4
  fa_ov : Arr2
  fb_ov : Arr2
  va_oovv : Arr4
  vb_oovv : Arr4
  fa_oo : Arr2
  fa_vv : Arr2
  fb_oo : Arr2
  fb_vv : Arr2

/-- `X3B(a,b,c)`, `/repo/ccpy/lib/fortran/ccsdpt_loops.f90:166-180`; `dgemm` treats two adjacent axes of an array as one.  The
reordered arrays are those of
`:144, :145, :146`. -/
def PtB.x3b (x : PtB) (d : Dims) (i j k a b c : ℕ) : ℚ :=
  let vb_vvov_1243 : Arr4 := fun p q r s => x.vb_vvov p q s r;
  let t2b_1243 : Arr4 := fun p q r s => x.t2b p q s r;
  let va_vvov_1243 : Arr4 := fun p q r s => x.va_vvov p q s r;
  (sumTo d.ua fun e => x.t2a a e i j * x.vb_vvvo b c e k)
    + (1 / 2) * (sumTo d.oa fun m => x.t2a a b m i * x.i2b_ovoo m c j k)
    - (1 / 2) * (sumTo d.oa fun m => x.t2a a b m j * x.i2b_ovoo m c i k)
    + (sumTo d.ub fun e => x.t2b a e i k * vb_vvov_1243 b c e j)
    - (sumTo d.ub fun e => x.t2b a e j k * vb_vvov_1243 b c e i)
    - (sumTo d.ob fun m => x.i2b_vooo a m i k * t2b_1243 b c m j)
    + (sumTo d.ob fun m => x.i2b_vooo a m j k * t2b_1243 b c m i)
    + (1 / 2) * (sumTo d.ua fun e => va_vvov_1243 a b e i * x.t2b e c j k)
    - (1 / 2) * (sumTo d.ua fun e => va_vvov_1243 a b e j * x.t2b e c i k)
    - (sumTo d.oa fun m => x.i2a_vooo a m i j * x.t2b b c m k)

/-- `temp3` of `/repo/ccpy/lib/fortran/ccsdpt_loops.f90:205-209`. -/
def PtB.temp3 (x : PtB) (i j k a b c : ℕ) : ℚ :=
  x.t1a a i * x.vb_oovv j k b c - x.t1a a j * x.vb_oovv i k b c - x.t1a b i * x.vb_oovv j k a c + x.t1a b j * x.vb_oovv i k a c +
    x.t1b c k * x.va_oovv i j a b

/-- What `/repo/ccpy/lib/fortran/ccsdpt_loops.f90:211-216` adds to `temp3`. -/
def PtB.temp3f (x : PtB) (i j k a b c : ℕ) : ℚ :=
  x.t2b b c j k * x.fa_ov i a - x.t2b b c i k * x.fa_ov j a - x.t2b a c j k * x.fa_ov i b + x.t2b a c i k * x.fa_ov j b + x.t2a a
    b i j * x.fb_ov k c

/-- `D`, `/repo/ccpy/lib/fortran/ccsdpt_loops.f90:220-221`. -/
def PtB.denom (x : PtB) (i j k a b c : ℕ) : ℚ :=
  x.fa_oo i i + x.fa_oo j j + x.fb_oo k k - x.fa_vv a a - x.fa_vv b b - x.fb_vv c c

/-- `ccsdptB_opt`, `/repo/ccpy/lib/fortran/ccsdpt_loops.f90:108-231`; a division by zero gives zero here. -/
def ccsdptB (d : Dims) (x : PtB) : ℚ :=
  doLoop 1 d.oa (fun i =>
  doLoop (i + 1) d.oa fun j =>
  doLoop 1 d.ob fun k =>
    let x3 := x.x3b d i j k
    doLoop 1 d.ua fun a =>
    doLoop (a + 1) d.ua fun b =>
    doLoop 1 d.ub fun c s =>
      let temp1 := x3 a b c - x3 b a c
      let temp3 := x.temp3 i j k a b c + x.temp3f i j k a b c
      let lm := temp1 * (temp1 + temp3)
      s + lm / x.denom i j k a b c) 0

/-- The arguments of the call, `/repo/ccpy/moments/crcc23.py:187-197`. -/
def callPtB (s : Setup) (m : Memory) (T : Amps) (H : Ints) : PtB where
  t1a := axes2 (s.eval m T.a)
  t1b := axes2 (s.eval m T.b)
  t2a := axes4 (s.eval m T.aa)
  t2b := axes4 (s.eval m T.ab)
  i2b_ovoo := axes4 (s.eval m H.ab.ovoo)
  i2b_vooo := axes4 (s.eval m H.ab.vooo)
  i2a_vooo := axes4 (s.eval m H.aa.vooo)
  vb_vvvo := axes4 (s.eval m H.ab.vvvo)
  vb_vvov := axes4 (s.eval m H.ab.vvov)
  va_vvov := axes4 (s.eval m H.aa.vvov)
  vb_vovv := axes4 (s.eval m H.ab.vovv)
  vb_ovvv := axes4 (s.eval m H.ab.ovvv)
  va_vovv := axes4 (s.eval m H.aa.vovv)
  vb_ooov := axes4 (s.eval m H.ab.ooov)
  vb_oovo := axes4 (s.eval m H.ab.oovo)
  va_ooov := axes4 (s.eval m H.aa.ooov)
  fa_ov := axes2 (s.eval m H.a.ov)
  fb_ov := axes2 (s.eval m H.b.ov)
  va_oovv := axes4 (s.eval m H.aa.oovv)
  vb_oovv := axes4 (s.eval m H.ab.oovv)
  fa_oo := axes2 (s.eval m H.a.oo)
  fa_vv := axes2 (s.eval m H.a.vv)
  fb_oo := axes2 (s.eval m H.b.oo)
  fb_vv := axes2 (s.eval m H.b.vv)

/-- The arguments of `ccsdptC_opt`, `/repo/ccpy/lib/fortran/ccsdpt_loops.f90:233-258`. -/
structure PtC where
  t1a : Arr2
  t1b : Arr2
  t2b : Arr4
  t2c : Arr4
  i2b_vooo : Arr4
  i2c_vooo : Arr4
  i2b_ovoo : Arr4
  vb_vvov : Arr4
  vc_vvov : Arr4
  vb_vvvo : Arr4
  vb_ovvv : Arr4
  vb_vovv : Arr4
  vc_vovv : Arr4
  vb_oovo : Arr4
  vb_ooov : Arr4
  vc_ooov : Arr4
  fa_ov : Arr2
  fb_ov : Arr2
  vb_oovv : Arr4
  vc_oovv : Arr4
  fa_oo : Arr2
  fa_vv : Arr2
  fb_oo : Arr2
  fb_vv : Arr2

/-- `X3C(a,b,c)`, `/repo/ccpy/lib/fortran/ccsdpt_loops.f90:297-311`; `dgemm` treats two adjacent axes of an array as one.  The
reordered arrays are those of
`:278, :279, :280, :281`. -/
def PtC.x3c (x : PtC) (d : Dims) (i j k a b c : ℕ) : ℚ :=
  let vb_vvov_1243 : Arr4 := fun p q r s => x.vb_vvov p q s r;
  let vc_vvov_4213 : Arr4 := fun p q r s => x.vc_vvov r q s p;
  let t2b_1243 : Arr4 := fun p q r s => x.t2b p q s r;
  let i2c_vooo_2134 : Arr4 := fun p q r s => x.i2c_vooo q p r s;
  (sumTo d.ub fun e => vb_vvov_1243 a b e i * x.t2c e c j k)
    - (1 / 2) * (sumTo d.ob fun m => x.i2b_vooo a m i j * x.t2c b c m k)
    + (1 / 2) * (sumTo d.ob fun m => x.i2b_vooo a m i k * x.t2c b c m j)
    + (1 / 2) * (sumTo d.ub fun e => x.t2b a e i j * vc_vvov_4213 e b c k)
    - (1 / 2) * (sumTo d.ub fun e => x.t2b a e i k * vc_vvov_4213 e b c j)
    - (sumTo d.ob fun m => t2b_1243 a b m i * i2c_vooo_2134 m c k j)
    + (sumTo d.ua fun e => x.vb_vvvo a b e j * x.t2b e c i k)
    - (sumTo d.ua fun e => x.vb_vvvo a b e k * x.t2b e c i j)
    - (sumTo d.oa fun m => x.t2b a b m j * x.i2b_ovoo m c i k)
    + (sumTo d.oa fun m => x.t2b a b m k * x.i2b_ovoo m c i j)

/-- `temp3` of `/repo/ccpy/lib/fortran/ccsdpt_loops.f90:337-341`. -/
def PtC.temp3 (x : PtC) (i j k a b c : ℕ) : ℚ :=
  x.t1b c k * x.vb_oovv i j a b - x.t1b b k * x.vb_oovv i j a c - x.t1b c j * x.vb_oovv i k a b + x.t1b b j * x.vb_oovv i k a c +
    x.t1a a i * x.vc_oovv j k b c

/-- What `/repo/ccpy/lib/fortran/ccsdpt_loops.f90:343-348` adds to `temp3`. -/
def PtC.temp3f (x : PtC) (i j k a b c : ℕ) : ℚ :=
  x.fb_ov k c * x.t2b a b i j - x.fb_ov k b * x.t2b a c i j - x.fb_ov j c * x.t2b a b i k + x.fb_ov j b * x.t2b a c i k + x.fa_ov
    i a * x.t2c b c j k

/-- `D`, `/repo/ccpy/lib/fortran/ccsdpt_loops.f90:352-353`. -/
def PtC.denom (x : PtC) (i j k a b c : ℕ) : ℚ :=
  x.fa_oo i i + x.fb_oo j j + x.fb_oo k k - x.fa_vv a a - x.fb_vv b b - x.fb_vv c c

/-- `ccsdptC_opt`, `/repo/ccpy/lib/fortran/ccsdpt_loops.f90:233-362`.  `vC_vvov_4213` is declared with the length `noa` of its
last axis (`:263`), but `reorder_stripe`
writes `nob` values of it: without room for them the result is not defined; a division by zero gives zero here. -/
def ccsdptC (d : Dims) (x : PtC) : Option ℚ :=
  if d.oa < d.ob ∧ 0 < d.ub then none else some <|
  doLoop 1 d.oa (fun i =>
  doLoop 1 d.ob fun j =>
  doLoop (j + 1) d.ob fun k =>
    let x3 := x.x3c d i j k
    doLoop 1 d.ua fun a =>
    doLoop 1 d.ub fun b =>
    doLoop (b + 1) d.ub fun c s =>
      let temp1 := x3 a b c - x3 a c b
      let temp3 := x.temp3 i j k a b c + x.temp3f i j k a b c
      let lm := temp1 * (temp1 + temp3)
      s + lm / x.denom i j k a b c) 0

/-- The arguments of the call, `/repo/ccpy/moments/crcc23.py:204-215`. -/
def callPtC (s : Setup) (m : Memory) (T : Amps) (H : Ints) : PtC where
  t1a := axes2 (s.eval m T.a)
  t1b := axes2 (s.eval m T.b)
  t2b := axes4 (s.eval m T.ab)
  t2c := axes4 (s.eval m T.bb)
  i2b_vooo := axes4 (s.eval m H.ab.vooo)
  i2c_vooo := axes4 (s.eval m H.bb.vooo)
  i2b_ovoo := axes4 (s.eval m H.ab.ovoo)
  vb_vvov := axes4 (s.eval m H.ab.vvov)
  vc_vvov := axes4 (s.eval m H.bb.vvov)
  vb_vvvo := axes4 (s.eval m H.ab.vvvo)
  vb_ovvv := axes4 (s.eval m H.ab.ovvv)
  vb_vovv := axes4 (s.eval m H.ab.vovv)
  vc_vovv := axes4 (s.eval m H.bb.vovv)
  vb_oovo := axes4 (s.eval m H.ab.oovo)
  vb_ooov := axes4 (s.eval m H.ab.ooov)
  vc_ooov := axes4 (s.eval m H.bb.ooov)
  fa_ov := axes2 (s.eval m H.a.ov)
  fb_ov := axes2 (s.eval m H.b.ov)
  vb_oovv := axes4 (s.eval m H.ab.oovv)
  vc_oovv := axes4 (s.eval m H.bb.oovv)
  fa_oo := axes2 (s.eval m H.a.oo)
  fa_vv := axes2 (s.eval m H.a.vv)
  fb_oo := axes2 (s.eval m H.b.oo)
  fb_vv := axes2 (s.eval m H.b.vv)

/-- The arguments of `ccsdptD_opt`, `/repo/ccpy/lib/fortran/ccsdpt_loops.f90:364-375`. -/
structure PtD where
  t1b : Arr2
  t2c : Arr4
  vc_vooo : Arr4
  i2c_vvov : Arr4
  vc_oovv : Arr4
  fb_ov : Arr2
  vc_vovv : Arr4
  vc_ooov : Arr4
  fb_oo : Arr2
  fb_vv : Arr2

/-- `X3D(a,b,c)`, `/repo/ccpy/lib/fortran/ccsdpt_loops.f90:396-402`; `dgemm` treats two adjacent axes of an array as one.  The
reordered arrays are those of
`:381`. -/
def PtD.x3d (x : PtD) (d : Dims) (i j k a b c : ℕ) : ℚ :=
  let i2c_vvov_1243 : Arr4 := fun p q r s => x.i2c_vvov p q s r;
  -(1 / 2) * (sumTo d.ob fun m => x.vc_vooo a m i j * x.t2c b c m k)
    + (1 / 2) * (sumTo d.ob fun m => x.vc_vooo a m k j * x.t2c b c m i)
    + (1 / 2) * (sumTo d.ob fun m => x.vc_vooo a m i k * x.t2c b c m j)
    + (1 / 2) * (sumTo d.ub fun e => i2c_vvov_1243 a b e i * x.t2c e c j k)
    - (1 / 2) * (sumTo d.ub fun e => i2c_vvov_1243 a b e j * x.t2c e c i k)
    - (1 / 2) * (sumTo d.ub fun e => i2c_vvov_1243 a b e k * x.t2c e c j i)

/-- `temp3` of `/repo/ccpy/lib/fortran/ccsdpt_loops.f90:423-432`. -/
def PtD.temp3 (x : PtD) (i j k a b c : ℕ) : ℚ :=
  x.t1b c k * x.vc_oovv i j a b - x.t1b a k * x.vc_oovv i j c b - x.t1b b k * x.vc_oovv i j a c - x.t1b c i * x.vc_oovv k j a b -
    x.t1b c j * x.vc_oovv i k a b + x.t1b a i * x.vc_oovv k j c b + x.t1b b i * x.vc_oovv k j a c + x.t1b a j * x.vc_oovv i k c b +
    x.t1b b j * x.vc_oovv i k a c

/-- What `/repo/ccpy/lib/fortran/ccsdpt_loops.f90:434-443` adds to `temp3`. -/
def PtD.temp3f (x : PtD) (i j k a b c : ℕ) : ℚ :=
  x.fb_ov k c * x.t2c a b i j - x.fb_ov k a * x.t2c c b i j - x.fb_ov k b * x.t2c a c i j - x.fb_ov i c * x.t2c a b k j - x.fb_ov
    j c * x.t2c a b i k + x.fb_ov i a * x.t2c c b k j + x.fb_ov i b * x.t2c a c k j + x.fb_ov j a * x.t2c c b i k + x.fb_ov j b *
    x.t2c a c i k

/-- `D`, `/repo/ccpy/lib/fortran/ccsdpt_loops.f90:447-448`. -/
def PtD.denom (x : PtD) (i j k a b c : ℕ) : ℚ :=
  x.fb_oo i i + x.fb_oo j j + x.fb_oo k k - x.fb_vv a a - x.fb_vv b b - x.fb_vv c c

/-- `ccsdptD_opt`, `/repo/ccpy/lib/fortran/ccsdpt_loops.f90:364-458`; a division by zero gives zero here. -/
def ccsdptD (d : Dims) (x : PtD) : ℚ :=
  doLoop 1 d.ob (fun i =>
  doLoop (i + 1) d.ob fun j =>
  doLoop (j + 1) d.ob fun k =>
    let x3 := x.x3d d i j k
    doLoop 1 d.ub fun a =>
    doLoop (a + 1) d.ub fun b =>
    doLoop (b + 1) d.ub fun c s =>
      let temp1 := x3 a b c + x3 b c a + x3 c a b - x3 a c b - x3 b a c - x3 c b a
      let temp3 := x.temp3 i j k a b c + x.temp3f i j k a b c
      let lm := temp1 * (temp1 + temp3)
      s + lm / x.denom i j k a b c) 0

/-- The arguments of the call, `/repo/ccpy/moments/crcc23.py:217-223`. -/
def callPtD (s : Setup) (m : Memory) (T : Amps) (H : Ints) : PtD where
  t1b := axes2 (s.eval m T.b)
  t2c := axes4 (s.eval m T.bb)
  vc_vooo := axes4 (s.eval m H.bb.vooo)
  i2c_vvov := axes4 (s.eval m H.bb.vvov)
  vc_oovv := axes4 (s.eval m H.bb.oovv)
  fb_ov := axes2 (s.eval m H.b.ov)
  vc_vovv := axes4 (s.eval m H.bb.vovv)
  vc_ooov := axes4 (s.eval m H.bb.ooov)
  fb_oo := axes2 (s.eval m H.b.oo)
  fb_vv := axes2 (s.eval m H.b.vv)

/-- `calc_ccsdpt(T, corr_energy, H, system, use_RHF)`, `/repo/ccpy/moments/crcc23.py:160-245`: the correction `deltapt["A"]`; the
energy is its sum with `system.reference_energy` and `corr_energy`. -/
def calcCcsdpt (s : Setup) (m : Memory) (T : Amps) (H : Ints) (useRHF : Bool) : Option ℚ := do
  let d := dimsOf s
  let aaa := ccsdptA d (callPtA s m T H)
  let aab := ccsdptB d (callPtB s m T H)
  if useRHF then
    some (2 * aaa + 2 * aab)
  else
    let abb ← ccsdptC d (callPtC s m T H)
    let bbb := ccsdptD d (callPtD s m T H)
    some (aaa + aab + abb + bbb)

end Ccpy.CrCc
