import Verif.Model.PSpaceSingles
import Verif.Model.HbarCcsd

/-! The CR-CC(2,3) correction, `/repo/ccpy/moments/crcc23.py:8-158` with the kernels `crcc23A_opt`, ..., `crcc23D_opt` of
`/repo/ccpy/lib/fortran/crcc_loops.f90`.  The kernels count from 1. -/

namespace Ccpy.CrCc
open Ccpy.Tensor Ccpy.PSpace Ccpy.Fortran

abbrev Arr2 := PSpace.Arr2
abbrev Arr4 := PSpace.Arr4
abbrev Arr3 := ℕ → ℕ → ℕ → ℚ

/-- `deltaA`, `deltaB`, `deltaC`, `deltaD`. -/
abbrev Deltas := ℚ × ℚ × ℚ × ℚ

/-- An array as a kernel sees it. -/
def one3 (x : Arr3) : Arr3 := fun p q r => x (p - 1) (q - 1) (r - 1)

/-- `h_aa_vvvv`, `/repo/ccpy/moments/crcc23.py:24-28`: the elements with `a <= b` are copied to those with `b > a`; `h_bb_vvvv`,
`:33-37`. -/
def diagonal (h : List ℕ → ℚ) : Arr2 := fun a b => if a ≤ b then h [a, b, a, b] else h [b, a, b, a]

/-! `aaa_H3_aaa_diagonal`, ..., `bbb_H3_bbb_diagonal`, `/repo/ccpy/hbar/diagonal.py:28-118`. -/

section
variable (s : Setup) (m : Memory) (T : Amps) (H : Ints)
def d3aaaV (a i b : ℕ) : ℚ := -((List.range s.na).map fun n => s.eval m H.aa.oovv [i, n, a, b] * s.eval m T.aa [a, b, i, n]).sum
def d3aaaO (a i j : ℕ) : ℚ := ((List.range (s.n - s.na)).map fun e => s.eval m H.aa.oovv [i, j, a, e] * s.eval m T.aa [a, e, i, j]).sum
def d3aabV (a i c : ℕ) : ℚ := -((List.range s.nb).map fun n => s.eval m H.ab.oovv [i, n, a, c] * s.eval m T.ab [a, c, i, n]).sum
def d3aabO (a i k : ℕ) : ℚ := ((List.range (s.n - s.nb)).map fun e => s.eval m H.ab.oovv [i, k, a, e] * s.eval m T.ab [a, e, i, k]).sum
def d3abbV (a k c : ℕ) : ℚ := -((List.range s.na).map fun n => s.eval m H.ab.oovv [n, k, a, c] * s.eval m T.ab [a, c, n, k]).sum
def d3abbO (c i k : ℕ) : ℚ := ((List.range (s.n - s.na)).map fun e => s.eval m H.ab.oovv [i, k, e, c] * s.eval m T.ab [e, c, i, k]).sum
def d3bbbV (a i b : ℕ) : ℚ := -((List.range s.nb).map fun n => s.eval m H.bb.oovv [i, n, a, b] * s.eval m T.bb [a, b, i, n]).sum
def d3bbbO (a i j : ℕ) : ℚ := ((List.range (s.n - s.nb)).map fun e => s.eval m H.bb.oovv [i, j, a, e] * s.eval m T.bb [a, e, i, j]).sum
end

/-- The arguments of `crcc23A_opt`, `/repo/ccpy/lib/fortran/crcc_loops.f90:12-19`. -/
structure ArgsA where
  t2a : Arr4
  l1a : Arr2
  l2a : Arr4
  h2a_vooo : Arr4
  i2a_vvov : Arr4
  va_oovv : Arr4
  h1a_ov : Arr2
  h2a_vovv : Arr4
  h2a_ooov : Arr4
  fa_oo : Arr2
  fa_vv : Arr2
  h1a_oo : Arr2
  h1a_vv : Arr2
  h2a_voov : Arr4
  h2a_oooo : Arr4
  h2a_vvvv : Arr2
  d3a_o : Arr3
  d3a_v : Arr3

/-- `X3A(a,b,c)`, `/repo/ccpy/lib/fortran/crcc_loops.f90:64-70`; `dgemm` treats two adjacent axes of an array as one.  The
reordered arrays are those of
`:46`. -/
def ArgsA.x3a (x : ArgsA) (d : Dims) (i j k a b c : ℕ) : ℚ :=
  let i2a_vvov_1243 : Arr4 := fun p q r s => x.i2a_vvov p q s r;
  -(1 / 2) * (sumTo d.oa fun m => x.h2a_vooo a m i j * x.t2a b c m k)
    + (1 / 2) * (sumTo d.oa fun m => x.h2a_vooo a m k j * x.t2a b c m i)
    + (1 / 2) * (sumTo d.oa fun m => x.h2a_vooo a m i k * x.t2a b c m j)
    + (1 / 2) * (sumTo d.ua fun e => i2a_vvov_1243 a b e i * x.t2a e c j k)
    - (1 / 2) * (sumTo d.ua fun e => i2a_vvov_1243 a b e j * x.t2a e c i k)
    - (1 / 2) * (sumTo d.ua fun e => i2a_vvov_1243 a b e k * x.t2a e c j i)

/-- `L3A(a,b,c)`, `/repo/ccpy/lib/fortran/crcc_loops.f90:73-79`; `dgemm` treats two adjacent axes of an array as one.  The
reordered arrays are those of
`:47, :48`. -/
def ArgsA.l3a (x : ArgsA) (d : Dims) (i j k a b c : ℕ) : ℚ :=
  let h2a_vovv_4312 : Arr4 := fun p q r s => x.h2a_vovv r s q p;
  let h2a_ooov_4312 : Arr4 := fun p q r s => x.h2a_ooov r s q p;
  (1 / 2) * (sumTo d.ua fun e => h2a_vovv_4312 a b e i * x.l2a e c j k)
    - (1 / 2) * (sumTo d.ua fun e => h2a_vovv_4312 a b e j * x.l2a e c i k)
    - (1 / 2) * (sumTo d.ua fun e => h2a_vovv_4312 a b e k * x.l2a e c j i)
    - (1 / 2) * (sumTo d.oa fun m => h2a_ooov_4312 a m j i * x.l2a b c m k)
    + (1 / 2) * (sumTo d.oa fun m => h2a_ooov_4312 a m k i * x.l2a b c m j)
    + (1 / 2) * (sumTo d.oa fun m => h2a_ooov_4312 a m j k * x.l2a b c m i)

/-- `temp3`, `/repo/ccpy/lib/fortran/crcc_loops.f90:91-109`. -/
def ArgsA.temp3 (x : ArgsA) (i j k a b c : ℕ) : ℚ :=
  x.l1a c k * x.va_oovv i j a b - x.l1a a k * x.va_oovv i j c b - x.l1a b k * x.va_oovv i j a c - x.l1a c i * x.va_oovv k j a b -
    x.l1a c j * x.va_oovv i k a b + x.l1a a i * x.va_oovv k j c b + x.l1a b i * x.va_oovv k j a c + x.l1a a j * x.va_oovv i k c b +
    x.l1a b j * x.va_oovv i k a c + x.h1a_ov k c * x.l2a a b i j - x.h1a_ov k a * x.l2a c b i j - x.h1a_ov k b * x.l2a a c i j -
    x.h1a_ov i c * x.l2a a b k j - x.h1a_ov j c * x.l2a a b i k + x.h1a_ov i a * x.l2a c b k j + x.h1a_ov i b * x.l2a a c k j +
    x.h1a_ov j a * x.l2a c b i k + x.h1a_ov j b * x.l2a a c i k

/-- `D` for the correction A, `/repo/ccpy/lib/fortran/crcc_loops.f90:113-114`. -/
def ArgsA.denomA (x : ArgsA) (i j k a b c : ℕ) : ℚ :=
  x.fa_oo i i + x.fa_oo j j + x.fa_oo k k - x.fa_vv a a - x.fa_vv b b - x.fa_vv c c

/-- `D` for the correction B, `/repo/ccpy/lib/fortran/crcc_loops.f90:118-119`. -/
def ArgsA.denomB (x : ArgsA) (i j k a b c : ℕ) : ℚ :=
  x.h1a_oo i i + x.h1a_oo j j + x.h1a_oo k k - x.h1a_vv a a - x.h1a_vv b b - x.h1a_vv c c

/-- `D` for the correction C, `/repo/ccpy/lib/fortran/crcc_loops.f90:123-128`. -/
def ArgsA.denomC (x : ArgsA) (i j k a b c : ℕ) : ℚ :=
  x.denomB i j k a b c - x.h2a_voov a i i a - x.h2a_voov b i i b - x.h2a_voov c i i c - x.h2a_voov a j j a - x.h2a_voov b j j b -
    x.h2a_voov c j j c - x.h2a_voov a k k a - x.h2a_voov b k k b - x.h2a_voov c k k c - x.h2a_oooo j i j i - x.h2a_oooo k i k i -
    x.h2a_oooo k j k j - x.h2a_vvvv b a - x.h2a_vvvv c a - x.h2a_vvvv c b

/-- `D` for the correction D, `/repo/ccpy/lib/fortran/crcc_loops.f90:133-139`. -/
def ArgsA.denomD (x : ArgsA) (i j k a b c : ℕ) : ℚ :=
  x.denomC i j k a b c + x.d3a_o a i j + x.d3a_o a i k + x.d3a_o a j k + x.d3a_o b i j + x.d3a_o b i k + x.d3a_o b j k + x.d3a_o c
    i j + x.d3a_o c i k + x.d3a_o c j k - x.d3a_v a i b - x.d3a_v a i c - x.d3a_v b i c - x.d3a_v a j b - x.d3a_v a j c - x.d3a_v b
    j c - x.d3a_v a k b - x.d3a_v a k c - x.d3a_v b k c

/-- `crcc23A_opt`, `/repo/ccpy/lib/fortran/crcc_loops.f90:12-151`; a division by zero gives zero here. -/
def crcc23A (d : Dims) (x : ArgsA) : Deltas :=
  doLoop 1 d.oa (fun i =>
  doLoop (i + 1) d.oa fun j =>
  doLoop (j + 1) d.oa fun k =>
    let x3 := x.x3a d i j k
    let l3 := x.l3a d i j k
    doLoop 1 d.ua fun a =>
    doLoop (a + 1) d.ua fun b =>
    doLoop (b + 1) d.ua fun c s =>
      let temp1 := x3 a b c + x3 b c a + x3 c a b - x3 a c b - x3 b a c - x3 c b a
      let temp2 := l3 a b c + l3 b c a + l3 c a b - l3 a c b - l3 b a c - l3 c b a
      let temp3 := x.temp3 i j k a b c
      let lm := temp1 * (temp2 + temp3)
      (s.1 + lm / x.denomA i j k a b c, s.2.1 + lm / x.denomB i j k a b c, s.2.2.1 + lm / x.denomC i j k a b c,
        s.2.2.2 + lm / x.denomD i j k a b c)) (0, 0, 0, 0)

/-- The arguments of the call, `/repo/ccpy/moments/crcc23.py:40-50`. -/
def argsA (s : Setup) (m : Memory) (T L : Amps) (H H0 : Ints) : ArgsA where
  t2a := axes4 (s.eval m T.aa)
  l1a := axes2 (s.eval m L.a)
  l2a := axes4 (s.eval m L.aa)
  h2a_vooo := axes4 (s.eval m H.aa.vooo)
  i2a_vvov := axes4 (s.eval m (H.aa.vvov + (es% "me,abim->abie" H.a.ov, T.aa)))
  va_oovv := axes4 (s.eval m H.aa.oovv)
  h1a_ov := axes2 (s.eval m H.a.ov)
  h2a_vovv := axes4 (s.eval m H.aa.vovv)
  h2a_ooov := axes4 (s.eval m H.aa.ooov)
  fa_oo := axes2 (s.eval m H0.a.oo)
  fa_vv := axes2 (s.eval m H0.a.vv)
  h1a_oo := axes2 (s.eval m H.a.oo)
  h1a_vv := axes2 (s.eval m H.a.vv)
  h2a_voov := axes4 (s.eval m H.aa.voov)
  h2a_oooo := axes4 (s.eval m H.aa.oooo)
  h2a_vvvv := one2 (diagonal (s.eval m H.aa.vvvv))
  d3a_o := one3 (d3aaaO s m T H)
  d3a_v := one3 (d3aaaV s m T H)

/-- The arguments of `crcc23B_opt`, `/repo/ccpy/lib/fortran/crcc_loops.f90:153-166`. -/
structure ArgsB where
  t2a : Arr4
  t2b : Arr4
  l1a : Arr2
  l1b : Arr2
  l2a : Arr4
  l2b : Arr4
  i2b_ovoo : Arr4
  i2b_vooo : Arr4
  i2a_vooo : Arr4
  h2b_vvvo : Arr4
  h2b_vvov : Arr4
  h2a_vvov : Arr4
  h2b_vovv : Arr4
  h2b_ovvv : Arr4
  h2a_vovv : Arr4
  h2b_ooov : Arr4
  h2b_oovo : Arr4
  h2a_ooov : Arr4
  h1a_ov : Arr2
  h1b_ov : Arr2
  va_oovv : Arr4
  vb_oovv : Arr4
  fa_oo : Arr2
  fa_vv : Arr2
  fb_oo : Arr2
  fb_vv : Arr2
  h1a_oo : Arr2
  h1a_vv : Arr2
  h1b_oo : Arr2
  h1b_vv : Arr2
  h2a_voov : Arr4
  h2a_oooo : Arr4
  h2a_vvvv : Arr2
  h2b_ovov : Arr4
  h2b_vovo : Arr4
  h2b_oooo : Arr4
  h2b_vvvv : Arr2
  h2c_voov : Arr4
  d3a_o : Arr3
  d3a_v : Arr3
  d3b_o : Arr3
  d3b_v : Arr3
  d3c_o : Arr3
  d3c_v : Arr3

/-- `X3B(a,b,c)`, `/repo/ccpy/lib/fortran/crcc_loops.f90:256-270`; `dgemm` treats two adjacent axes of an array as one.  The
reordered arrays are those of
`:230, :231, :232`. -/
def ArgsB.x3b (x : ArgsB) (d : Dims) (i j k a b c : ℕ) : ℚ :=
  let h2b_vvov_1243 : Arr4 := fun p q r s => x.h2b_vvov p q s r;
  let t2b_1243 : Arr4 := fun p q r s => x.t2b p q s r;
  let h2a_vvov_1243 : Arr4 := fun p q r s => x.h2a_vvov p q s r;
  (sumTo d.ua fun e => x.t2a a e i j * x.h2b_vvvo b c e k)
    + (1 / 2) * (sumTo d.oa fun m => x.t2a a b m i * x.i2b_ovoo m c j k)
    - (1 / 2) * (sumTo d.oa fun m => x.t2a a b m j * x.i2b_ovoo m c i k)
    + (sumTo d.ub fun e => x.t2b a e i k * h2b_vvov_1243 b c e j)
    - (sumTo d.ub fun e => x.t2b a e j k * h2b_vvov_1243 b c e i)
    - (sumTo d.ob fun m => x.i2b_vooo a m i k * t2b_1243 b c m j)
    + (sumTo d.ob fun m => x.i2b_vooo a m j k * t2b_1243 b c m i)
    + (1 / 2) * (sumTo d.ua fun e => h2a_vvov_1243 a b e i * x.t2b e c j k)
    - (1 / 2) * (sumTo d.ua fun e => h2a_vvov_1243 a b e j * x.t2b e c i k)
    - (sumTo d.oa fun m => x.i2a_vooo a m i j * x.t2b b c m k)

/-- `L3B(a,b,c)`, `/repo/ccpy/lib/fortran/crcc_loops.f90:273-287`; `dgemm` treats two adjacent axes of an array as one.  The
reordered arrays are those of
`:233, :234, :235, :236, :237, :238, :239`. -/
def ArgsB.l3b (x : ArgsB) (d : Dims) (i j k a b c : ℕ) : ℚ :=
  let h2b_vovv_1342 : Arr4 := fun p q r s => x.h2b_vovv p s q r;
  let h2a_vovv_4312 : Arr4 := fun p q r s => x.h2a_vovv r s q p;
  let h2b_ovvv_2341 : Arr4 := fun p q r s => x.h2b_ovvv s p q r;
  let h2b_ooov_3412 : Arr4 := fun p q r s => x.h2b_ooov r s p q;
  let h2a_ooov_4312 : Arr4 := fun p q r s => x.h2a_ooov r s q p;
  let h2b_oovo_3412 : Arr4 := fun p q r s => x.h2b_oovo r s p q;
  let l2b_1243 : Arr4 := fun p q r s => x.l2b p q s r;
  (sumTo d.ua fun e => x.l2a a e i j * h2b_vovv_1342 e b c k)
    + (1 / 2) * (sumTo d.ua fun e => h2a_vovv_4312 a b e i * x.l2b e c j k)
    - (1 / 2) * (sumTo d.ua fun e => h2a_vovv_4312 a b e j * x.l2b e c i k)
    + (sumTo d.ub fun e => x.l2b a e i k * h2b_ovvv_2341 e b c j)
    - (sumTo d.ub fun e => x.l2b a e j k * h2b_ovvv_2341 e b c i)
    + (1 / 2) * (sumTo d.oa fun m => x.l2a a b m i * h2b_ooov_3412 m c j k)
    - (1 / 2) * (sumTo d.oa fun m => x.l2a a b m j * h2b_ooov_3412 m c i k)
    - (sumTo d.oa fun m => h2a_ooov_4312 a m j i * x.l2b b c m k)
    - (sumTo d.ob fun m => h2b_oovo_3412 a m i k * l2b_1243 b c m j)
    + (sumTo d.ob fun m => h2b_oovo_3412 a m j k * l2b_1243 b c m i)

/-- `temp3`, `/repo/ccpy/lib/fortran/crcc_loops.f90:295-304`. -/
def ArgsB.temp3 (x : ArgsB) (i j k a b c : ℕ) : ℚ :=
  x.l1a a i * x.vb_oovv j k b c - x.l1a a j * x.vb_oovv i k b c - x.l1a b i * x.vb_oovv j k a c + x.l1a b j * x.vb_oovv i k a c +
    x.l1b c k * x.va_oovv i j a b + x.l2b b c j k * x.h1a_ov i a - x.l2b b c i k * x.h1a_ov j a - x.l2b a c j k * x.h1a_ov i b +
    x.l2b a c i k * x.h1a_ov j b + x.l2a a b i j * x.h1b_ov k c

/-- `D` for the correction A, `/repo/ccpy/lib/fortran/crcc_loops.f90:308-309`. -/
def ArgsB.denomA (x : ArgsB) (i j k a b c : ℕ) : ℚ :=
  x.fa_oo i i + x.fa_oo j j + x.fb_oo k k - x.fa_vv a a - x.fa_vv b b - x.fb_vv c c

/-- `D` for the correction B, `/repo/ccpy/lib/fortran/crcc_loops.f90:313-314`. -/
def ArgsB.denomB (x : ArgsB) (i j k a b c : ℕ) : ℚ :=
  x.h1a_oo i i + x.h1a_oo j j + x.h1b_oo k k - x.h1a_vv a a - x.h1a_vv b b - x.h1b_vv c c

/-- `D` for the correction C, `/repo/ccpy/lib/fortran/crcc_loops.f90:318-323`. -/
def ArgsB.denomC (x : ArgsB) (i j k a b c : ℕ) : ℚ :=
  x.denomB i j k a b c - x.h2a_voov a i i a - x.h2a_voov b i i b + x.h2b_ovov i c i c - x.h2a_voov a j j a - x.h2a_voov b j j b +
    x.h2b_ovov j c j c + x.h2b_vovo a k a k + x.h2b_vovo b k b k - x.h2c_voov c k k c - x.h2a_oooo j i j i - x.h2b_oooo i k i k -
    x.h2b_oooo j k j k - x.h2a_vvvv b a - x.h2b_vvvv a c - x.h2b_vvvv b c

/-- `D` for the correction D, `/repo/ccpy/lib/fortran/crcc_loops.f90:328-334`. -/
def ArgsB.denomD (x : ArgsB) (i j k a b c : ℕ) : ℚ :=
  x.denomC i j k a b c + x.d3a_o a i j + x.d3b_o a i k + x.d3b_o a j k + x.d3a_o b i j + x.d3b_o b i k + x.d3b_o b j k + x.d3c_o c
    i k + x.d3c_o c j k - x.d3a_v a i b - x.d3b_v a i c - x.d3b_v b i c - x.d3a_v a j b - x.d3b_v a j c - x.d3b_v b j c - x.d3c_v a
    k c - x.d3c_v b k c

/-- `crcc23B_opt`, `/repo/ccpy/lib/fortran/crcc_loops.f90:153-346`; a division by zero gives zero here. -/
def crcc23B (d : Dims) (x : ArgsB) : Deltas :=
  doLoop 1 d.oa (fun i =>
  doLoop (i + 1) d.oa fun j =>
  doLoop 1 d.ob fun k =>
    let x3 := x.x3b d i j k
    let l3 := x.l3b d i j k
    doLoop 1 d.ua fun a =>
    doLoop (a + 1) d.ua fun b =>
    doLoop 1 d.ub fun c s =>
      let temp1 := x3 a b c - x3 b a c
      let temp2 := l3 a b c - l3 b a c
      let temp3 := x.temp3 i j k a b c
      let lm := temp1 * (temp2 + temp3)
      (s.1 + lm / x.denomA i j k a b c, s.2.1 + lm / x.denomB i j k a b c, s.2.2.1 + lm / x.denomC i j k a b c,
        s.2.2.2 + lm / x.denomD i j k a b c)) (0, 0, 0, 0)

/-- The arguments of the call, `/repo/ccpy/moments/crcc23.py:54-73`. -/
def argsB (s : Setup) (m : Memory) (T L : Amps) (H H0 : Ints) : ArgsB where
  t2a := axes4 (s.eval m T.aa)
  t2b := axes4 (s.eval m T.ab)
  l1a := axes2 (s.eval m L.a)
  l1b := axes2 (s.eval m L.b)
  l2a := axes4 (s.eval m L.aa)
  l2b := axes4 (s.eval m L.ab)
  i2b_ovoo := axes4 (s.eval m (H.ab.ovoo - (es% "me,ecjk->mcjk" H.a.ov, T.ab)))
  i2b_vooo := axes4 (s.eval m (H.ab.vooo - (es% "me,aeik->amik" H.b.ov, T.ab)))
  i2a_vooo := axes4 (s.eval m (H.aa.vooo - (es% "me,aeij->amij" H.a.ov, T.aa)))
  h2b_vvvo := axes4 (s.eval m H.ab.vvvo)
  h2b_vvov := axes4 (s.eval m H.ab.vvov)
  h2a_vvov := axes4 (s.eval m H.aa.vvov)
  h2b_vovv := axes4 (s.eval m H.ab.vovv)
  h2b_ovvv := axes4 (s.eval m H.ab.ovvv)
  h2a_vovv := axes4 (s.eval m H.aa.vovv)
  h2b_ooov := axes4 (s.eval m H.ab.ooov)
  h2b_oovo := axes4 (s.eval m H.ab.oovo)
  h2a_ooov := axes4 (s.eval m H.aa.ooov)
  h1a_ov := axes2 (s.eval m H.a.ov)
  h1b_ov := axes2 (s.eval m H.b.ov)
  va_oovv := axes4 (s.eval m H.aa.oovv)
  vb_oovv := axes4 (s.eval m H.ab.oovv)
  fa_oo := axes2 (s.eval m H0.a.oo)
  fa_vv := axes2 (s.eval m H0.a.vv)
  fb_oo := axes2 (s.eval m H0.b.oo)
  fb_vv := axes2 (s.eval m H0.b.vv)
  h1a_oo := axes2 (s.eval m H.a.oo)
  h1a_vv := axes2 (s.eval m H.a.vv)
  h1b_oo := axes2 (s.eval m H.b.oo)
  h1b_vv := axes2 (s.eval m H.b.vv)
  h2a_voov := axes4 (s.eval m H.aa.voov)
  h2a_oooo := axes4 (s.eval m H.aa.oooo)
  h2a_vvvv := one2 (diagonal (s.eval m H.aa.vvvv))
  h2b_ovov := axes4 (s.eval m H.ab.ovov)
  h2b_vovo := axes4 (s.eval m H.ab.vovo)
  h2b_oooo := axes4 (s.eval m H.ab.oooo)
  h2b_vvvv := one2 fun a b => s.eval m H.ab.vvvv [a, b, a, b]
  h2c_voov := axes4 (s.eval m H.bb.voov)
  d3a_o := one3 (d3aaaO s m T H)
  d3a_v := one3 (d3aaaV s m T H)
  d3b_o := one3 (d3aabO s m T H)
  d3b_v := one3 (d3aabV s m T H)
  d3c_o := one3 (d3abbO s m T H)
  d3c_v := one3 (d3abbV s m T H)

/-- The arguments of `crcc23C_opt`, `/repo/ccpy/lib/fortran/crcc_loops.f90:348-361`. -/
structure ArgsC where
  t2b : Arr4
  t2c : Arr4
  l1a : Arr2
  l1b : Arr2
  l2b : Arr4
  l2c : Arr4
  i2b_vooo : Arr4
  i2c_vooo : Arr4
  i2b_ovoo : Arr4
  h2b_vvov : Arr4
  h2c_vvov : Arr4
  h2b_vvvo : Arr4
  h2b_ovvv : Arr4
  h2b_vovv : Arr4
  h2c_vovv : Arr4
  h2b_oovo : Arr4
  h2b_ooov : Arr4
  h2c_ooov : Arr4
  h1a_ov : Arr2
  h1b_ov : Arr2
  vb_oovv : Arr4
  vc_oovv : Arr4
  fa_oo : Arr2
  fa_vv : Arr2
  fb_oo : Arr2
  fb_vv : Arr2
  h1a_oo : Arr2
  h1a_vv : Arr2
  h1b_oo : Arr2
  h1b_vv : Arr2
  h2a_voov : Arr4
  h2b_ovov : Arr4
  h2b_vovo : Arr4
  h2b_oooo : Arr4
  h2b_vvvv : Arr2
  h2c_voov : Arr4
  h2c_oooo : Arr4
  h2c_vvvv : Arr2
  d3b_o : Arr3
  d3b_v : Arr3
  d3c_o : Arr3
  d3c_v : Arr3
  d3d_o : Arr3
  d3d_v : Arr3

/-- `X3C(a,b,c)`, `/repo/ccpy/lib/fortran/crcc_loops.f90:442-456`; `dgemm` treats two adjacent axes of an array as one.  The
reordered arrays are those of
`:422, :423, :424, :425`. -/
def ArgsC.x3c (x : ArgsC) (d : Dims) (i j k a b c : ℕ) : ℚ :=
  let h2b_vvov_1243 : Arr4 := fun p q r s => x.h2b_vvov p q s r;
  let h2c_vvov_4213 : Arr4 := fun p q r s => x.h2c_vvov r q s p;
  let t2b_1243 : Arr4 := fun p q r s => x.t2b p q s r;
  let i2c_vooo_2134 : Arr4 := fun p q r s => x.i2c_vooo q p r s;
  (sumTo d.ub fun e => h2b_vvov_1243 a b e i * x.t2c e c j k)
    - (1 / 2) * (sumTo d.ob fun m => x.i2b_vooo a m i j * x.t2c b c m k)
    + (1 / 2) * (sumTo d.ob fun m => x.i2b_vooo a m i k * x.t2c b c m j)
    + (1 / 2) * (sumTo d.ub fun e => x.t2b a e i j * h2c_vvov_4213 e b c k)
    - (1 / 2) * (sumTo d.ub fun e => x.t2b a e i k * h2c_vvov_4213 e b c j)
    - (sumTo d.ob fun m => t2b_1243 a b m i * i2c_vooo_2134 m c k j)
    + (sumTo d.ua fun e => x.h2b_vvvo a b e j * x.t2b e c i k)
    - (sumTo d.ua fun e => x.h2b_vvvo a b e k * x.t2b e c i j)
    - (sumTo d.oa fun m => x.t2b a b m j * x.i2b_ovoo m c i k)
    + (sumTo d.oa fun m => x.t2b a b m k * x.i2b_ovoo m c i j)

/-- `L3C(a,b,c)`, `/repo/ccpy/lib/fortran/crcc_loops.f90:460-474`; `dgemm` treats two adjacent axes of an array as one.  The
reordered arrays are those of
`:426, :427, :428, :429, :430, :431, :432`. -/
def ArgsC.l3c (x : ArgsC) (d : Dims) (i j k a b c : ℕ) : ℚ :=
  let h2b_ovvv_3421 : Arr4 := fun p q r s => x.h2b_ovvv s r p q;
  let h2c_vovv_1342 : Arr4 := fun p q r s => x.h2c_vovv p s q r;
  let h2b_vovv_3412 : Arr4 := fun p q r s => x.h2b_vovv r s p q;
  let h2b_oovo_3412 : Arr4 := fun p q r s => x.h2b_oovo r s p q;
  let h2c_ooov_3412 : Arr4 := fun p q r s => x.h2c_ooov r s p q;
  let l2b_1243 : Arr4 := fun p q r s => x.l2b p q s r;
  let h2b_ooov_3412 : Arr4 := fun p q r s => x.h2b_ooov r s p q;
  (sumTo d.ub fun e => h2b_ovvv_3421 a b e i * x.l2c e c j k)
    + (1 / 2) * (sumTo d.ub fun e => x.l2b a e i j * h2c_vovv_1342 e b c k)
    - (1 / 2) * (sumTo d.ub fun e => x.l2b a e i k * h2c_vovv_1342 e b c j)
    + (sumTo d.ua fun e => h2b_vovv_3412 a b e j * x.l2b e c i k)
    - (sumTo d.ua fun e => h2b_vovv_3412 a b e k * x.l2b e c i j)
    - (1 / 2) * (sumTo d.ob fun m => h2b_oovo_3412 a m i j * x.l2c b c m k)
    + (1 / 2) * (sumTo d.ob fun m => h2b_oovo_3412 a m i k * x.l2c b c m j)
    - (sumTo d.ob fun m => l2b_1243 a b m i * h2c_ooov_3412 m c j k)
    - (sumTo d.oa fun m => x.l2b a b m j * h2b_ooov_3412 m c i k)
    + (sumTo d.oa fun m => x.l2b a b m k * h2b_ooov_3412 m c i j)

/-- `temp3`, `/repo/ccpy/lib/fortran/crcc_loops.f90:483-492`. -/
def ArgsC.temp3 (x : ArgsC) (i j k a b c : ℕ) : ℚ :=
  x.l1b c k * x.vb_oovv i j a b - x.l1b b k * x.vb_oovv i j a c - x.l1b c j * x.vb_oovv i k a b + x.l1b b j * x.vb_oovv i k a c +
    x.l1a a i * x.vc_oovv j k b c + x.h1b_ov k c * x.l2b a b i j - x.h1b_ov k b * x.l2b a c i j - x.h1b_ov j c * x.l2b a b i k +
    x.h1b_ov j b * x.l2b a c i k + x.h1a_ov i a * x.l2c b c j k

/-- `D` for the correction A, `/repo/ccpy/lib/fortran/crcc_loops.f90:496-497`. -/
def ArgsC.denomA (x : ArgsC) (i j k a b c : ℕ) : ℚ :=
  x.fa_oo i i + x.fb_oo j j + x.fb_oo k k - x.fa_vv a a - x.fb_vv b b - x.fb_vv c c

/-- `D` for the correction B, `/repo/ccpy/lib/fortran/crcc_loops.f90:501-502`. -/
def ArgsC.denomB (x : ArgsC) (i j k a b c : ℕ) : ℚ :=
  x.h1a_oo i i + x.h1b_oo j j + x.h1b_oo k k - x.h1a_vv a a - x.h1b_vv b b - x.h1b_vv c c

/-- `D` for the correction C, `/repo/ccpy/lib/fortran/crcc_loops.f90:506-511`. -/
def ArgsC.denomC (x : ArgsC) (i j k a b c : ℕ) : ℚ :=
  x.denomB i j k a b c - x.h2a_voov a i i a + x.h2b_ovov i b i b + x.h2b_ovov i c i c + x.h2b_vovo a j a j - x.h2c_voov b j j b -
    x.h2c_voov c j j c + x.h2b_vovo a k a k - x.h2c_voov b k k b - x.h2c_voov c k k c - x.h2b_oooo i j i j - x.h2b_oooo i k i k -
    x.h2c_oooo k j k j - x.h2b_vvvv a b - x.h2b_vvvv a c - x.h2c_vvvv c b

/-- `D` for the correction D, `/repo/ccpy/lib/fortran/crcc_loops.f90:515-521`. -/
def ArgsC.denomD (x : ArgsC) (i j k a b c : ℕ) : ℚ :=
  x.denomC i j k a b c + x.d3b_o a i j + x.d3b_o a i k + x.d3c_o b i j + x.d3c_o b i k + x.d3d_o b j k + x.d3c_o c i j + x.d3c_o c
    i k + x.d3d_o c j k - x.d3b_v a i b - x.d3b_v a i c - x.d3c_v a j b - x.d3c_v a j c - x.d3d_v b j c - x.d3c_v a k b - x.d3c_v a
    k c - x.d3d_v b k c

/-- `crcc23C_opt`, `/repo/ccpy/lib/fortran/crcc_loops.f90:348-532`.  `H2C_VVOV_4213` is declared with the length `noa` of its
last axis (`:403`), but `reorder_stripe` writes
`nob` values of it: without room for them the result is not defined; a division by zero gives zero here. -/
def crcc23C (d : Dims) (x : ArgsC) : Option Deltas :=
  if d.oa < d.ob ∧ 0 < d.ub then none else some <|
  doLoop 1 d.oa (fun i =>
  doLoop 1 d.ob fun j =>
  doLoop (j + 1) d.ob fun k =>
    let x3 := x.x3c d i j k
    let l3 := x.l3c d i j k
    doLoop 1 d.ua fun a =>
    doLoop 1 d.ub fun b =>
    doLoop (b + 1) d.ub fun c s =>
      let temp1 := x3 a b c - x3 a c b
      let temp2 := l3 a b c - l3 a c b
      let temp3 := x.temp3 i j k a b c
      let lm := temp1 * (temp2 + temp3)
      (s.1 + lm / x.denomA i j k a b c, s.2.1 + lm / x.denomB i j k a b c, s.2.2.1 + lm / x.denomC i j k a b c,
        s.2.2.2 + lm / x.denomD i j k a b c)) (0, 0, 0, 0)

/-- The arguments of the call, `/repo/ccpy/moments/crcc23.py:80-103`. -/
def argsC (s : Setup) (m : Memory) (T L : Amps) (H H0 : Ints) : ArgsC where
  t2b := axes4 (s.eval m T.ab)
  t2c := axes4 (s.eval m T.bb)
  l1a := axes2 (s.eval m L.a)
  l1b := axes2 (s.eval m L.b)
  l2b := axes4 (s.eval m L.ab)
  l2c := axes4 (s.eval m L.bb)
  i2b_vooo := axes4 (s.eval m (H.ab.vooo - (es% "me,aeij->amij" H.b.ov, T.ab)))
  i2c_vooo := axes4 (s.eval m (H.bb.vooo - (es% "me,cekj->cmkj" H.b.ov, T.bb)))
  i2b_ovoo := axes4 (s.eval m (H.ab.ovoo - (es% "me,ebij->mbij" H.a.ov, T.ab)))
  h2b_vvov := axes4 (s.eval m H.ab.vvov)
  h2c_vvov := axes4 (s.eval m H.bb.vvov)
  h2b_vvvo := axes4 (s.eval m H.ab.vvvo)
  h2b_ovvv := axes4 (s.eval m H.ab.ovvv)
  h2b_vovv := axes4 (s.eval m H.ab.vovv)
  h2c_vovv := axes4 (s.eval m H.bb.vovv)
  h2b_oovo := axes4 (s.eval m H.ab.oovo)
  h2b_ooov := axes4 (s.eval m H.ab.ooov)
  h2c_ooov := axes4 (s.eval m H.bb.ooov)
  h1a_ov := axes2 (s.eval m H.a.ov)
  h1b_ov := axes2 (s.eval m H.b.ov)
  vb_oovv := axes4 (s.eval m H.ab.oovv)
  vc_oovv := axes4 (s.eval m H.bb.oovv)
  fa_oo := axes2 (s.eval m H0.a.oo)
  fa_vv := axes2 (s.eval m H0.a.vv)
  fb_oo := axes2 (s.eval m H0.b.oo)
  fb_vv := axes2 (s.eval m H0.b.vv)
  h1a_oo := axes2 (s.eval m H.a.oo)
  h1a_vv := axes2 (s.eval m H.a.vv)
  h1b_oo := axes2 (s.eval m H.b.oo)
  h1b_vv := axes2 (s.eval m H.b.vv)
  h2a_voov := axes4 (s.eval m H.aa.voov)
  h2b_ovov := axes4 (s.eval m H.ab.ovov)
  h2b_vovo := axes4 (s.eval m H.ab.vovo)
  h2b_oooo := axes4 (s.eval m H.ab.oooo)
  h2b_vvvv := one2 fun a b => s.eval m H.ab.vvvv [a, b, a, b]
  h2c_voov := axes4 (s.eval m H.bb.voov)
  h2c_oooo := axes4 (s.eval m H.bb.oooo)
  h2c_vvvv := one2 (diagonal (s.eval m H.bb.vvvv))
  d3b_o := one3 (d3aabO s m T H)
  d3b_v := one3 (d3aabV s m T H)
  d3c_o := one3 (d3abbO s m T H)
  d3c_v := one3 (d3abbV s m T H)
  d3d_o := one3 (d3bbbO s m T H)
  d3d_v := one3 (d3bbbV s m T H)

/-- The arguments of `crcc23D_opt`, `/repo/ccpy/lib/fortran/crcc_loops.f90:534-541`. -/
structure ArgsD where
  t2c : Arr4
  l1b : Arr2
  l2c : Arr4
  h2c_vooo : Arr4
  i2c_vvov : Arr4
  vc_oovv : Arr4
  h1b_ov : Arr2
  h2c_vovv : Arr4
  h2c_ooov : Arr4
  fb_oo : Arr2
  fb_vv : Arr2
  h1b_oo : Arr2
  h1b_vv : Arr2
  h2c_voov : Arr4
  h2c_oooo : Arr4
  h2c_vvvv : Arr2
  d3d_o : Arr3
  d3d_v : Arr3

/-- `X3D(a,b,c)`, `/repo/ccpy/lib/fortran/crcc_loops.f90:578-584`; `dgemm` treats two adjacent axes of an array as one.  The
reordered arrays are those of
`:560`. -/
def ArgsD.x3d (x : ArgsD) (d : Dims) (i j k a b c : ℕ) : ℚ :=
  let i2c_vvov_1243 : Arr4 := fun p q r s => x.i2c_vvov p q s r;
  -(1 / 2) * (sumTo d.ob fun m => x.h2c_vooo a m i j * x.t2c b c m k)
    + (1 / 2) * (sumTo d.ob fun m => x.h2c_vooo a m k j * x.t2c b c m i)
    + (1 / 2) * (sumTo d.ob fun m => x.h2c_vooo a m i k * x.t2c b c m j)
    + (1 / 2) * (sumTo d.ub fun e => i2c_vvov_1243 a b e i * x.t2c e c j k)
    - (1 / 2) * (sumTo d.ub fun e => i2c_vvov_1243 a b e j * x.t2c e c i k)
    - (1 / 2) * (sumTo d.ub fun e => i2c_vvov_1243 a b e k * x.t2c e c j i)

/-- `L3D(a,b,c)`, `/repo/ccpy/lib/fortran/crcc_loops.f90:587-593`; `dgemm` treats two adjacent axes of an array as one.  The
reordered arrays are those of
`:561, :562`. -/
def ArgsD.l3d (x : ArgsD) (d : Dims) (i j k a b c : ℕ) : ℚ :=
  let h2c_vovv_4312 : Arr4 := fun p q r s => x.h2c_vovv r s q p;
  let h2c_ooov_4312 : Arr4 := fun p q r s => x.h2c_ooov r s q p;
  (1 / 2) * (sumTo d.ub fun e => h2c_vovv_4312 a b e i * x.l2c e c j k)
    - (1 / 2) * (sumTo d.ub fun e => h2c_vovv_4312 a b e j * x.l2c e c i k)
    - (1 / 2) * (sumTo d.ub fun e => h2c_vovv_4312 a b e k * x.l2c e c j i)
    - (1 / 2) * (sumTo d.ob fun m => h2c_ooov_4312 a m j i * x.l2c b c m k)
    + (1 / 2) * (sumTo d.ob fun m => h2c_ooov_4312 a m k i * x.l2c b c m j)
    + (1 / 2) * (sumTo d.ob fun m => h2c_ooov_4312 a m j k * x.l2c b c m i)

/-- `temp3`, `/repo/ccpy/lib/fortran/crcc_loops.f90:605-623`. -/
def ArgsD.temp3 (x : ArgsD) (i j k a b c : ℕ) : ℚ :=
  x.l1b c k * x.vc_oovv i j a b - x.l1b a k * x.vc_oovv i j c b - x.l1b b k * x.vc_oovv i j a c - x.l1b c i * x.vc_oovv k j a b -
    x.l1b c j * x.vc_oovv i k a b + x.l1b a i * x.vc_oovv k j c b + x.l1b b i * x.vc_oovv k j a c + x.l1b a j * x.vc_oovv i k c b +
    x.l1b b j * x.vc_oovv i k a c + x.h1b_ov k c * x.l2c a b i j - x.h1b_ov k a * x.l2c c b i j - x.h1b_ov k b * x.l2c a c i j -
    x.h1b_ov i c * x.l2c a b k j - x.h1b_ov j c * x.l2c a b i k + x.h1b_ov i a * x.l2c c b k j + x.h1b_ov i b * x.l2c a c k j +
    x.h1b_ov j a * x.l2c c b i k + x.h1b_ov j b * x.l2c a c i k

/-- `D` for the correction A, `/repo/ccpy/lib/fortran/crcc_loops.f90:627-628`. -/
def ArgsD.denomA (x : ArgsD) (i j k a b c : ℕ) : ℚ :=
  x.fb_oo i i + x.fb_oo j j + x.fb_oo k k - x.fb_vv a a - x.fb_vv b b - x.fb_vv c c

/-- `D` for the correction B, `/repo/ccpy/lib/fortran/crcc_loops.f90:632-633`. -/
def ArgsD.denomB (x : ArgsD) (i j k a b c : ℕ) : ℚ :=
  x.h1b_oo i i + x.h1b_oo j j + x.h1b_oo k k - x.h1b_vv a a - x.h1b_vv b b - x.h1b_vv c c

/-- `D` for the correction C, `/repo/ccpy/lib/fortran/crcc_loops.f90:637-642`. -/
def ArgsD.denomC (x : ArgsD) (i j k a b c : ℕ) : ℚ :=
  x.denomB i j k a b c - x.h2c_voov a i i a - x.h2c_voov b i i b - x.h2c_voov c i i c - x.h2c_voov a j j a - x.h2c_voov b j j b -
    x.h2c_voov c j j c - x.h2c_voov a k k a - x.h2c_voov b k k b - x.h2c_voov c k k c - x.h2c_oooo j i j i - x.h2c_oooo k i k i -
    x.h2c_oooo k j k j - x.h2c_vvvv b a - x.h2c_vvvv c a - x.h2c_vvvv c b

/-- `D` for the correction D, `/repo/ccpy/lib/fortran/crcc_loops.f90:647-653`. -/
def ArgsD.denomD (x : ArgsD) (i j k a b c : ℕ) : ℚ :=
  x.denomC i j k a b c + x.d3d_o a i j + x.d3d_o a i k + x.d3d_o a j k + x.d3d_o b i j + x.d3d_o b i k + x.d3d_o b j k + x.d3d_o c
    i j + x.d3d_o c i k + x.d3d_o c j k - x.d3d_v a i b - x.d3d_v a i c - x.d3d_v b i c - x.d3d_v a j b - x.d3d_v a j c - x.d3d_v b
    j c - x.d3d_v a k b - x.d3d_v a k c - x.d3d_v b k c

/-- `crcc23D_opt`, `/repo/ccpy/lib/fortran/crcc_loops.f90:534-665`; a division by zero gives zero here. -/
def crcc23D (d : Dims) (x : ArgsD) : Deltas :=
  doLoop 1 d.ob (fun i =>
  doLoop (i + 1) d.ob fun j =>
  doLoop (j + 1) d.ob fun k =>
    let x3 := x.x3d d i j k
    let l3 := x.l3d d i j k
    doLoop 1 d.ub fun a =>
    doLoop (a + 1) d.ub fun b =>
    doLoop (b + 1) d.ub fun c s =>
      let temp1 := x3 a b c + x3 b c a + x3 c a b - x3 a c b - x3 b a c - x3 c b a
      let temp2 := l3 a b c + l3 b c a + l3 c a b - l3 a c b - l3 b a c - l3 c b a
      let temp3 := x.temp3 i j k a b c
      let lm := temp1 * (temp2 + temp3)
      (s.1 + lm / x.denomA i j k a b c, s.2.1 + lm / x.denomB i j k a b c, s.2.2.1 + lm / x.denomC i j k a b c,
        s.2.2.2 + lm / x.denomD i j k a b c)) (0, 0, 0, 0)

/-- The arguments of the call, `/repo/ccpy/moments/crcc23.py:105-114`. -/
def argsD (s : Setup) (m : Memory) (T L : Amps) (H H0 : Ints) : ArgsD where
  t2c := axes4 (s.eval m T.bb)
  l1b := axes2 (s.eval m L.b)
  l2c := axes4 (s.eval m L.bb)
  h2c_vooo := axes4 (s.eval m H.bb.vooo)
  i2c_vvov := axes4 (s.eval m (H.bb.vvov + (es% "me,abim->abie" H.b.ov, T.bb)))
  vc_oovv := axes4 (s.eval m H.bb.oovv)
  h1b_ov := axes2 (s.eval m H.b.ov)
  h2c_vovv := axes4 (s.eval m H.bb.vovv)
  h2c_ooov := axes4 (s.eval m H.bb.ooov)
  fb_oo := axes2 (s.eval m H0.b.oo)
  fb_vv := axes2 (s.eval m H0.b.vv)
  h1b_oo := axes2 (s.eval m H.b.oo)
  h1b_vv := axes2 (s.eval m H.b.vv)
  h2c_voov := axes4 (s.eval m H.bb.voov)
  h2c_oooo := axes4 (s.eval m H.bb.oooo)
  h2c_vvvv := one2 (diagonal (s.eval m H.bb.vvvv))
  d3d_o := one3 (d3bbbO s m T H)
  d3d_v := one3 (d3bbbV s m T H)

/-- `calc_crcc23(T, L, corr_energy, H, H0, system, use_RHF)`, `/repo/ccpy/moments/crcc23.py:8-158`: the corrections `delta23`; the
energies are sums of them with `system.reference_energy` and `corr_energy`. -/
def calcCrcc23 (s : Setup) (m : Memory) (T L : Amps) (H H0 : Ints) (useRHF : Bool) : Option Deltas := do
  let d := dimsOf s
  let aaa := crcc23A d (argsA s m T L H H0)
  let aab := crcc23B d (argsB s m T L H H0)
  if useRHF then
    some (2 * aaa.1 + 2 * aab.1, 2 * aaa.2.1 + 2 * aab.2.1, 2 * aaa.2.2.1 + 2 * aab.2.2.1, 2 * aaa.2.2.2 + 2 * aab.2.2.2)
  else
    let abb ← crcc23C d (argsC s m T L H H0)
    let bbb := crcc23D d (argsD s m T L H H0)
    some (aaa.1 + aab.1 + abb.1 + bbb.1, aaa.2.1 + aab.2.1 + abb.2.1 + bbb.2.1,
      aaa.2.2.1 + aab.2.2.1 + abb.2.2.1 + bbb.2.2.1, aaa.2.2.2 + aab.2.2.2 + abb.2.2.2 + bbb.2.2.2)

end Ccpy.CrCc
