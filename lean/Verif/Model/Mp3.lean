import Verif.Model.Mp2
import Verif.Model.CrCc23

/-! Model of third-order perturbation theory: `calc_mp3` of `/repo/ccpy/mbpt/mbpt.py` and subroutine `mp3` of
`/repo/ccpy/lib/fortran/mbpt_loops.f90`. -/

namespace Ccpy.Mp3
open Ccpy.PSpace Ccpy.Fortran Ccpy.Tensor

/-- The array arguments of `mp3`, `/repo/ccpy/lib/fortran/mbpt_loops.f90:61-89`. -/
structure Args where
  fA_oo : Arr2
  fA_vv : Arr2
  fB_oo : Arr2
  fB_vv : Arr2
  vA_oovv : Arr4
  vA_vvoo : Arr4
  vA_voov : Arr4
  vA_oooo : Arr4
  vA_vvvv : Arr4
  vB_oovv : Arr4
  vB_vvoo : Arr4
  vB_voov : Arr4
  vB_ovvo : Arr4
  vB_vovo : Arr4
  vB_ovov : Arr4
  vB_oooo : Arr4
  vB_vvvv : Arr4
  vC_oovv : Arr4
  vC_vvoo : Arr4
  vC_voov : Arr4
  vC_oooo : Arr4
  vC_vvvv : Arr4

/-- The assignment `t(a,b,i,j) = x`, as in `/repo/ccpy/lib/fortran/mbpt_loops.f90:103`. -/
def store (t : Arr4) (a b i j : ℕ) (x : ℚ) : Arr4 :=
  fun p q r s => if p = a ∧ q = b ∧ r = i ∧ s = j then x else t p q r s

/-- The loops that fill `t2a_1` and `t2c_1`, `/repo/ccpy/lib/fortran/mbpt_loops.f90:98-110` and `:121-133`; a division by zero gives zero
here. -/
def firstLike (foo fvv : Arr2) (vvoo : Arr4) (no nu : ℕ) (t : Arr4) : Arr4 :=
  doLoop 1 nu (fun a =>
    doLoop (a + 1) nu fun b =>
    doLoop 1 no fun i =>
    doLoop (i + 1) no fun j t =>
      let denom := foo i i + foo j j - fvv a a - fvv b b
      let t := store t a b i j (vvoo a b i j / denom)
      let t := store t b a i j (-t a b i j)
      let t := store t a b j i (-t a b i j)
      store t b a j i (t a b i j)) t

/-- The loops that fill `t2b_1`, `/repo/ccpy/lib/fortran/mbpt_loops.f90:111-120`. -/
def firstMixed (x : Args) (d : Dims) (t : Arr4) : Arr4 :=
  doLoop 1 d.ua (fun a =>
    doLoop 1 d.ub fun b =>
    doLoop 1 d.oa fun i =>
    doLoop 1 d.ob fun j t =>
      let denom := x.fA_oo i i + x.fB_oo j j - x.fA_vv a a - x.fB_vv b b
      store t a b i j (x.vB_vvoo a b i j / denom)) t

/-- `t_amp` before the division, for the spins `αα`, `/repo/ccpy/lib/fortran/mbpt_loops.f90:142-171`. -/
def ampA (x : Args) (d : Dims) (t2a t2b : Arr4) (a b i j : ℕ) : ℚ :=
  let t := 0
  let t := doLoop 1 d.oa (fun m => doLoop (m + 1) d.oa fun n t => t + x.vA_oooo m n i j * t2a a b m n) t
  let t := doLoop 1 d.ua (fun e => doLoop (e + 1) d.ua fun f t => t + x.vA_vvvv a b e f * t2a e f i j) t
  let t := doLoop 1 d.ua (fun e => doLoop 1 d.oa fun m t => t + x.vA_voov a m i e * t2a e b m j - x.vA_voov b m i e * t2a e a m j
    - x.vA_voov a m j e * t2a e b m i + x.vA_voov b m j e * t2a e a m i) t
  doLoop 1 d.ub (fun e => doLoop 1 d.ob fun m t => t + x.vB_voov a m i e * t2b b e j m - x.vB_voov b m i e * t2b a e j m
    - x.vB_voov a m j e * t2b b e i m + x.vB_voov b m j e * t2b a e i m) t

/-- `t_amp` before the division, for the spins `αβ`, `/repo/ccpy/lib/fortran/mbpt_loops.f90:183-225`. -/
def ampB (x : Args) (d : Dims) (t2a t2b t2c : Arr4) (a b i j : ℕ) : ℚ :=
  let t := 0
  let t := doLoop 1 d.oa (fun m => doLoop 1 d.ob fun n t => t + x.vB_oooo m n i j * t2b a b m n) t
  let t := doLoop 1 d.ua (fun e => doLoop 1 d.ub fun f t => t + x.vB_vvvv a b e f * t2b e f i j) t
  let t := doLoop 1 d.ua (fun e => doLoop 1 d.oa fun m t => t + x.vA_voov a m i e * t2b e b m j) t
  let t := doLoop 1 d.ub (fun e => doLoop 1 d.ob fun m t => t + x.vC_voov b m j e * t2b a e i m) t
  let t := doLoop 1 d.ua (fun e => doLoop 1 d.oa fun m t => t + x.vB_ovvo m b e j * t2a a e i m) t
  let t := doLoop 1 d.ub (fun e => doLoop 1 d.ob fun m t => t + x.vB_voov a m i e * t2c b e j m) t
  let t := doLoop 1 d.ub (fun e => doLoop 1 d.oa fun m t => t - x.vB_ovov m b i e * t2b a e m j) t
  doLoop 1 d.ua (fun e => doLoop 1 d.ob fun m t => t - x.vB_vovo a m e j * t2b e b i m) t

/-- `t_amp` before the division, for the spins `ββ`, `/repo/ccpy/lib/fortran/mbpt_loops.f90:237-265`. -/
def ampC (x : Args) (d : Dims) (t2b t2c : Arr4) (a b i j : ℕ) : ℚ :=
  let t := 0
  let t := doLoop 1 d.ob (fun m => doLoop (m + 1) d.ob fun n t => t + x.vC_oooo m n i j * t2c a b m n) t
  let t := doLoop 1 d.ub (fun e => doLoop (e + 1) d.ub fun f t => t + x.vC_vvvv a b e f * t2c e f i j) t
  let t := doLoop 1 d.ub (fun e => doLoop 1 d.ob fun m t => t + x.vC_voov a m i e * t2c e b m j - x.vC_voov b m i e * t2c e a m j
    - x.vC_voov a m j e * t2c e b m i + x.vC_voov b m j e * t2c e a m i) t
  doLoop 1 d.ua (fun e => doLoop 1 d.oa fun m t => t + x.vB_ovvo m a e i * t2b e b m j - x.vB_ovvo m b e i * t2b e a m j
    - x.vB_ovvo m a e j * t2b e b m i + x.vB_ovvo m b e j * t2b e a m i) t

/-- `mp3`, `/repo/ccpy/lib/fortran/mbpt_loops.f90:61-273`.  The subroutine does not set `Emp3` before it adds to it; `e₀` is the number that
`Emp3` holds on entry. -/
def mp3 (x : Args) (d : Dims) (e₀ : ℚ) : ℚ :=
  let t2a := firstLike x.fA_oo x.fA_vv x.vA_vvoo d.oa d.ua fun _ _ _ _ => 0
  let t2b := firstMixed x d fun _ _ _ _ => 0
  let t2c := firstLike x.fB_oo x.fB_vv x.vC_vvoo d.ob d.ub fun _ _ _ _ => 0
  let e := doLoop 1 d.ua (fun a =>
    doLoop (a + 1) d.ua fun b =>
    doLoop 1 d.oa fun i =>
    doLoop (i + 1) d.oa fun j e =>
      let denom := x.fA_oo i i + x.fA_oo j j - x.fA_vv a a - x.fA_vv b b
      e + x.vA_oovv i j a b * (ampA x d t2a t2b a b i j / denom)) e₀
  let e := doLoop 1 d.ua (fun a =>
    doLoop 1 d.ub fun b =>
    doLoop 1 d.oa fun i =>
    doLoop 1 d.ob fun j e =>
      let denom := x.fA_oo i i + x.fB_oo j j - x.fA_vv a a - x.fB_vv b b
      e + x.vB_oovv i j a b * (ampB x d t2a t2b t2c a b i j / denom)) e
  doLoop 1 d.ub (fun a =>
    doLoop (a + 1) d.ub fun b =>
    doLoop 1 d.ob fun i =>
    doLoop (i + 1) d.ob fun j e =>
      let denom := x.fB_oo i i + x.fB_oo j j - x.fB_vv a a - x.fB_vv b b
      e + x.vC_oovv i j a b * (ampC x d t2b t2c a b i j / denom)) e

/-- The arguments of the call of `mp2`, `/repo/ccpy/mbpt/mbpt.py:28-29`. -/
def argsMp2 (s : Setup) (m : Memory) (H : Ints) : Mp2.Ints ℚ where
  fA_oo := axes2 (s.eval m H.a.oo)
  fA_vv := axes2 (s.eval m H.a.vv)
  fB_oo := axes2 (s.eval m H.b.oo)
  fB_vv := axes2 (s.eval m H.b.vv)
  vA_oovv := axes4 (s.eval m H.aa.oovv)
  vA_vvoo := axes4 (s.eval m H.aa.vvoo)
  vB_oovv := axes4 (s.eval m H.ab.oovv)
  vB_vvoo := axes4 (s.eval m H.ab.vvoo)
  vC_oovv := axes4 (s.eval m H.bb.oovv)
  vC_vvoo := axes4 (s.eval m H.bb.vvoo)

/-- The arguments of the call of `mp3`, `/repo/ccpy/mbpt/mbpt.py:30-33`. -/
def argsMp3 (s : Setup) (m : Memory) (H : Ints) : Args where
  fA_oo := axes2 (s.eval m H.a.oo)
  fA_vv := axes2 (s.eval m H.a.vv)
  fB_oo := axes2 (s.eval m H.b.oo)
  fB_vv := axes2 (s.eval m H.b.vv)
  vA_oovv := axes4 (s.eval m H.aa.oovv)
  vA_vvoo := axes4 (s.eval m H.aa.vvoo)
  vA_voov := axes4 (s.eval m H.aa.voov)
  vA_oooo := axes4 (s.eval m H.aa.oooo)
  vA_vvvv := axes4 (s.eval m H.aa.vvvv)
  vB_oovv := axes4 (s.eval m H.ab.oovv)
  vB_vvoo := axes4 (s.eval m H.ab.vvoo)
  vB_voov := axes4 (s.eval m H.ab.voov)
  vB_ovvo := axes4 (s.eval m H.ab.ovvo)
  vB_vovo := axes4 (s.eval m H.ab.vovo)
  vB_ovov := axes4 (s.eval m H.ab.ovov)
  vB_oooo := axes4 (s.eval m H.ab.oooo)
  vB_vvvv := axes4 (s.eval m H.ab.vvvv)
  vC_oovv := axes4 (s.eval m H.bb.oovv)
  vC_vvoo := axes4 (s.eval m H.bb.vvoo)
  vC_voov := axes4 (s.eval m H.bb.voov)
  vC_oooo := axes4 (s.eval m H.bb.oooo)
  vC_vvvv := axes4 (s.eval m H.bb.vvvv)

/-- `calc_mp2`, `/repo/ccpy/mbpt/mbpt.py:6-22`: the correlation energy. -/
def calcMp2 (s : Setup) (m : Memory) (H : Ints) : ℚ :=
  let d := dimsOf s
  Mp2.mp2 (argsMp2 s m H) d.oa d.ob d.ua d.ub

/-- `calc_mp3`, `/repo/ccpy/mbpt/mbpt.py:24-50`: the correlation energy; `e₀` is the number that `Emp3` holds when `mp3` is called. -/
def calcMp3 (s : Setup) (m : Memory) (H : Ints) (e₀ : ℚ) : ℚ :=
  calcMp2 s m H + mp3 (argsMp3 s m H) (dimsOf s) e₀

end Ccpy.Mp3
