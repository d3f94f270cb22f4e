import Verif.Model.PSpaceUpdate

/-! The update of the single excitations in CCSDT(P), `/repo/ccpy/cc/ccsdt_p.py:134-185` with the kernels `update_t1a` and
`update_t1b` of `/repo/ccpy/lib/fortran/ccsdt_p_loops.f90:16-164`.  The simplifications are those of `Model/PSpace.lean` and
`Model/UpdateKernels.lean`; the statements of the update loops are the same as in `/repo/ccpy/lib/fortran/cc_loops2.f90` except
that `resid` is also the array that is read. -/

namespace Ccpy.PSpace
open Ccpy.Tensor Ccpy.UpdateKernels Ccpy.Fortran

/-- `r(a,i) = r(a,i) + v`, e.g. `/repo/ccpy/lib/fortran/ccsdt_p_loops.f90:52`. -/
def addElement2 (a i : ℕ) (v : ℚ) (r : Arr2) : Arr2 := fun a' i' => if a' = a ∧ i' = i then r a' i' + v else r a' i'

/-- A Python array as a kernel sees it, with 1-based indices. -/
def axes2 (x : List ℕ → ℚ) : Arr2 := one2 fun p q => x [p, q]
def axes4 (x : List ℕ → ℚ) : Arr4 := one4 fun p q r s => x [p, q, r, s]

/-- An array by keys. -/
def keys1 (r : Arr2) : Key1 → ℚ := fun k => r (k.1 0) (k.2 0)

/-- The loops of `update_t1a` over the lists, `/repo/ccpy/lib/fortran/ccsdt_p_loops.f90:16-89`. -/
def listsT1a (H2A_oovv H2B_oovv H2C_oovv : Arr4) (t3a t3b t3c : Buffer) (resid : Arr2) : Arr2 :=
  let resid := (t3a.excits.zip t3a.amps).foldl (fun resid x =>
    let t_amp := x.2
    let a := column x.1 1; let e := column x.1 2; let f := column x.1 3; let i := column x.1 4; let m := column x.1 5; let n := column x.1 6
    let resid := addElement2 a i (H2A_oovv m n e f * t_amp) resid
    let resid := addElement2 e i (-H2A_oovv m n a f * t_amp) resid
    let resid := addElement2 f i (-H2A_oovv m n e a * t_amp) resid
    let resid := addElement2 a m (-H2A_oovv i n e f * t_amp) resid
    let resid := addElement2 e m (H2A_oovv i n a f * t_amp) resid
    let resid := addElement2 f m (H2A_oovv i n e a * t_amp) resid
    let resid := addElement2 a n (-H2A_oovv m i e f * t_amp) resid
    let resid := addElement2 e n (H2A_oovv m i a f * t_amp) resid
    let resid := addElement2 f n (H2A_oovv m i e a * t_amp) resid
    resid) resid
  let resid := (t3b.excits.zip t3b.amps).foldl (fun resid x =>
    let t_amp := x.2
    let a := column x.1 1; let e := column x.1 2; let f := column x.1 3; let i := column x.1 4; let m := column x.1 5; let n := column x.1 6
    let resid := addElement2 a i (H2B_oovv m n e f * t_amp) resid
    let resid := addElement2 e i (-H2B_oovv m n a f * t_amp) resid
    let resid := addElement2 a m (-H2B_oovv i n e f * t_amp) resid
    let resid := addElement2 e m (H2B_oovv i n a f * t_amp) resid
    resid) resid
  let resid := (t3c.excits.zip t3c.amps).foldl (fun resid x =>
    let t_amp := x.2
    let a := column x.1 1; let e := column x.1 2; let f := column x.1 3; let i := column x.1 4; let m := column x.1 5; let n := column x.1 6
    let resid := addElement2 a i (H2C_oovv m n e f * t_amp) resid
    resid) resid
  resid

/-- The update loop of `update_t1a`, `/repo/ccpy/lib/fortran/ccsdt_p_loops.f90:79-87`: `resid` is read and overwritten by the
increments; the new amplitudes and the increments. -/
def sweepT1a (d : Dims) (fA_oo fA_vv : Arr2) (shift : ℚ) (resid : Arr2) (t : Key1 → ℚ) : (Key1 → ℚ) × (Key1 → ℚ) :=
  let s := doLoop 1 d.oa fun i => doLoop 1 d.ua fun a s =>
    let denom := fA_oo i i - fA_vv a a
    let val := signedSum s.2 (termsT1a a i) / (denom - shift)
    storeUpdate (![a], ![i]) val [] (residsT1a a i) s
  s (t, keys1 resid)

/-- The second argument of the kernel call of `update_t1a`, `/repo/ccpy/cc/ccsdt_p.py:134-158`. -/
def residualT1a (T : Amps) (X H : Ints) : Ex :=
  let dT_a := -(es% "mi,am->ai" X.a.oo, T.a)
  let dT_a := dT_a + (es% "ae,ei->ai" X.a.vv, T.a)
  let dT_a := dT_a + (es% "me,aeim->ai" X.a.ov, T.aa)
  let dT_a := dT_a + (es% "me,aeim->ai" X.b.ov, T.ab)
  let dT_a := dT_a + (es% "anif,fn->ai" H.aa.voov, T.a)
  let dT_a := dT_a + (es% "anif,fn->ai" H.ab.voov, T.b)
  let dT_a := dT_a - half (es% "mnif,afmn->ai" H.aa.ooov, T.aa)
  let dT_a := dT_a - (es% "mnif,afmn->ai" H.ab.ooov, T.ab)
  let dT_a := dT_a + half (es% "anef,efin->ai" H.aa.vovv, T.aa)
  let dT_a := dT_a + (es% "anef,efin->ai" H.ab.vovv, T.ab)
  dT_a + H.a.vo

/-- `update_t1a(T, dT, H, X, shift, t3_excitations)`, `/repo/ccpy/cc/ccsdt_p.py:134-158`: the new array `T.a` and `dT.a`; `t` is
the old array `T.a`. -/
def callT1a (s : Setup) (m : Memory) (T : Amps) (X H : Ints) (t3a t3b t3c : Buffer) (t : List ℕ → ℚ) : (List ℕ → ℚ) × (List ℕ → ℚ) :=
  let resid := axes2 (s.eval m (residualT1a T X H))
  let resid := listsT1a (axes4 (s.eval m H.aa.oovv)) (axes4 (s.eval m H.ab.oovv)) (axes4 (s.eval m H.bb.oovv))
    t3a t3b t3c resid
  let r := sweepT1a (dimsOf s) s.foo s.fvv s.shift resid (seen1 t)
  (back1 t r.1, back1 (fun _ => 0) r.2)

/-- The loops of `update_t1b` over the lists, `/repo/ccpy/lib/fortran/ccsdt_p_loops.f90:91-164`. -/
def listsT1b (H2A_oovv H2B_oovv H2C_oovv : Arr4) (t3b t3c t3d : Buffer) (resid : Arr2) : Arr2 :=
  let resid := (t3b.excits.zip t3b.amps).foldl (fun resid x =>
    let t_amp := x.2
    let e := column x.1 1; let f := column x.1 2; let a := column x.1 3; let m := column x.1 4; let n := column x.1 5; let i := column x.1 6
    let resid := addElement2 a i (H2A_oovv m n e f * t_amp) resid
    resid) resid
  let resid := (t3c.excits.zip t3c.amps).foldl (fun resid x =>
    let t_amp := x.2
    let e := column x.1 1; let f := column x.1 2; let a := column x.1 3; let m := column x.1 4; let n := column x.1 5; let i := column x.1 6
    let resid := addElement2 a i (H2B_oovv m n e f * t_amp) resid
    let resid := addElement2 f i (-H2B_oovv m n e a * t_amp) resid
    let resid := addElement2 a n (-H2B_oovv m i e f * t_amp) resid
    let resid := addElement2 f n (H2B_oovv m i e a * t_amp) resid
    resid) resid
  let resid := (t3d.excits.zip t3d.amps).foldl (fun resid x =>
    let t_amp := x.2
    let a := column x.1 1; let e := column x.1 2; let f := column x.1 3; let i := column x.1 4; let m := column x.1 5; let n := column x.1 6
    let resid := addElement2 a i (H2C_oovv m n e f * t_amp) resid
    let resid := addElement2 e i (-H2C_oovv m n a f * t_amp) resid
    let resid := addElement2 f i (-H2C_oovv m n e a * t_amp) resid
    let resid := addElement2 a m (-H2C_oovv i n e f * t_amp) resid
    let resid := addElement2 e m (H2C_oovv i n a f * t_amp) resid
    let resid := addElement2 f m (H2C_oovv i n e a * t_amp) resid
    let resid := addElement2 a n (-H2C_oovv m i e f * t_amp) resid
    let resid := addElement2 e n (H2C_oovv m i a f * t_amp) resid
    let resid := addElement2 f n (H2C_oovv m i e a * t_amp) resid
    resid) resid
  resid

/-- The update loop of `update_t1b`, `/repo/ccpy/lib/fortran/ccsdt_p_loops.f90:154-162`: `resid` is read and overwritten by the
increments; the new amplitudes and the increments. -/
def sweepT1b (d : Dims) (fB_oo fB_vv : Arr2) (shift : ℚ) (resid : Arr2) (t : Key1 → ℚ) : (Key1 → ℚ) × (Key1 → ℚ) :=
  let s := doLoop 1 d.ob fun i => doLoop 1 d.ub fun a s =>
    let denom := fB_oo i i - fB_vv a a
    let val := signedSum s.2 (termsT1b a i) / (denom - shift)
    storeUpdate (![a], ![i]) val [] (residsT1b a i) s
  s (t, keys1 resid)

/-- The second argument of the kernel call of `update_t1b`, `/repo/ccpy/cc/ccsdt_p.py:160-185`. -/
def residualT1b (T : Amps) (X H : Ints) : Ex :=
  let dT_b := -(es% "mi,am->ai" X.b.oo, T.b)
  let dT_b := dT_b + (es% "ae,ei->ai" X.b.vv, T.b)
  let dT_b := dT_b + (es% "anif,fn->ai" H.bb.voov, T.b)
  let dT_b := dT_b + (es% "nafi,fn->ai" H.ab.ovvo, T.a)
  let dT_b := dT_b + (es% "me,eami->ai" X.a.ov, T.ab)
  let dT_b := dT_b + (es% "me,aeim->ai" X.b.ov, T.bb)
  let dT_b := dT_b - half (es% "mnif,afmn->ai" H.bb.ooov, T.bb)
  let dT_b := dT_b - (es% "nmfi,fanm->ai" H.ab.oovo, T.ab)
  let dT_b := dT_b + half (es% "anef,efin->ai" H.bb.vovv, T.bb)
  let dT_b := dT_b + (es% "nafe,feni->ai" H.ab.ovvv, T.ab)
  dT_b + H.b.vo

/-- `update_t1b(T, dT, H, X, shift, t3_excitations)`, `/repo/ccpy/cc/ccsdt_p.py:160-185`: the new array `T.b` and `dT.b`; `t` is
the old array `T.b`. -/
def callT1b (s : Setup) (m : Memory) (T : Amps) (X H : Ints) (t3b t3c t3d : Buffer) (t : List ℕ → ℚ) : (List ℕ → ℚ) × (List ℕ → ℚ) :=
  let resid := axes2 (s.eval m (residualT1b T X H))
  let resid := listsT1b (axes4 (s.eval m H.aa.oovv)) (axes4 (s.eval m H.ab.oovv)) (axes4 (s.eval m H.bb.oovv))
    t3b t3c t3d resid
  let r := sweepT1b (dimsOf s) s.goo s.gvv s.shift resid (seen1 t)
  (back1 t r.1, back1 (fun _ => 0) r.2)

end Ccpy.PSpace
