import Verif.Model.PSpaceSingles

/-! The update of the double excitations in CCSDT(P), `/repo/ccpy/cc/ccsdt_p.py:187-313` with the kernels `update_t2a`, `update_t2b`
and `update_t2c` of `/repo/ccpy/lib/fortran/ccsdt_p_loops.f90:166-562`. -/

namespace Ccpy.PSpace
open Ccpy.Tensor Ccpy.UpdateKernels Ccpy.Fortran Ccpy.Writes

/-- `r(a,b,i,j) = r(a,b,i,j) + v`, e.g. `/repo/ccpy/lib/fortran/ccsdt_p_loops.f90:207`. -/
def addElement4 (a b i j : ℕ) (v : ℚ) (r : Arr4) : Arr4 := fun a' b' i' j' =>
  if a' = a ∧ b' = b ∧ i' = i ∧ j' = j then r a' b' i' j' + v else r a' b' i' j'
/-- `r(a,:,i,j) = r(a,:,i,j) + v(:)`, e.g. `/repo/ccpy/lib/fortran/ccsdt_p_loops.f90:364`. -/
def addSlice2 (a i j : ℕ) (v : ℕ → ℚ) (r : Arr4) : Arr4 := fun a' b' i' j' =>
  if a' = a ∧ i' = i ∧ j' = j then r a' b' i' j' + v b' else r a' b' i' j'
/-- `r(a,b,:,j) = r(a,b,:,j) + v(:)`, e.g. `/repo/ccpy/lib/fortran/ccsdt_p_loops.f90:219`. -/
def addSlice3 (a b j : ℕ) (v : ℕ → ℚ) (r : Arr4) : Arr4 := fun a' b' i' j' =>
  if a' = a ∧ b' = b ∧ j' = j then r a' b' i' j' + v i' else r a' b' i' j'
/-- `r(a,b,i,:) = r(a,b,i,:) + v(:)`, e.g. `/repo/ccpy/lib/fortran/ccsdt_p_loops.f90:384`. -/
def addSlice4 (a b i : ℕ) (v : ℕ → ℚ) (r : Arr4) : Arr4 := fun a' b' i' j' =>
  if a' = a ∧ b' = b ∧ i' = i then r a' b' i' j' + v j' else r a' b' i' j'

/-- An array by keys. -/
def keys2 (r : Arr4) : Key2 → ℚ := fun k => r (k.1 0) (k.1 1) (k.2 0) (k.2 1)

/-- `resid(a,a,:,:) = 0.0d0`, `/repo/ccpy/lib/fortran/ccsdt_p_loops.f90:288-290`. -/
def zeroParticles (a : ℕ) (r : Key2 → ℚ) : Key2 → ℚ := fun k => if k.1 0 = a ∧ k.1 1 = a then 0 else r k
/-- `resid(:,:,i,i) = 0.0d0`, `/repo/ccpy/lib/fortran/ccsdt_p_loops.f90:291-293`. -/
def zeroHoles (i : ℕ) (r : Key2 → ℚ) : Key2 → ℚ := fun k => if k.2 0 = i ∧ k.2 1 = i then 0 else r k

/-- The loops of `update_t2a` over the lists, `/repo/ccpy/lib/fortran/ccsdt_p_loops.f90:166-295`. -/
def listsT2a (H1A_ov H1B_ov : Arr2) (H2A_ooov H2A_vovv H2B_ooov H2B_vovv : Arr4) (t3a t3b : Buffer) (resid : Arr4) : Arr4 :=
  let resid := (t3a.excits.zip t3a.amps).foldl (fun resid x =>
    let t_amp := x.2
    let a := column x.1 1; let b := column x.1 2; let e := column x.1 3; let i := column x.1 4; let j := column x.1 5; let m := column x.1 6
    let resid := addElement4 a b i j (H1A_ov m e * t_amp) resid
    let resid := addElement4 a b m j (-H1A_ov i e * t_amp) resid
    let resid := addElement4 a b i m (-H1A_ov j e * t_amp) resid
    let resid := addElement4 e b i j (-H1A_ov m a * t_amp) resid
    let resid := addElement4 e b m j (H1A_ov i a * t_amp) resid
    let resid := addElement4 e b i m (H1A_ov j a * t_amp) resid
    let resid := addElement4 a e i j (-H1A_ov m b * t_amp) resid
    let resid := addElement4 a e m j (H1A_ov i b * t_amp) resid
    let resid := addElement4 a e i m (H1A_ov j b * t_amp) resid
    let a := column x.1 1; let b := column x.1 2; let f := column x.1 3; let m := column x.1 4; let j := column x.1 5; let n := column x.1 6
    let resid := addSlice3 a b j (fun p => -H2A_ooov m n p f * t_amp) resid
    let resid := addSlice3 a b m (fun p => H2A_ooov j n p f * t_amp) resid
    let resid := addSlice3 a b n (fun p => H2A_ooov m j p f * t_amp) resid
    let resid := addSlice3 f b j (fun p => H2A_ooov m n p a * t_amp) resid
    let resid := addSlice3 f b m (fun p => -H2A_ooov j n p a * t_amp) resid
    let resid := addSlice3 f b n (fun p => -H2A_ooov m j p a * t_amp) resid
    let resid := addSlice3 a f j (fun p => H2A_ooov m n p b * t_amp) resid
    let resid := addSlice3 a f m (fun p => -H2A_ooov j n p b * t_amp) resid
    let resid := addSlice3 a f n (fun p => -H2A_ooov m j p b * t_amp) resid
    let e := column x.1 1; let b := column x.1 2; let f := column x.1 3; let i := column x.1 4; let j := column x.1 5; let n := column x.1 6
    let resid := addSlice b i j (fun p => H2A_vovv p n e f * t_amp) resid
    let resid := addSlice b n j (fun p => -H2A_vovv p i e f * t_amp) resid
    let resid := addSlice b i n (fun p => -H2A_vovv p j e f * t_amp) resid
    let resid := addSlice e i j (fun p => -H2A_vovv p n b f * t_amp) resid
    let resid := addSlice e n j (fun p => H2A_vovv p i b f * t_amp) resid
    let resid := addSlice e i n (fun p => H2A_vovv p j b f * t_amp) resid
    let resid := addSlice f i j (fun p => -H2A_vovv p n e b * t_amp) resid
    let resid := addSlice f n j (fun p => H2A_vovv p i e b * t_amp) resid
    let resid := addSlice f i n (fun p => H2A_vovv p j e b * t_amp) resid
    resid) resid
  let resid := (t3b.excits.zip t3b.amps).foldl (fun resid x =>
    let t_amp := x.2
    let a := column x.1 1; let b := column x.1 2; let e := column x.1 3; let i := column x.1 4; let j := column x.1 5; let m := column x.1 6
    let resid := addElement4 a b i j (H1B_ov m e * t_amp) resid
    let a := column x.1 1; let b := column x.1 2; let f := column x.1 3; let m := column x.1 4; let j := column x.1 5; let n := column x.1 6
    let resid := addSlice3 a b j (fun p => -H2B_ooov m n p f * t_amp) resid
    let resid := addSlice3 a b m (fun p => H2B_ooov j n p f * t_amp) resid
    let e := column x.1 1; let b := column x.1 2; let f := column x.1 3; let i := column x.1 4; let j := column x.1 5; let n := column x.1 6
    let resid := addSlice b i j (fun p => H2B_vovv p n e f * t_amp) resid
    let resid := addSlice e i j (fun p => -H2B_vovv p n b f * t_amp) resid
    resid) resid
  resid

/-- The update loop of `update_t2a`, `/repo/ccpy/lib/fortran/ccsdt_p_loops.f90:264-293`: `resid` is read and overwritten by the
increments; the new amplitudes and the increments. -/
def sweepT2a (d : Dims) (fA_oo fA_vv : Arr2) (shift : ℚ) (resid : Arr4) (t : Key2 → ℚ) : (Key2 → ℚ) × (Key2 → ℚ) :=
  let s := doLoop 1 d.oa fun i => doLoop (i + 1) d.oa fun j => doLoop 1 d.ua fun a => doLoop (a + 1) d.ua fun b s =>
    let denom := fA_oo i i + fA_oo j j - fA_vv a a - fA_vv b b
    let val := signedSum s.2 (termsT2a a b i j) / (denom - shift)
    storeUpdate (![b, a], ![j, i]) val (copiesT2a a b i j) (residsT2a a b i j) s
  let s := s (t, keys2 resid)
  let r := doLoop 1 d.ua (fun a r => zeroParticles a r) s.2
  (s.1, doLoop 1 d.oa (fun i r => zeroHoles i r) r)

/-- The second argument of the kernel call of `update_t2a`, `/repo/ccpy/cc/ccsdt_p.py:187-226`. -/
def residualT2a (T : Amps) (H H0 : Ints) : Ex :=
  let I2A_voov := H.aa.voov + (half (es% "mnef,afin->amie" H0.aa.oovv, T.aa) + es% "mnef,afin->amie" H0.ab.oovv, T.ab)
  let I2A_oooo := H.aa.oooo + half (es% "mnef,efij->mnij" H0.aa.oovv, T.aa)
  let I2B_voov := H.ab.voov + half (es% "mnef,afin->amie" H0.bb.oovv, T.ab)
  let I2A_vooo := H.aa.vooo + half (es% "anef,efij->anij" (H0.aa.vovv + half H.aa.vovv), T.aa)
  let tau := half T.aa + (es% "ai,bj->abij" T.a, T.a)
  let dT_aa := -half (es% "amij,bm->abij" I2A_vooo, T.a)
  let dT_aa := dT_aa + half (es% "abie,ej->abij" H.aa.vvov, T.a)
  let dT_aa := dT_aa + half (es% "ae,ebij->abij" H.a.vv, T.aa)
  let dT_aa := dT_aa - half (es% "mi,abmj->abij" H.a.oo, T.aa)
  let dT_aa := dT_aa + (es% "amie,ebmj->abij" I2A_voov, T.aa)
  let dT_aa := dT_aa + (es% "amie,bejm->abij" I2B_voov, T.ab)
  let dT_aa := dT_aa + quarter (es% "abef,efij->abij" H0.aa.vvvv, tau)
  let dT_aa := dT_aa + eighth (es% "mnij,abmn->abij" I2A_oooo, T.aa)
  dT_aa + quarter H0.aa.vvoo

/-- `update_t2a(T, dT, H, H0, shift, t3_excitations)`, `/repo/ccpy/cc/ccsdt_p.py:187-226`: the new array `T.aa` and `dT.aa`; `t` is
the old array `T.aa`. -/
def callT2a (s : Setup) (m : Memory) (T : Amps) (H H0 : Ints) (t3a t3b : Buffer) (t : List ℕ → ℚ) : (List ℕ → ℚ) × (List ℕ → ℚ) :=
  let resid := axes4 (s.eval m (residualT2a T H H0))
  let resid := listsT2a (axes2 (s.eval m H.a.ov)) (axes2 (s.eval m H.b.ov)) (axes4 (s.eval m (H0.aa.ooov + H.aa.ooov)))
    (axes4 (s.eval m (H0.aa.vovv + H.aa.vovv))) (axes4 (s.eval m (H0.ab.ooov + H.ab.ooov))) (axes4 (s.eval m (H0.ab.vovv + H.ab.vovv)))
    t3a t3b resid
  let r := sweepT2a (dimsOf s) s.foo s.fvv s.shift resid (seen2 t)
  (back2 t r.1, back2 (fun _ => 0) r.2)

/-- The loops of `update_t2b` over the lists, `/repo/ccpy/lib/fortran/ccsdt_p_loops.f90:297-431`. -/
def listsT2b (H1A_ov H1B_ov : Arr2) (H2A_ooov H2A_vovv H2B_ooov H2B_oovo H2B_vovv H2B_ovvv H2C_ooov H2C_vovv : Arr4) (t3b t3c : Buffer) (resid : Arr4) : Arr4 :=
  let resid := (t3b.excits.zip t3b.amps).foldl (fun resid x =>
    let t_amp := x.2
    let a := column x.1 1; let f := column x.1 2; let b := column x.1 3; let m := column x.1 4; let n := column x.1 5; let j := column x.1 6
    let resid := addSlice3 a b j (fun p => -H2A_ooov m n p f * t_amp) resid
    let resid := addSlice3 f b j (fun p => H2A_ooov m n p a * t_amp) resid
    let a := column x.1 1; let f := column x.1 2; let b := column x.1 3; let i := column x.1 4; let n := column x.1 5; let m := column x.1 6
    let resid := addSlice4 a b i (fun p => -H2B_oovo n m f p * t_amp) resid
    let resid := addSlice4 f b i (fun p => H2B_oovo n m a p * t_amp) resid
    let resid := addSlice4 a b n (fun p => H2B_oovo i m f p * t_amp) resid
    let resid := addSlice4 f b n (fun p => -H2B_oovo i m a p * t_amp) resid
    let e := column x.1 1; let f := column x.1 2; let b := column x.1 3; let i := column x.1 4; let n := column x.1 5; let j := column x.1 6
    let resid := addSlice b i j (fun p => H2A_vovv p n e f * t_amp) resid
    let resid := addSlice b n j (fun p => -H2A_vovv p i e f * t_amp) resid
    let a := column x.1 1; let f := column x.1 2; let e := column x.1 3; let i := column x.1 4; let n := column x.1 5; let j := column x.1 6
    let resid := addSlice2 a i j (fun p => H2B_ovvv n p f e * t_amp) resid
    let resid := addSlice2 f i j (fun p => -H2B_ovvv n p a e * t_amp) resid
    let resid := addSlice2 a n j (fun p => -H2B_ovvv i p f e * t_amp) resid
    let resid := addSlice2 f n j (fun p => H2B_ovvv i p a e * t_amp) resid
    let a := column x.1 1; let e := column x.1 2; let b := column x.1 3; let i := column x.1 4; let m := column x.1 5; let j := column x.1 6
    let resid := addElement4 a b i j (H1A_ov m e * t_amp) resid
    let resid := addElement4 a b m j (-H1A_ov i e * t_amp) resid
    let resid := addElement4 e b i j (-H1A_ov m a * t_amp) resid
    let resid := addElement4 e b m j (H1A_ov i a * t_amp) resid
    resid) resid
  let resid := (t3c.excits.zip t3c.amps).foldl (fun resid x =>
    let t_amp := x.2
    let a := column x.1 1; let f := column x.1 2; let b := column x.1 3; let i := column x.1 4; let n := column x.1 5; let m := column x.1 6
    let resid := addSlice4 a b i (fun p => -H2C_ooov m n p f * t_amp) resid
    let resid := addSlice4 a f i (fun p => H2C_ooov m n p b * t_amp) resid
    let a := column x.1 1; let f := column x.1 2; let b := column x.1 3; let m := column x.1 4; let n := column x.1 5; let j := column x.1 6
    let resid := addSlice3 a b j (fun p => -H2B_ooov m n p f * t_amp) resid
    let resid := addSlice3 a f j (fun p => H2B_ooov m n p b * t_amp) resid
    let resid := addSlice3 a b n (fun p => H2B_ooov m j p f * t_amp) resid
    let resid := addSlice3 a f n (fun p => -H2B_ooov m j p b * t_amp) resid
    let a := column x.1 1; let f := column x.1 2; let e := column x.1 3; let i := column x.1 4; let n := column x.1 5; let j := column x.1 6
    let resid := addSlice2 a i j (fun p => H2C_vovv p n e f * t_amp) resid
    let resid := addSlice2 a i n (fun p => -H2C_vovv p j e f * t_amp) resid
    let e := column x.1 1; let f := column x.1 2; let b := column x.1 3; let i := column x.1 4; let n := column x.1 5; let j := column x.1 6
    let resid := addSlice b i j (fun p => H2B_vovv p n e f * t_amp) resid
    let resid := addSlice f i j (fun p => -H2B_vovv p n e b * t_amp) resid
    let resid := addSlice b i n (fun p => -H2B_vovv p j e f * t_amp) resid
    let resid := addSlice f i n (fun p => H2B_vovv p j e b * t_amp) resid
    let a := column x.1 1; let e := column x.1 2; let b := column x.1 3; let i := column x.1 4; let m := column x.1 5; let j := column x.1 6
    let resid := addElement4 a b i j (H1B_ov m e * t_amp) resid
    let resid := addElement4 a b i m (-H1B_ov j e * t_amp) resid
    let resid := addElement4 a e i j (-H1B_ov m b * t_amp) resid
    let resid := addElement4 a e i m (H1B_ov j b * t_amp) resid
    resid) resid
  resid

/-- The update loop of `update_t2b`, `/repo/ccpy/lib/fortran/ccsdt_p_loops.f90:417-429`: `resid` is read and overwritten by the
increments; the new amplitudes and the increments. -/
def sweepT2b (d : Dims) (fA_oo fA_vv fB_oo fB_vv : Arr2) (shift : ℚ) (resid : Arr4) (t : Key2 → ℚ) : (Key2 → ℚ) × (Key2 → ℚ) :=
  let s := doLoop 1 d.ob fun j => doLoop 1 d.oa fun i => doLoop 1 d.ub fun b => doLoop 1 d.ua fun a s =>
    let denom := fA_oo i i + fB_oo j j - fA_vv a a - fB_vv b b
    let val := signedSum s.2 (termsT2b a b i j) / (denom - shift)
    storeUpdate (![a, b], ![i, j]) val [] (residsT2b a b i j) s
  s (t, keys2 resid)

/-- The second argument of the kernel call of `update_t2b`, `/repo/ccpy/cc/ccsdt_p.py:228-279`. -/
def residualT2b (T : Amps) (H H0 : Ints) : Ex :=
  let I2A_voov := H.aa.voov + (es% "mnef,aeim->anif" H0.aa.oovv, T.aa + es% "nmfe,aeim->anif" H0.ab.oovv, T.ab)
  let I2B_voov := H.ab.voov + (es% "mnef,aeim->anif" H0.ab.oovv, T.aa + es% "mnef,aeim->anif" H0.bb.oovv, T.ab)
  let I2B_oooo := H.ab.oooo + (es% "mnef,efij->mnij" H0.ab.oovv, T.ab)
  let I2B_vovo := H.ab.vovo - (es% "mnef,afmj->anej" H0.ab.oovv, T.ab)
  let I2B_ovoo := H.ab.ovoo + (es% "maef,efij->maij" (H0.ab.ovvv + half H.ab.ovvv), T.ab)
  let I2B_vooo := H.ab.vooo + (es% "amef,efij->amij" (H0.ab.vovv + half H.ab.vovv), T.ab)
  let tau := T.ab + (es% "ai,bj->abij" T.a, T.b)
  let dT_ab := -(es% "mbij,am->abij" I2B_ovoo, T.a)
  let dT_ab := dT_ab - (es% "amij,bm->abij" I2B_vooo, T.b)
  let dT_ab := dT_ab + (es% "abej,ei->abij" H.ab.vvvo, T.a)
  let dT_ab := dT_ab + (es% "abie,ej->abij" H.ab.vvov, T.b)
  let dT_ab := dT_ab + (es% "ae,ebij->abij" H.a.vv, T.ab)
  let dT_ab := dT_ab + (es% "be,aeij->abij" H.b.vv, T.ab)
  let dT_ab := dT_ab - (es% "mi,abmj->abij" H.a.oo, T.ab)
  let dT_ab := dT_ab - (es% "mj,abim->abij" H.b.oo, T.ab)
  let dT_ab := dT_ab + (es% "amie,ebmj->abij" I2A_voov, T.ab)
  let dT_ab := dT_ab + (es% "amie,ebmj->abij" I2B_voov, T.bb)
  let dT_ab := dT_ab + (es% "mbej,aeim->abij" H.ab.ovvo, T.aa)
  let dT_ab := dT_ab + (es% "bmje,aeim->abij" H.bb.voov, T.ab)
  let dT_ab := dT_ab - (es% "mbie,aemj->abij" H.ab.ovov, T.ab)
  let dT_ab := dT_ab - (es% "amej,ebim->abij" I2B_vovo, T.ab)
  let dT_ab := dT_ab + (es% "mnij,abmn->abij" I2B_oooo, T.ab)
  let dT_ab := dT_ab + (es% "abef,efij->abij" H0.ab.vvvv, tau)
  dT_ab + H0.ab.vvoo

/-- `update_t2b(T, dT, H, H0, shift, t3_excitations)`, `/repo/ccpy/cc/ccsdt_p.py:228-279`: the new array `T.ab` and `dT.ab`; `t` is
the old array `T.ab`. -/
def callT2b (s : Setup) (m : Memory) (T : Amps) (H H0 : Ints) (t3b t3c : Buffer) (t : List ℕ → ℚ) : (List ℕ → ℚ) × (List ℕ → ℚ) :=
  let resid := axes4 (s.eval m (residualT2b T H H0))
  let resid := listsT2b (axes2 (s.eval m H.a.ov)) (axes2 (s.eval m H.b.ov)) (axes4 (s.eval m (H.aa.ooov + H0.aa.ooov)))
    (axes4 (s.eval m (H.aa.vovv + H0.aa.vovv))) (axes4 (s.eval m (H.ab.ooov + H0.ab.ooov))) (axes4 (s.eval m (H.ab.oovo + H0.ab.oovo)))
    (axes4 (s.eval m (H.ab.vovv + H0.ab.vovv))) (axes4 (s.eval m (H.ab.ovvv + H0.ab.ovvv))) (axes4 (s.eval m (H.bb.ooov + H0.bb.ooov)))
    (axes4 (s.eval m (H.bb.vovv + H0.bb.vovv)))
    t3b t3c resid
  let r := sweepT2b (dimsOf s) s.foo s.fvv s.goo s.gvv s.shift resid (seen2 t)
  (back2 t r.1, back2 (fun _ => 0) r.2)

/-- The loops of `update_t2c` over the lists, `/repo/ccpy/lib/fortran/ccsdt_p_loops.f90:433-562`. -/
def listsT2c (H1A_ov H1B_ov : Arr2) (H2B_oovo H2B_ovvv H2C_ooov H2C_vovv : Arr4) (t3c t3d : Buffer) (resid : Arr4) : Arr4 :=
  let resid := (t3c.excits.zip t3c.amps).foldl (fun resid x =>
    let t_amp := x.2
    let e := column x.1 1; let a := column x.1 2; let b := column x.1 3; let m := column x.1 4; let i := column x.1 5; let j := column x.1 6
    let resid := addElement4 a b i j (H1A_ov m e * t_amp) resid
    let f := column x.1 1; let e := column x.1 2; let b := column x.1 3; let n := column x.1 4; let i := column x.1 5; let j := column x.1 6
    let resid := addSlice b i j (fun p => H2B_ovvv n p f e * t_amp) resid
    let resid := addSlice e i j (fun p => -H2B_ovvv n p f b * t_amp) resid
    let f := column x.1 1; let a := column x.1 2; let b := column x.1 3; let n := column x.1 4; let m := column x.1 5; let j := column x.1 6
    let resid := addSlice3 a b j (fun p => -H2B_oovo n m f p * t_amp) resid
    let resid := addSlice3 a b m (fun p => H2B_oovo n j f p * t_amp) resid
    resid) resid
  let resid := (t3d.excits.zip t3d.amps).foldl (fun resid x =>
    let t_amp := x.2
    let a := column x.1 1; let b := column x.1 2; let e := column x.1 3; let i := column x.1 4; let j := column x.1 5; let m := column x.1 6
    let resid := addElement4 a b i j (H1B_ov m e * t_amp) resid
    let resid := addElement4 a b m j (-H1B_ov i e * t_amp) resid
    let resid := addElement4 a b i m (-H1B_ov j e * t_amp) resid
    let resid := addElement4 e b i j (-H1B_ov m a * t_amp) resid
    let resid := addElement4 e b m j (H1B_ov i a * t_amp) resid
    let resid := addElement4 e b i m (H1B_ov j a * t_amp) resid
    let resid := addElement4 a e i j (-H1B_ov m b * t_amp) resid
    let resid := addElement4 a e m j (H1B_ov i b * t_amp) resid
    let resid := addElement4 a e i m (H1B_ov j b * t_amp) resid
    let a := column x.1 1; let b := column x.1 2; let f := column x.1 3; let m := column x.1 4; let j := column x.1 5; let n := column x.1 6
    let resid := addSlice3 a b j (fun p => -H2C_ooov m n p f * t_amp) resid
    let resid := addSlice3 a b m (fun p => H2C_ooov j n p f * t_amp) resid
    let resid := addSlice3 a b n (fun p => H2C_ooov m j p f * t_amp) resid
    let resid := addSlice3 f b j (fun p => H2C_ooov m n p a * t_amp) resid
    let resid := addSlice3 f b m (fun p => -H2C_ooov j n p a * t_amp) resid
    let resid := addSlice3 f b n (fun p => -H2C_ooov m j p a * t_amp) resid
    let resid := addSlice3 a f j (fun p => H2C_ooov m n p b * t_amp) resid
    let resid := addSlice3 a f m (fun p => -H2C_ooov j n p b * t_amp) resid
    let resid := addSlice3 a f n (fun p => -H2C_ooov m j p b * t_amp) resid
    let e := column x.1 1; let b := column x.1 2; let f := column x.1 3; let i := column x.1 4; let j := column x.1 5; let n := column x.1 6
    let resid := addSlice b i j (fun p => H2C_vovv p n e f * t_amp) resid
    let resid := addSlice b n j (fun p => -H2C_vovv p i e f * t_amp) resid
    let resid := addSlice b i n (fun p => -H2C_vovv p j e f * t_amp) resid
    let resid := addSlice e i j (fun p => -H2C_vovv p n b f * t_amp) resid
    let resid := addSlice e n j (fun p => H2C_vovv p i b f * t_amp) resid
    let resid := addSlice e i n (fun p => H2C_vovv p j b f * t_amp) resid
    let resid := addSlice f i j (fun p => -H2C_vovv p n e b * t_amp) resid
    let resid := addSlice f n j (fun p => H2C_vovv p i e b * t_amp) resid
    let resid := addSlice f i n (fun p => H2C_vovv p j e b * t_amp) resid
    resid) resid
  resid

/-- The update loop of `update_t2c`, `/repo/ccpy/lib/fortran/ccsdt_p_loops.f90:530-560`: `resid` is read and overwritten by the
increments; the new amplitudes and the increments. -/
def sweepT2c (d : Dims) (fB_oo fB_vv : Arr2) (shift : ℚ) (resid : Arr4) (t : Key2 → ℚ) : (Key2 → ℚ) × (Key2 → ℚ) :=
  let s := doLoop 1 d.ob fun i => doLoop (i + 1) d.ob fun j => doLoop 1 d.ub fun a => doLoop (a + 1) d.ub fun b s =>
    let denom := fB_oo i i + fB_oo j j - fB_vv a a - fB_vv b b
    let val := signedSum s.2 (termsT2c a b i j) / (denom - shift)
    storeUpdate (![b, a], ![j, i]) val (copiesT2c a b i j) (residsT2c a b i j) s
  let s := s (t, keys2 resid)
  let r := doLoop 1 d.ub (fun a r => zeroParticles a r) s.2
  (s.1, doLoop 1 d.ob (fun i r => zeroHoles i r) r)

/-- The second argument of the kernel call of `update_t2c`, `/repo/ccpy/cc/ccsdt_p.py:281-313`. -/
def residualT2c (T : Amps) (H H0 : Ints) : Ex :=
  let I2C_oooo := H.bb.oooo + half (es% "mnef,efij->mnij" H0.bb.oovv, T.bb)
  let I2B_ovvo := H.ab.ovvo + (es% "mnef,afin->maei" H0.ab.oovv, T.bb + half (es% "mnef,fani->maei" H0.aa.oovv, T.ab))
  let I2C_voov := H.bb.voov + half (es% "mnef,afin->amie" H0.bb.oovv, T.bb)
  let I2C_vooo := H.bb.vooo + half (es% "anef,efij->anij" (H0.bb.vovv + half H.bb.vovv), T.bb)
  let tau := half T.bb + (es% "ai,bj->abij" T.b, T.b)
  let dT_bb := -half (es% "amij,bm->abij" I2C_vooo, T.b)
  let dT_bb := dT_bb + half (es% "abie,ej->abij" H.bb.vvov, T.b)
  let dT_bb := dT_bb + half (es% "ae,ebij->abij" H.b.vv, T.bb)
  let dT_bb := dT_bb - half (es% "mi,abmj->abij" H.b.oo, T.bb)
  let dT_bb := dT_bb + (es% "amie,ebmj->abij" I2C_voov, T.bb)
  let dT_bb := dT_bb + (es% "maei,ebmj->abij" I2B_ovvo, T.ab)
  let dT_bb := dT_bb + quarter (es% "abef,efij->abij" H0.bb.vvvv, tau)
  let dT_bb := dT_bb + eighth (es% "mnij,abmn->abij" I2C_oooo, T.bb)
  dT_bb + quarter H0.bb.vvoo

/-- `update_t2c(T, dT, H, H0, shift, t3_excitations)`, `/repo/ccpy/cc/ccsdt_p.py:281-313`: the new array `T.bb` and `dT.bb`; `t` is
the old array `T.bb`. -/
def callT2c (s : Setup) (m : Memory) (T : Amps) (H H0 : Ints) (t3c t3d : Buffer) (t : List ℕ → ℚ) : (List ℕ → ℚ) × (List ℕ → ℚ) :=
  let resid := axes4 (s.eval m (residualT2c T H H0))
  let resid := listsT2c (axes2 (s.eval m H.a.ov)) (axes2 (s.eval m H.b.ov)) (axes4 (s.eval m (H0.ab.oovo + H.ab.oovo)))
    (axes4 (s.eval m (H0.ab.ovvv + H.ab.ovvv))) (axes4 (s.eval m (H0.bb.ooov + H.bb.ooov))) (axes4 (s.eval m (H0.bb.vovv + H.bb.vovv)))
    t3c t3d resid
  let r := sweepT2c (dimsOf s) s.goo s.gvv s.shift resid (seen2 t)
  (back2 t r.1, back2 (fun _ => 0) r.2)

end Ccpy.PSpace
