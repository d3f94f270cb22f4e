import Verif.Model.PSpace

/-! The routines that add the triple excitations of the lists to the arrays `I2A_vooo`, ... before the P-space kernels use them;
`intbuf` is a copy of an array with its indices in another order. -/

namespace Ccpy.PSpace

/-- `calc_I2A_vooo`, `/repo/ccpy/lib/fortran/ccsdt_p_loops.f90:7374-7422`. -/
def calcI2a_vooo (d : Dims) (H : Arrays) (t3a t3b : Buffer) (I : Arr4) : Arr4 :=
  let I := (t3a.excits.zip t3a.amps).foldl (fun I x =>
    let a := column x.1 1; let e := column x.1 2; let f := column x.1 3; let i := column x.1 4; let j := column x.1 5; let n := column x.1 6; let t_amp := x.2
    let I := addSlice a i j (fun m' => H.h2a_oovv m' n e f * t_amp) I
    let I := addSlice a n j (fun m' => -H.h2a_oovv m' i e f * t_amp) I
    let I := addSlice a i n (fun m' => -H.h2a_oovv m' j e f * t_amp) I
    let I := addSlice e i j (fun m' => -H.h2a_oovv m' n a f * t_amp) I
    let I := addSlice e n j (fun m' => H.h2a_oovv m' i a f * t_amp) I
    let I := addSlice e i n (fun m' => H.h2a_oovv m' j a f * t_amp) I
    let I := addSlice f i j (fun m' => -H.h2a_oovv m' n e a * t_amp) I
    let I := addSlice f n j (fun m' => H.h2a_oovv m' i e a * t_amp) I
    let I := addSlice f i n (fun m' => H.h2a_oovv m' j e a * t_amp) I
    I) I
  let I := (t3b.excits.zip t3b.amps).foldl (fun I x =>
    let a := column x.1 1; let e := column x.1 2; let f := column x.1 3; let i := column x.1 4; let j := column x.1 5; let n := column x.1 6; let t_amp := x.2
    let I := addSlice a i j (fun m' => H.h2b_oovv m' n e f * t_amp) I
    let I := addSlice e i j (fun m' => -H.h2b_oovv m' n a f * t_amp) I
    I) I
  fun m a i j => antisymmetrizeLoop d.oa (fun i j m a => I m a i j) i j m a

/-- `calc_I2A_vvov`, `/repo/ccpy/lib/fortran/ccsdt_p_loops.f90:7582-7654`. -/
def calcI2a_vvov (d : Dims) (H : Arrays) (t3a t3b : Buffer) (I : Arr4) : Arr4 :=
  let intbuf : Arr4 := fun b a j i => H.h2a_oovv j i b a
  let I := (t3a.excits.zip t3a.amps).foldl (fun I x =>
    let a := column x.1 1; let b := column x.1 2; let f := column x.1 3; let i := column x.1 4; let m := column x.1 5; let n := column x.1 6; let t_amp := x.2
    let I := addSlice a b i (fun m' => -intbuf m' f m n * t_amp) I
    let I := addSlice a b m (fun m' => intbuf m' f i n * t_amp) I
    let I := addSlice a b n (fun m' => intbuf m' f m i * t_amp) I
    let I := addSlice f b i (fun m' => intbuf m' a m n * t_amp) I
    let I := addSlice f b m (fun m' => -intbuf m' a i n * t_amp) I
    let I := addSlice f b n (fun m' => -intbuf m' a m i * t_amp) I
    let I := addSlice a f i (fun m' => intbuf m' b m n * t_amp) I
    let I := addSlice a f m (fun m' => -intbuf m' b i n * t_amp) I
    let I := addSlice a f n (fun m' => -intbuf m' b m i * t_amp) I
    I) I
  let intbuf : Arr4 := fun a b i j => H.h2b_oovv i j a b
  let I := (t3b.excits.zip t3b.amps).foldl (fun I x =>
    let a := column x.1 1; let b := column x.1 2; let f := column x.1 3; let i := column x.1 4; let m := column x.1 5; let n := column x.1 6; let t_amp := x.2
    let I := addSlice a b i (fun m' => -intbuf m' f m n * t_amp) I
    let I := addSlice a b m (fun m' => intbuf m' f i n * t_amp) I
    I) I
  fun e a b i => antisymmetrizeLoop d.ua (fun a b e i => I e a b i) a b e i

/-- `calc_I2B_vooo`, `/repo/ccpy/lib/fortran/ccsdt_p_loops.f90:7460-7518`. -/
def calcI2b_vooo (d : Dims) (H : Arrays) (t3b t3c : Buffer) (I : Arr4) : Arr4 :=
  let intbuf : Arr4 := fun j i b a => H.h2b_oovv i j a b
  let I := (t3b.excits.zip t3b.amps).foldl (fun I x =>
    let a := column x.1 1; let f := column x.1 2; let e := column x.1 3; let i := column x.1 4; let n := column x.1 5; let j := column x.1 6; let t_amp := x.2
    let I := addSlice a i j (fun m' => intbuf m' n e f * t_amp) I
    let I := addSlice f i j (fun m' => -intbuf m' n e a * t_amp) I
    let I := addSlice a n j (fun m' => -intbuf m' i e f * t_amp) I
    let I := addSlice f n j (fun m' => intbuf m' i e a * t_amp) I
    I) I
  let intbuf : Arr4 := fun j i b a => H.h2c_oovv i j a b
  let I := (t3c.excits.zip t3c.amps).foldl (fun I x =>
    let a := column x.1 1; let f := column x.1 2; let e := column x.1 3; let i := column x.1 4; let n := column x.1 5; let j := column x.1 6; let t_amp := x.2
    let I := addSlice a i j (fun m' => intbuf m' n e f * t_amp) I
    let I := addSlice a i n (fun m' => -intbuf m' j e f * t_amp) I
    I) I
  I

/-- `calc_I2B_ovoo`, `/repo/ccpy/lib/fortran/ccsdt_p_loops.f90:7424-7458`. -/
def calcI2b_ovoo (d : Dims) (H : Arrays) (t3b t3c : Buffer) (I : Arr4) : Arr4 :=
  let I := (t3b.excits.zip t3b.amps).foldl (fun I x =>
    let e := column x.1 1; let f := column x.1 2; let b := column x.1 3; let i := column x.1 4; let n := column x.1 5; let j := column x.1 6; let t_amp := x.2
    let I := addSlice b i j (fun m' => H.h2a_oovv m' n e f * t_amp) I
    let I := addSlice b n j (fun m' => -H.h2a_oovv m' i e f * t_amp) I
    I) I
  let I := (t3c.excits.zip t3c.amps).foldl (fun I x =>
    let e := column x.1 1; let f := column x.1 2; let b := column x.1 3; let i := column x.1 4; let n := column x.1 5; let j := column x.1 6; let t_amp := x.2
    let I := addSlice b i j (fun m' => H.h2b_oovv m' n e f * t_amp) I
    let I := addSlice f i j (fun m' => -H.h2b_oovv m' n e b * t_amp) I
    let I := addSlice b i n (fun m' => -H.h2b_oovv m' j e f * t_amp) I
    let I := addSlice f i n (fun m' => H.h2b_oovv m' j e b * t_amp) I
    I) I
  I

/-- `calc_I2B_vvov`, `/repo/ccpy/lib/fortran/ccsdt_p_loops.f90:7656-7720`. -/
def calcI2b_vvov (d : Dims) (H : Arrays) (t3b t3c : Buffer) (I : Arr4) : Arr4 :=
  let intbuf : Arr4 := fun b a j i => H.h2b_oovv i j a b
  let I := (t3b.excits.zip t3b.amps).foldl (fun I x =>
    let a := column x.1 1; let f := column x.1 2; let b := column x.1 3; let i := column x.1 4; let n := column x.1 5; let m := column x.1 6; let t_amp := x.2
    let I := addSlice a b i (fun m' => -intbuf m' f m n * t_amp) I
    let I := addSlice f b i (fun m' => intbuf m' a m n * t_amp) I
    let I := addSlice a b n (fun m' => intbuf m' f m i * t_amp) I
    let I := addSlice f b n (fun m' => -intbuf m' a m i * t_amp) I
    I) I
  let intbuf : Arr4 := fun b a j i => H.h2c_oovv i j a b
  let I := (t3c.excits.zip t3c.amps).foldl (fun I x =>
    let a := column x.1 1; let f := column x.1 2; let b := column x.1 3; let i := column x.1 4; let n := column x.1 5; let m := column x.1 6; let t_amp := x.2
    let I := addSlice a b i (fun m' => -intbuf m' f m n * t_amp) I
    let I := addSlice a f i (fun m' => intbuf m' b m n * t_amp) I
    I) I
  I

/-- `calc_I2B_vvvo`, `/repo/ccpy/lib/fortran/ccsdt_p_loops.f90:7722-7780`. -/
def calcI2b_vvvo (d : Dims) (H : Arrays) (t3b t3c : Buffer) (I : Arr4) : Arr4 :=
  let intbuf : Arr4 := fun a b i j => H.h2a_oovv i j a b
  let I := (t3b.excits.zip t3b.amps).foldl (fun I x =>
    let a := column x.1 1; let f := column x.1 2; let b := column x.1 3; let m := column x.1 4; let n := column x.1 5; let j := column x.1 6; let t_amp := x.2
    let I := addSlice a b j (fun m' => -intbuf m' f m n * t_amp) I
    let I := addSlice f b j (fun m' => intbuf m' a m n * t_amp) I
    I) I
  let intbuf : Arr4 := fun a b i j => H.h2b_oovv i j a b
  let I := (t3c.excits.zip t3c.amps).foldl (fun I x =>
    let a := column x.1 1; let f := column x.1 2; let b := column x.1 3; let m := column x.1 4; let n := column x.1 5; let j := column x.1 6; let t_amp := x.2
    let I := addSlice a b j (fun m' => -intbuf m' f m n * t_amp) I
    let I := addSlice a f j (fun m' => intbuf m' b m n * t_amp) I
    let I := addSlice a b n (fun m' => intbuf m' f m j * t_amp) I
    let I := addSlice a f n (fun m' => -intbuf m' b m j * t_amp) I
    I) I
  I

/-- `calc_I2C_vooo`, `/repo/ccpy/lib/fortran/ccsdt_p_loops.f90:7520-7580`. -/
def calcI2c_vooo (d : Dims) (H : Arrays) (t3c t3d : Buffer) (I : Arr4) : Arr4 :=
  let I := (t3d.excits.zip t3d.amps).foldl (fun I x =>
    let a := column x.1 1; let e := column x.1 2; let f := column x.1 3; let i := column x.1 4; let j := column x.1 5; let n := column x.1 6; let t_amp := x.2
    let I := addSlice a i j (fun m' => H.h2c_oovv m' n e f * t_amp) I
    let I := addSlice a n j (fun m' => -H.h2c_oovv m' i e f * t_amp) I
    let I := addSlice a i n (fun m' => -H.h2c_oovv m' j e f * t_amp) I
    let I := addSlice e i j (fun m' => -H.h2c_oovv m' n a f * t_amp) I
    let I := addSlice e n j (fun m' => H.h2c_oovv m' i a f * t_amp) I
    let I := addSlice e i n (fun m' => H.h2c_oovv m' j a f * t_amp) I
    let I := addSlice f i j (fun m' => -H.h2c_oovv m' n e a * t_amp) I
    let I := addSlice f n j (fun m' => H.h2c_oovv m' i e a * t_amp) I
    let I := addSlice f i n (fun m' => H.h2c_oovv m' j e a * t_amp) I
    I) I
  let intbuf : Arr4 := fun j i b a => H.h2b_oovv i j a b
  let I := (t3c.excits.zip t3c.amps).foldl (fun I x =>
    let f := column x.1 1; let a := column x.1 2; let e := column x.1 3; let n := column x.1 4; let i := column x.1 5; let j := column x.1 6; let t_amp := x.2
    let I := addSlice a i j (fun m' => intbuf m' n e f * t_amp) I
    let I := addSlice e i j (fun m' => -intbuf m' n a f * t_amp) I
    I) I
  fun m a i j => antisymmetrizeLoop d.ob (fun i j m a => I m a i j) i j m a

/-- `calc_I2C_vvov`, `/repo/ccpy/lib/fortran/ccsdt_p_loops.f90:7782-7855`. -/
def calcI2c_vvov (d : Dims) (H : Arrays) (t3c t3d : Buffer) (I : Arr4) : Arr4 :=
  let intbuf : Arr4 := fun b a j i => H.h2c_oovv j i b a
  let I := (t3d.excits.zip t3d.amps).foldl (fun I x =>
    let a := column x.1 1; let b := column x.1 2; let f := column x.1 3; let i := column x.1 4; let m := column x.1 5; let n := column x.1 6; let t_amp := x.2
    let I := addSlice a b i (fun m' => -intbuf m' f m n * t_amp) I
    let I := addSlice a b m (fun m' => intbuf m' f i n * t_amp) I
    let I := addSlice a b n (fun m' => intbuf m' f m i * t_amp) I
    let I := addSlice f b i (fun m' => intbuf m' a m n * t_amp) I
    let I := addSlice f b m (fun m' => -intbuf m' a i n * t_amp) I
    let I := addSlice f b n (fun m' => -intbuf m' a m i * t_amp) I
    let I := addSlice a f i (fun m' => intbuf m' b m n * t_amp) I
    let I := addSlice a f m (fun m' => -intbuf m' b i n * t_amp) I
    let I := addSlice a f n (fun m' => -intbuf m' b m i * t_amp) I
    I) I
  let intbuf : Arr4 := fun b a j i => H.h2b_oovv i j a b
  let I := (t3c.excits.zip t3c.amps).foldl (fun I x =>
    let f := column x.1 1; let a := column x.1 2; let b := column x.1 3; let n := column x.1 4; let i := column x.1 5; let m := column x.1 6; let t_amp := x.2
    let I := addSlice a b i (fun m' => -intbuf m' f m n * t_amp) I
    let I := addSlice a b m (fun m' => intbuf m' f i n * t_amp) I
    I) I
  fun e a b i => antisymmetrizeLoop d.ub (fun a b e i => I e a b i) a b e i
end Ccpy.PSpace
