import Verif.Model.PSpaceInter

/-! The kernel `update_t3d_p`, block by block. -/

namespace Ccpy.PSpace

/-- `/repo/ccpy/lib/fortran/ccsdt_p_loops.f90:5626-5694` -/
def t3dBlock1 (d : Dims) (H : Arrays) : Block where
  rng1 := (1, (d.ub : ℤ) - 2)
  rng2 := (-1, (d.ub : ℤ) - 1)
  rng3 := (-1, (d.ub : ℤ))
  rng4 := (3, (d.ob : ℤ))
  n1 := d.ub
  n2 := d.ub
  n3 := d.ub
  n4 := d.ob
  nloc := d.ub * (d.ub - 1) * (d.ub - 2) / 6 * d.ob
  idims := [1, 2, 3, 6]
  cases := [
    { key := [1, 2, 3, 6], guarded := false, hmatel := fun p q =>
        let i := p 4; let j := p 5; let l := q 4; let m := q 5;
        let hmatel : ℚ := H.h2c_oooo m l j i;
        let hmatel1 : ℚ := if m = j then -H.h1b_oo l i else 0;
        let hmatel2 : ℚ := if m = i then H.h1b_oo l j else 0;
        let hmatel3 : ℚ := if l = j then H.h1b_oo m i else 0;
        let hmatel4 : ℚ := if l = i then -H.h1b_oo m j else 0;
        let hmatel : ℚ := hmatel + (1 / 2) * (hmatel1 + hmatel2 + hmatel3 + hmatel4);
        hmatel },
    { key := [1, 2, 3, 4], guarded := true, hmatel := fun p q =>
        let j := p 5; let k := p 6; let l := q 4; let m := q 5;
        let hmatel : ℚ := H.h2c_oooo m l k j;
        let hmatel1 : ℚ := if m = j then H.h1b_oo l k else 0;
        let hmatel2 : ℚ := if m = k then -H.h1b_oo l j else 0;
        let hmatel3 : ℚ := if l = j then -H.h1b_oo m k else 0;
        let hmatel4 : ℚ := if l = k then H.h1b_oo m j else 0;
        let hmatel : ℚ := hmatel + (1 / 2) * (hmatel1 + hmatel2 + hmatel3 + hmatel4);
        hmatel },
    { key := [1, 2, 3, 5], guarded := true, hmatel := fun p q =>
        let i := p 4; let k := p 6; let l := q 4; let m := q 5;
        let hmatel : ℚ := -H.h2c_oooo m l k i;
        let hmatel1 : ℚ := if m = k then H.h1b_oo l i else 0;
        let hmatel2 : ℚ := if m = i then -H.h1b_oo l k else 0;
        let hmatel3 : ℚ := if l = k then -H.h1b_oo m i else 0;
        let hmatel4 : ℚ := if l = i then H.h1b_oo m k else 0;
        let hmatel : ℚ := hmatel + (1 / 2) * (hmatel1 + hmatel2 + hmatel3 + hmatel4);
        hmatel }]

/-- `/repo/ccpy/lib/fortran/ccsdt_p_loops.f90:5699-5767` -/
def t3dBlock2 (d : Dims) (H : Arrays) : Block where
  rng1 := (1, (d.ub : ℤ) - 2)
  rng2 := (-1, (d.ub : ℤ) - 1)
  rng3 := (-1, (d.ub : ℤ))
  rng4 := (1, (d.ob : ℤ) - 2)
  n1 := d.ub
  n2 := d.ub
  n3 := d.ub
  n4 := d.ob
  nloc := d.ub * (d.ub - 1) * (d.ub - 2) / 6 * d.ob
  idims := [1, 2, 3, 4]
  cases := [
    { key := [1, 2, 3, 4], guarded := false, hmatel := fun p q =>
        let j := p 5; let k := p 6; let m := q 5; let n := q 6;
        let hmatel : ℚ := H.h2c_oooo n m k j;
        let hmatel1 : ℚ := if n = k then -H.h1b_oo m j else 0;
        let hmatel2 : ℚ := if n = j then H.h1b_oo m k else 0;
        let hmatel3 : ℚ := if m = k then H.h1b_oo n j else 0;
        let hmatel4 : ℚ := if m = j then -H.h1b_oo n k else 0;
        let hmatel : ℚ := hmatel + (1 / 2) * (hmatel1 + hmatel2 + hmatel3 + hmatel4);
        hmatel },
    { key := [1, 2, 3, 5], guarded := true, hmatel := fun p q =>
        let i := p 4; let k := p 6; let m := q 5; let n := q 6;
        let hmatel : ℚ := -H.h2c_oooo n m k i;
        let hmatel1 : ℚ := if n = k then H.h1b_oo m i else 0;
        let hmatel2 : ℚ := if n = i then -H.h1b_oo m k else 0;
        let hmatel3 : ℚ := if m = k then -H.h1b_oo n i else 0;
        let hmatel4 : ℚ := if m = i then H.h1b_oo n k else 0;
        let hmatel : ℚ := hmatel + (1 / 2) * (hmatel1 + hmatel2 + hmatel3 + hmatel4);
        hmatel },
    { key := [1, 2, 3, 6], guarded := true, hmatel := fun p q =>
        let i := p 4; let j := p 5; let m := q 5; let n := q 6;
        let hmatel : ℚ := H.h2c_oooo n m j i;
        let hmatel1 : ℚ := if n = i then -H.h1b_oo m j else 0;
        let hmatel2 : ℚ := if n = j then H.h1b_oo m i else 0;
        let hmatel3 : ℚ := if m = i then H.h1b_oo n j else 0;
        let hmatel4 : ℚ := if m = j then -H.h1b_oo n i else 0;
        let hmatel : ℚ := hmatel + (1 / 2) * (hmatel1 + hmatel2 + hmatel3 + hmatel4);
        hmatel }]

/-- `/repo/ccpy/lib/fortran/ccsdt_p_loops.f90:5772-5840` -/
def t3dBlock3 (d : Dims) (H : Arrays) : Block where
  rng1 := (1, (d.ub : ℤ) - 2)
  rng2 := (-1, (d.ub : ℤ) - 1)
  rng3 := (-1, (d.ub : ℤ))
  rng4 := (2, (d.ob : ℤ) - 1)
  n1 := d.ub
  n2 := d.ub
  n3 := d.ub
  n4 := d.ob
  nloc := d.ub * (d.ub - 1) * (d.ub - 2) / 6 * d.ob
  idims := [1, 2, 3, 5]
  cases := [
    { key := [1, 2, 3, 5], guarded := false, hmatel := fun p q =>
        let i := p 4; let k := p 6; let l := q 4; let n := q 6;
        let hmatel : ℚ := H.h2c_oooo n l k i;
        let hmatel1 : ℚ := if n = k then -H.h1b_oo l i else 0;
        let hmatel2 : ℚ := if n = i then H.h1b_oo l k else 0;
        let hmatel3 : ℚ := if l = k then H.h1b_oo n i else 0;
        let hmatel4 : ℚ := if l = i then -H.h1b_oo n k else 0;
        let hmatel : ℚ := hmatel + (1 / 2) * (hmatel1 + hmatel2 + hmatel3 + hmatel4);
        hmatel },
    { key := [1, 2, 3, 4], guarded := true, hmatel := fun p q =>
        let j := p 5; let k := p 6; let l := q 4; let n := q 6;
        let hmatel : ℚ := -H.h2c_oooo n l k j;
        let hmatel1 : ℚ := if n = k then H.h1b_oo l j else 0;
        let hmatel2 : ℚ := if n = j then -H.h1b_oo l k else 0;
        let hmatel3 : ℚ := if l = k then -H.h1b_oo n j else 0;
        let hmatel4 : ℚ := if l = j then H.h1b_oo n k else 0;
        let hmatel : ℚ := hmatel + (1 / 2) * (hmatel1 + hmatel2 + hmatel3 + hmatel4);
        hmatel },
    { key := [1, 2, 3, 6], guarded := true, hmatel := fun p q =>
        let i := p 4; let j := p 5; let l := q 4; let n := q 6;
        let hmatel : ℚ := -H.h2c_oooo n l j i;
        let hmatel1 : ℚ := if n = j then H.h1b_oo l i else 0;
        let hmatel2 : ℚ := if n = i then -H.h1b_oo l j else 0;
        let hmatel3 : ℚ := if l = j then -H.h1b_oo n i else 0;
        let hmatel4 : ℚ := if l = i then H.h1b_oo n j else 0;
        let hmatel : ℚ := hmatel + (1 / 2) * (hmatel1 + hmatel2 + hmatel3 + hmatel4);
        hmatel }]

/-- `/repo/ccpy/lib/fortran/ccsdt_p_loops.f90:5855-5926` -/
def t3dBlock4 (d : Dims) (H : Arrays) : Block where
  rng1 := (1, (d.ob : ℤ) - 2)
  rng2 := (-1, (d.ob : ℤ) - 1)
  rng3 := (-1, (d.ob : ℤ))
  rng4 := (1, (d.ub : ℤ) - 2)
  n1 := d.ob
  n2 := d.ob
  n3 := d.ob
  n4 := d.ub
  nloc := d.ob * (d.ob - 1) * (d.ob - 2) / 6 * d.ub
  idims := [4, 5, 6, 1]
  cases := [
    { key := [4, 5, 6, 1], guarded := false, hmatel := fun p q =>
        let b := p 2; let c := p 3; let e := q 2; let f := q 3;
        let hmatel : ℚ := H.h2c_vvvv f e c b;
        let hmatel1 : ℚ := if c = f then H.h1b_vv e b else 0;
        let hmatel2 : ℚ := if b = f then -H.h1b_vv e c else 0;
        let hmatel3 : ℚ := if c = e then -H.h1b_vv f b else 0;
        let hmatel4 : ℚ := if b = e then H.h1b_vv f c else 0;
        let hmatel : ℚ := hmatel + (1 / 2) * (hmatel1 + hmatel2 + hmatel3 + hmatel4);
        hmatel },
    { key := [4, 5, 6, 2], guarded := true, hmatel := fun p q =>
        let a := p 1; let c := p 3; let e := q 2; let f := q 3;
        let hmatel : ℚ := -H.h2c_vvvv f e c a;
        let hmatel1 : ℚ := if c = f then -H.h1b_vv e a else 0;
        let hmatel2 : ℚ := if a = f then H.h1b_vv e c else 0;
        let hmatel3 : ℚ := if c = e then H.h1b_vv f a else 0;
        let hmatel4 : ℚ := if a = e then -H.h1b_vv f c else 0;
        let hmatel : ℚ := hmatel + (1 / 2) * (hmatel1 + hmatel2 + hmatel3 + hmatel4);
        hmatel },
    { key := [4, 5, 6, 3], guarded := true, hmatel := fun p q =>
        let a := p 1; let b := p 2; let e := q 2; let f := q 3;
        let hmatel : ℚ := H.h2c_vvvv f e b a;
        let hmatel1 : ℚ := if a = f then -H.h1b_vv e b else 0;
        let hmatel2 : ℚ := if b = f then H.h1b_vv e a else 0;
        let hmatel3 : ℚ := if a = e then H.h1b_vv f b else 0;
        let hmatel4 : ℚ := if b = e then -H.h1b_vv f a else 0;
        let hmatel : ℚ := hmatel + (1 / 2) * (hmatel1 + hmatel2 + hmatel3 + hmatel4);
        hmatel }]

/-- `/repo/ccpy/lib/fortran/ccsdt_p_loops.f90:5931-6002` -/
def t3dBlock5 (d : Dims) (H : Arrays) : Block where
  rng1 := (1, (d.ob : ℤ) - 2)
  rng2 := (-1, (d.ob : ℤ) - 1)
  rng3 := (-1, (d.ob : ℤ))
  rng4 := (2, (d.ub : ℤ) - 1)
  n1 := d.ob
  n2 := d.ob
  n3 := d.ob
  n4 := d.ub
  nloc := d.ob * (d.ob - 1) * (d.ob - 2) / 6 * d.ub
  idims := [4, 5, 6, 2]
  cases := [
    { key := [4, 5, 6, 2], guarded := false, hmatel := fun p q =>
        let a := p 1; let c := p 3; let d := q 1; let f := q 3;
        let hmatel : ℚ := H.h2c_vvvv f d c a;
        let hmatel1 : ℚ := if c = f then H.h1b_vv d a else 0;
        let hmatel2 : ℚ := if a = f then -H.h1b_vv d c else 0;
        let hmatel3 : ℚ := if c = d then -H.h1b_vv f a else 0;
        let hmatel4 : ℚ := if a = d then H.h1b_vv f c else 0;
        let hmatel : ℚ := hmatel + (1 / 2) * (hmatel1 + hmatel2 + hmatel3 + hmatel4);
        hmatel },
    { key := [4, 5, 6, 1], guarded := true, hmatel := fun p q =>
        let b := p 2; let c := p 3; let d := q 1; let f := q 3;
        let hmatel : ℚ := -H.h2c_vvvv f d c b;
        let hmatel1 : ℚ := if c = f then -H.h1b_vv d b else 0;
        let hmatel2 : ℚ := if b = f then H.h1b_vv d c else 0;
        let hmatel3 : ℚ := if c = d then H.h1b_vv f b else 0;
        let hmatel4 : ℚ := if b = d then -H.h1b_vv f c else 0;
        let hmatel : ℚ := hmatel + (1 / 2) * (hmatel1 + hmatel2 + hmatel3 + hmatel4);
        hmatel },
    { key := [4, 5, 6, 3], guarded := true, hmatel := fun p q =>
        let a := p 1; let b := p 2; let d := q 1; let f := q 3;
        let hmatel : ℚ := -H.h2c_vvvv f d b a;
        let hmatel1 : ℚ := if b = f then -H.h1b_vv d a else 0;
        let hmatel2 : ℚ := if a = f then H.h1b_vv d b else 0;
        let hmatel3 : ℚ := if b = d then H.h1b_vv f a else 0;
        let hmatel4 : ℚ := if a = d then -H.h1b_vv f b else 0;
        let hmatel : ℚ := hmatel + (1 / 2) * (hmatel1 + hmatel2 + hmatel3 + hmatel4);
        hmatel }]

/-- `/repo/ccpy/lib/fortran/ccsdt_p_loops.f90:6007-6078` -/
def t3dBlock6 (d : Dims) (H : Arrays) : Block where
  rng1 := (1, (d.ob : ℤ) - 2)
  rng2 := (-1, (d.ob : ℤ) - 1)
  rng3 := (-1, (d.ob : ℤ))
  rng4 := (3, (d.ub : ℤ))
  n1 := d.ob
  n2 := d.ob
  n3 := d.ob
  n4 := d.ub
  nloc := d.ob * (d.ob - 1) * (d.ob - 2) / 6 * d.ub
  idims := [4, 5, 6, 3]
  cases := [
    { key := [4, 5, 6, 3], guarded := false, hmatel := fun p q =>
        let a := p 1; let b := p 2; let d := q 1; let e := q 2;
        let hmatel : ℚ := H.h2c_vvvv e d b a;
        let hmatel1 : ℚ := if b = e then H.h1b_vv d a else 0;
        let hmatel2 : ℚ := if a = e then -H.h1b_vv d b else 0;
        let hmatel3 : ℚ := if b = d then -H.h1b_vv e a else 0;
        let hmatel4 : ℚ := if a = d then H.h1b_vv e b else 0;
        let hmatel : ℚ := hmatel + (1 / 2) * (hmatel1 + hmatel2 + hmatel3 + hmatel4);
        hmatel },
    { key := [4, 5, 6, 1], guarded := true, hmatel := fun p q =>
        let b := p 2; let c := p 3; let d := q 1; let e := q 2;
        let hmatel : ℚ := H.h2c_vvvv e d c b;
        let hmatel1 : ℚ := if b = e then -H.h1b_vv d c else 0;
        let hmatel2 : ℚ := if c = e then H.h1b_vv d b else 0;
        let hmatel3 : ℚ := if b = d then H.h1b_vv e c else 0;
        let hmatel4 : ℚ := if c = d then -H.h1b_vv e b else 0;
        let hmatel : ℚ := hmatel + (1 / 2) * (hmatel1 + hmatel2 + hmatel3 + hmatel4);
        hmatel },
    { key := [4, 5, 6, 2], guarded := true, hmatel := fun p q =>
        let a := p 1; let c := p 3; let d := q 1; let e := q 2;
        let hmatel : ℚ := -H.h2c_vvvv e d c a;
        let hmatel1 : ℚ := if c = e then -H.h1b_vv d a else 0;
        let hmatel2 : ℚ := if a = e then H.h1b_vv d c else 0;
        let hmatel3 : ℚ := if c = d then H.h1b_vv e a else 0;
        let hmatel4 : ℚ := if a = d then -H.h1b_vv e c else 0;
        let hmatel : ℚ := hmatel + (1 / 2) * (hmatel1 + hmatel2 + hmatel3 + hmatel4);
        hmatel }]

/-- `/repo/ccpy/lib/fortran/ccsdt_p_loops.f90:6091-6205` -/
def t3dBlock7 (d : Dims) (H : Arrays) : Block where
  rng1 := (1, (d.ub : ℤ) - 2)
  rng2 := (-1, (d.ub : ℤ) - 1)
  rng3 := (1, (d.ob : ℤ) - 2)
  rng4 := (-1, (d.ob : ℤ) - 1)
  n1 := d.ub
  n2 := d.ub
  n3 := d.ob
  n4 := d.ob
  nloc := (d.ub - 1) * (d.ub - 2) / 2 * (d.ob - 1) * (d.ob - 2) / 2
  idims := [1, 2, 4, 5]
  cases := [
    { key := [1, 2, 4, 5], guarded := true, hmatel := fun p q =>
        let c := p 3; let k := p 6; let f := q 3; let n := q 6;
        H.h2c_voov n f c k },
    { key := [2, 3, 4, 5], guarded := true, hmatel := fun p q =>
        let a := p 1; let k := p 6; let f := q 3; let n := q 6;
        H.h2c_voov n f a k },
    { key := [1, 3, 4, 5], guarded := true, hmatel := fun p q =>
        let b := p 2; let k := p 6; let f := q 3; let n := q 6;
        -H.h2c_voov n f b k },
    { key := [1, 2, 5, 6], guarded := true, hmatel := fun p q =>
        let c := p 3; let i := p 4; let f := q 3; let n := q 6;
        H.h2c_voov n f c i },
    { key := [2, 3, 5, 6], guarded := true, hmatel := fun p q =>
        let a := p 1; let i := p 4; let f := q 3; let n := q 6;
        H.h2c_voov n f a i },
    { key := [1, 3, 5, 6], guarded := true, hmatel := fun p q =>
        let b := p 2; let i := p 4; let f := q 3; let n := q 6;
        -H.h2c_voov n f b i },
    { key := [1, 2, 4, 6], guarded := true, hmatel := fun p q =>
        let c := p 3; let j := p 5; let f := q 3; let n := q 6;
        -H.h2c_voov n f c j },
    { key := [2, 3, 4, 6], guarded := true, hmatel := fun p q =>
        let a := p 1; let j := p 5; let f := q 3; let n := q 6;
        -H.h2c_voov n f a j },
    { key := [1, 3, 4, 6], guarded := true, hmatel := fun p q =>
        let b := p 2; let j := p 5; let f := q 3; let n := q 6;
        H.h2c_voov n f b j }]

/-- `/repo/ccpy/lib/fortran/ccsdt_p_loops.f90:6210-6324` -/
def t3dBlock8 (d : Dims) (H : Arrays) : Block where
  rng1 := (1, (d.ub : ℤ) - 2)
  rng2 := (-2, (d.ub : ℤ))
  rng3 := (1, (d.ob : ℤ) - 2)
  rng4 := (-1, (d.ob : ℤ) - 1)
  n1 := d.ub
  n2 := d.ub
  n3 := d.ob
  n4 := d.ob
  nloc := (d.ub - 1) * (d.ub - 2) / 2 * (d.ob - 1) * (d.ob - 2) / 2
  idims := [1, 3, 4, 5]
  cases := [
    { key := [1, 3, 4, 5], guarded := true, hmatel := fun p q =>
        let b := p 2; let k := p 6; let e := q 2; let n := q 6;
        H.h2c_voov n e b k },
    { key := [2, 3, 4, 5], guarded := true, hmatel := fun p q =>
        let a := p 1; let k := p 6; let e := q 2; let n := q 6;
        -H.h2c_voov n e a k },
    { key := [1, 2, 4, 5], guarded := true, hmatel := fun p q =>
        let c := p 3; let k := p 6; let e := q 2; let n := q 6;
        -H.h2c_voov n e c k },
    { key := [1, 3, 5, 6], guarded := true, hmatel := fun p q =>
        let b := p 2; let i := p 4; let e := q 2; let n := q 6;
        H.h2c_voov n e b i },
    { key := [2, 3, 5, 6], guarded := true, hmatel := fun p q =>
        let a := p 1; let i := p 4; let e := q 2; let n := q 6;
        -H.h2c_voov n e a i },
    { key := [1, 2, 5, 6], guarded := true, hmatel := fun p q =>
        let c := p 3; let i := p 4; let e := q 2; let n := q 6;
        -H.h2c_voov n e c i },
    { key := [1, 3, 4, 6], guarded := true, hmatel := fun p q =>
        let b := p 2; let j := p 5; let e := q 2; let n := q 6;
        -H.h2c_voov n e b j },
    { key := [2, 3, 4, 6], guarded := true, hmatel := fun p q =>
        let a := p 1; let j := p 5; let e := q 2; let n := q 6;
        H.h2c_voov n e a j },
    { key := [1, 2, 4, 6], guarded := true, hmatel := fun p q =>
        let c := p 3; let j := p 5; let e := q 2; let n := q 6;
        H.h2c_voov n e c j }]

/-- `/repo/ccpy/lib/fortran/ccsdt_p_loops.f90:6329-6443` -/
def t3dBlock9 (d : Dims) (H : Arrays) : Block where
  rng1 := (2, (d.ub : ℤ) - 1)
  rng2 := (-1, (d.ub : ℤ))
  rng3 := (1, (d.ob : ℤ) - 2)
  rng4 := (-1, (d.ob : ℤ) - 1)
  n1 := d.ub
  n2 := d.ub
  n3 := d.ob
  n4 := d.ob
  nloc := (d.ub - 1) * (d.ub - 2) / 2 * (d.ob - 1) * (d.ob - 2) / 2
  idims := [2, 3, 4, 5]
  cases := [
    { key := [2, 3, 4, 5], guarded := true, hmatel := fun p q =>
        let a := p 1; let k := p 6; let d := q 1; let n := q 6;
        H.h2c_voov n d a k },
    { key := [1, 3, 4, 5], guarded := true, hmatel := fun p q =>
        let b := p 2; let k := p 6; let d := q 1; let n := q 6;
        -H.h2c_voov n d b k },
    { key := [1, 2, 4, 5], guarded := true, hmatel := fun p q =>
        let c := p 3; let k := p 6; let d := q 1; let n := q 6;
        H.h2c_voov n d c k },
    { key := [2, 3, 5, 6], guarded := true, hmatel := fun p q =>
        let a := p 1; let i := p 4; let d := q 1; let n := q 6;
        H.h2c_voov n d a i },
    { key := [1, 3, 5, 6], guarded := true, hmatel := fun p q =>
        let b := p 2; let i := p 4; let d := q 1; let n := q 6;
        -H.h2c_voov n d b i },
    { key := [1, 2, 5, 6], guarded := true, hmatel := fun p q =>
        let c := p 3; let i := p 4; let d := q 1; let n := q 6;
        H.h2c_voov n d c i },
    { key := [2, 3, 4, 6], guarded := true, hmatel := fun p q =>
        let a := p 1; let j := p 5; let d := q 1; let n := q 6;
        -H.h2c_voov n d a j },
    { key := [1, 3, 4, 6], guarded := true, hmatel := fun p q =>
        let b := p 2; let j := p 5; let d := q 1; let n := q 6;
        H.h2c_voov n d b j },
    { key := [1, 2, 4, 6], guarded := true, hmatel := fun p q =>
        let c := p 3; let j := p 5; let d := q 1; let n := q 6;
        -H.h2c_voov n d c j }]

/-- `/repo/ccpy/lib/fortran/ccsdt_p_loops.f90:6448-6562` -/
def t3dBlock10 (d : Dims) (H : Arrays) : Block where
  rng1 := (1, (d.ub : ℤ) - 2)
  rng2 := (-1, (d.ub : ℤ) - 1)
  rng3 := (1, (d.ob : ℤ) - 2)
  rng4 := (-2, (d.ob : ℤ))
  n1 := d.ub
  n2 := d.ub
  n3 := d.ob
  n4 := d.ob
  nloc := (d.ub - 1) * (d.ub - 2) / 2 * (d.ob - 1) * (d.ob - 2) / 2
  idims := [1, 2, 4, 6]
  cases := [
    { key := [1, 2, 4, 6], guarded := true, hmatel := fun p q =>
        let c := p 3; let j := p 5; let f := q 3; let m := q 5;
        H.h2c_voov m f c j },
    { key := [2, 3, 4, 6], guarded := true, hmatel := fun p q =>
        let a := p 1; let j := p 5; let f := q 3; let m := q 5;
        H.h2c_voov m f a j },
    { key := [1, 3, 4, 6], guarded := true, hmatel := fun p q =>
        let b := p 2; let j := p 5; let f := q 3; let m := q 5;
        -H.h2c_voov m f b j },
    { key := [1, 2, 5, 6], guarded := true, hmatel := fun p q =>
        let c := p 3; let i := p 4; let f := q 3; let m := q 5;
        -H.h2c_voov m f c i },
    { key := [2, 3, 5, 6], guarded := true, hmatel := fun p q =>
        let a := p 1; let i := p 4; let f := q 3; let m := q 5;
        -H.h2c_voov m f a i },
    { key := [1, 3, 5, 6], guarded := true, hmatel := fun p q =>
        let b := p 2; let i := p 4; let f := q 3; let m := q 5;
        H.h2c_voov m f b i },
    { key := [1, 2, 4, 5], guarded := true, hmatel := fun p q =>
        let c := p 3; let k := p 6; let f := q 3; let m := q 5;
        -H.h2c_voov m f c k },
    { key := [2, 3, 4, 5], guarded := true, hmatel := fun p q =>
        let a := p 1; let k := p 6; let f := q 3; let m := q 5;
        -H.h2c_voov m f a k },
    { key := [1, 3, 4, 5], guarded := true, hmatel := fun p q =>
        let b := p 2; let k := p 6; let f := q 3; let m := q 5;
        H.h2c_voov m f b k }]

/-- `/repo/ccpy/lib/fortran/ccsdt_p_loops.f90:6567-6681` -/
def t3dBlock11 (d : Dims) (H : Arrays) : Block where
  rng1 := (1, (d.ub : ℤ) - 2)
  rng2 := (-2, (d.ub : ℤ))
  rng3 := (1, (d.ob : ℤ) - 2)
  rng4 := (-2, (d.ob : ℤ))
  n1 := d.ub
  n2 := d.ub
  n3 := d.ob
  n4 := d.ob
  nloc := (d.ub - 1) * (d.ub - 2) / 2 * (d.ob - 1) * (d.ob - 2) / 2
  idims := [1, 3, 4, 6]
  cases := [
    { key := [1, 3, 4, 6], guarded := true, hmatel := fun p q =>
        let b := p 2; let j := p 5; let e := q 2; let m := q 5;
        H.h2c_voov m e b j },
    { key := [2, 3, 4, 6], guarded := true, hmatel := fun p q =>
        let a := p 1; let j := p 5; let e := q 2; let m := q 5;
        -H.h2c_voov m e a j },
    { key := [1, 2, 4, 6], guarded := true, hmatel := fun p q =>
        let c := p 3; let j := p 5; let e := q 2; let m := q 5;
        -H.h2c_voov m e c j },
    { key := [1, 3, 5, 6], guarded := true, hmatel := fun p q =>
        let b := p 2; let i := p 4; let e := q 2; let m := q 5;
        -H.h2c_voov m e b i },
    { key := [2, 3, 5, 6], guarded := true, hmatel := fun p q =>
        let a := p 1; let i := p 4; let e := q 2; let m := q 5;
        H.h2c_voov m e a i },
    { key := [1, 2, 5, 6], guarded := true, hmatel := fun p q =>
        let c := p 3; let i := p 4; let e := q 2; let m := q 5;
        H.h2c_voov m e c i },
    { key := [1, 3, 4, 5], guarded := true, hmatel := fun p q =>
        let b := p 2; let k := p 6; let e := q 2; let m := q 5;
        -H.h2c_voov m e b k },
    { key := [2, 3, 4, 5], guarded := true, hmatel := fun p q =>
        let a := p 1; let k := p 6; let e := q 2; let m := q 5;
        H.h2c_voov m e a k },
    { key := [1, 2, 4, 5], guarded := true, hmatel := fun p q =>
        let c := p 3; let k := p 6; let e := q 2; let m := q 5;
        H.h2c_voov m e c k }]

/-- `/repo/ccpy/lib/fortran/ccsdt_p_loops.f90:6686-6800` -/
def t3dBlock12 (d : Dims) (H : Arrays) : Block where
  rng1 := (2, (d.ub : ℤ) - 1)
  rng2 := (-1, (d.ub : ℤ))
  rng3 := (1, (d.ob : ℤ) - 2)
  rng4 := (-2, (d.ob : ℤ))
  n1 := d.ub
  n2 := d.ub
  n3 := d.ob
  n4 := d.ob
  nloc := (d.ub - 1) * (d.ub - 2) / 2 * (d.ob - 1) * (d.ob - 2) / 2
  idims := [2, 3, 4, 6]
  cases := [
    { key := [2, 3, 4, 6], guarded := true, hmatel := fun p q =>
        let a := p 1; let j := p 5; let d := q 1; let m := q 5;
        H.h2c_voov m d a j },
    { key := [1, 3, 4, 6], guarded := true, hmatel := fun p q =>
        let b := p 2; let j := p 5; let d := q 1; let m := q 5;
        -H.h2c_voov m d b j },
    { key := [1, 2, 4, 6], guarded := true, hmatel := fun p q =>
        let c := p 3; let j := p 5; let d := q 1; let m := q 5;
        H.h2c_voov m d c j },
    { key := [2, 3, 5, 6], guarded := true, hmatel := fun p q =>
        let a := p 1; let i := p 4; let d := q 1; let m := q 5;
        -H.h2c_voov m d a i },
    { key := [1, 3, 5, 6], guarded := true, hmatel := fun p q =>
        let b := p 2; let i := p 4; let d := q 1; let m := q 5;
        H.h2c_voov m d b i },
    { key := [1, 2, 5, 6], guarded := true, hmatel := fun p q =>
        let c := p 3; let i := p 4; let d := q 1; let m := q 5;
        -H.h2c_voov m d c i },
    { key := [2, 3, 4, 5], guarded := true, hmatel := fun p q =>
        let a := p 1; let k := p 6; let d := q 1; let m := q 5;
        -H.h2c_voov m d a k },
    { key := [1, 3, 4, 5], guarded := true, hmatel := fun p q =>
        let b := p 2; let k := p 6; let d := q 1; let m := q 5;
        H.h2c_voov m d b k },
    { key := [1, 2, 4, 5], guarded := true, hmatel := fun p q =>
        let c := p 3; let k := p 6; let d := q 1; let m := q 5;
        -H.h2c_voov m d c k }]

/-- `/repo/ccpy/lib/fortran/ccsdt_p_loops.f90:6805-6919` -/
def t3dBlock13 (d : Dims) (H : Arrays) : Block where
  rng1 := (1, (d.ub : ℤ) - 2)
  rng2 := (-1, (d.ub : ℤ) - 1)
  rng3 := (2, (d.ob : ℤ) - 1)
  rng4 := (-1, (d.ob : ℤ))
  n1 := d.ub
  n2 := d.ub
  n3 := d.ob
  n4 := d.ob
  nloc := (d.ub - 1) * (d.ub - 2) / 2 * (d.ob - 1) * (d.ob - 2) / 2
  idims := [1, 2, 5, 6]
  cases := [
    { key := [1, 2, 5, 6], guarded := true, hmatel := fun p q =>
        let c := p 3; let i := p 4; let f := q 3; let l := q 4;
        H.h2c_voov l f c i },
    { key := [2, 3, 5, 6], guarded := true, hmatel := fun p q =>
        let a := p 1; let i := p 4; let f := q 3; let l := q 4;
        H.h2c_voov l f a i },
    { key := [1, 3, 5, 6], guarded := true, hmatel := fun p q =>
        let b := p 2; let i := p 4; let f := q 3; let l := q 4;
        -H.h2c_voov l f b i },
    { key := [1, 2, 4, 6], guarded := true, hmatel := fun p q =>
        let c := p 3; let j := p 5; let f := q 3; let l := q 4;
        -H.h2c_voov l f c j },
    { key := [2, 3, 4, 6], guarded := true, hmatel := fun p q =>
        let a := p 1; let j := p 5; let f := q 3; let l := q 4;
        -H.h2c_voov l f a j },
    { key := [1, 3, 4, 6], guarded := true, hmatel := fun p q =>
        let b := p 2; let j := p 5; let f := q 3; let l := q 4;
        H.h2c_voov l f b j },
    { key := [1, 2, 4, 5], guarded := true, hmatel := fun p q =>
        let c := p 3; let k := p 6; let f := q 3; let l := q 4;
        H.h2c_voov l f c k },
    { key := [2, 3, 4, 5], guarded := true, hmatel := fun p q =>
        let a := p 1; let k := p 6; let f := q 3; let l := q 4;
        H.h2c_voov l f a k },
    { key := [1, 3, 4, 5], guarded := true, hmatel := fun p q =>
        let b := p 2; let k := p 6; let f := q 3; let l := q 4;
        -H.h2c_voov l f b k }]

/-- `/repo/ccpy/lib/fortran/ccsdt_p_loops.f90:6924-7038` -/
def t3dBlock14 (d : Dims) (H : Arrays) : Block where
  rng1 := (1, (d.ub : ℤ) - 2)
  rng2 := (-2, (d.ub : ℤ))
  rng3 := (2, (d.ob : ℤ) - 1)
  rng4 := (-1, (d.ob : ℤ))
  n1 := d.ub
  n2 := d.ub
  n3 := d.ob
  n4 := d.ob
  nloc := (d.ub - 1) * (d.ub - 2) / 2 * (d.ob - 1) * (d.ob - 2) / 2
  idims := [1, 3, 5, 6]
  cases := [
    { key := [1, 3, 5, 6], guarded := true, hmatel := fun p q =>
        let b := p 2; let i := p 4; let e := q 2; let l := q 4;
        H.h2c_voov l e b i },
    { key := [2, 3, 5, 6], guarded := true, hmatel := fun p q =>
        let a := p 1; let i := p 4; let e := q 2; let l := q 4;
        -H.h2c_voov l e a i },
    { key := [1, 2, 5, 6], guarded := true, hmatel := fun p q =>
        let c := p 3; let i := p 4; let e := q 2; let l := q 4;
        -H.h2c_voov l e c i },
    { key := [1, 3, 4, 6], guarded := true, hmatel := fun p q =>
        let b := p 2; let j := p 5; let e := q 2; let l := q 4;
        -H.h2c_voov l e b j },
    { key := [2, 3, 4, 6], guarded := true, hmatel := fun p q =>
        let a := p 1; let j := p 5; let e := q 2; let l := q 4;
        H.h2c_voov l e a j },
    { key := [1, 2, 4, 6], guarded := true, hmatel := fun p q =>
        let c := p 3; let j := p 5; let e := q 2; let l := q 4;
        H.h2c_voov l e c j },
    { key := [1, 3, 4, 5], guarded := true, hmatel := fun p q =>
        let b := p 2; let k := p 6; let e := q 2; let l := q 4;
        H.h2c_voov l e b k },
    { key := [2, 3, 4, 5], guarded := true, hmatel := fun p q =>
        let a := p 1; let k := p 6; let e := q 2; let l := q 4;
        -H.h2c_voov l e a k },
    { key := [1, 2, 4, 5], guarded := true, hmatel := fun p q =>
        let c := p 3; let k := p 6; let e := q 2; let l := q 4;
        -H.h2c_voov l e c k }]

/-- `/repo/ccpy/lib/fortran/ccsdt_p_loops.f90:7043-7157` -/
def t3dBlock15 (d : Dims) (H : Arrays) : Block where
  rng1 := (2, (d.ub : ℤ) - 1)
  rng2 := (-1, (d.ub : ℤ))
  rng3 := (2, (d.ob : ℤ) - 1)
  rng4 := (-1, (d.ob : ℤ))
  n1 := d.ub
  n2 := d.ub
  n3 := d.ob
  n4 := d.ob
  nloc := (d.ub - 1) * (d.ub - 2) / 2 * (d.ob - 1) * (d.ob - 2) / 2
  idims := [2, 3, 5, 6]
  cases := [
    { key := [2, 3, 5, 6], guarded := true, hmatel := fun p q =>
        let a := p 1; let i := p 4; let d := q 1; let l := q 4;
        H.h2c_voov l d a i },
    { key := [1, 3, 5, 6], guarded := true, hmatel := fun p q =>
        let b := p 2; let i := p 4; let d := q 1; let l := q 4;
        -H.h2c_voov l d b i },
    { key := [1, 2, 5, 6], guarded := true, hmatel := fun p q =>
        let c := p 3; let i := p 4; let d := q 1; let l := q 4;
        H.h2c_voov l d c i },
    { key := [2, 3, 4, 6], guarded := true, hmatel := fun p q =>
        let a := p 1; let j := p 5; let d := q 1; let l := q 4;
        -H.h2c_voov l d a j },
    { key := [1, 3, 4, 6], guarded := true, hmatel := fun p q =>
        let b := p 2; let j := p 5; let d := q 1; let l := q 4;
        H.h2c_voov l d b j },
    { key := [1, 2, 4, 6], guarded := true, hmatel := fun p q =>
        let c := p 3; let j := p 5; let d := q 1; let l := q 4;
        -H.h2c_voov l d c j },
    { key := [2, 3, 4, 5], guarded := true, hmatel := fun p q =>
        let a := p 1; let k := p 6; let d := q 1; let l := q 4;
        H.h2c_voov l d a k },
    { key := [1, 3, 4, 5], guarded := true, hmatel := fun p q =>
        let b := p 2; let k := p 6; let d := q 1; let l := q 4;
        -H.h2c_voov l d b k },
    { key := [1, 2, 4, 5], guarded := true, hmatel := fun p q =>
        let c := p 3; let k := p 6; let d := q 1; let l := q 4;
        H.h2c_voov l d c k }]

/-- `/repo/ccpy/lib/fortran/ccsdt_p_loops.f90:7174-7288` -/
def t3dBlock16 (d : Dims) (H : Arrays) : Block where
  rng1 := (1, (d.ub : ℤ) - 1)
  rng2 := (-1, (d.ub : ℤ))
  rng3 := (1, (d.ob : ℤ) - 1)
  rng4 := (-1, (d.ob : ℤ))
  n1 := d.ub
  n2 := d.ub
  n3 := d.ob
  n4 := d.ob
  nloc := d.ub * (d.ub - 1) / 2 * d.ob * (d.ob - 1) / 2
  idims := [2, 3, 5, 6]
  cases := [
    { key := [2, 3, 5, 6], guarded := true, hmatel := fun p q =>
        let a := p 1; let i := p 4; let d := q 1; let l := q 4;
        H.h2b_ovvo l d a i },
    { key := [1, 3, 5, 6], guarded := true, hmatel := fun p q =>
        let b := p 2; let i := p 4; let d := q 1; let l := q 4;
        -H.h2b_ovvo l d b i },
    { key := [1, 2, 5, 6], guarded := true, hmatel := fun p q =>
        let c := p 3; let i := p 4; let d := q 1; let l := q 4;
        H.h2b_ovvo l d c i },
    { key := [2, 3, 4, 6], guarded := true, hmatel := fun p q =>
        let a := p 1; let j := p 5; let d := q 1; let l := q 4;
        -H.h2b_ovvo l d a j },
    { key := [1, 3, 4, 6], guarded := true, hmatel := fun p q =>
        let b := p 2; let j := p 5; let d := q 1; let l := q 4;
        H.h2b_ovvo l d b j },
    { key := [1, 2, 4, 6], guarded := true, hmatel := fun p q =>
        let c := p 3; let j := p 5; let d := q 1; let l := q 4;
        -H.h2b_ovvo l d c j },
    { key := [2, 3, 4, 5], guarded := true, hmatel := fun p q =>
        let a := p 1; let k := p 6; let d := q 1; let l := q 4;
        H.h2b_ovvo l d a k },
    { key := [1, 3, 4, 5], guarded := true, hmatel := fun p q =>
        let b := p 2; let k := p 6; let d := q 1; let l := q 4;
        -H.h2b_ovvo l d b k },
    { key := [1, 2, 4, 5], guarded := true, hmatel := fun p q =>
        let c := p 3; let k := p 6; let d := q 1; let l := q 4;
        H.h2b_ovvo l d c k }]

/-- The arrays built first, `/repo/ccpy/lib/fortran/ccsdt_p_loops.f90:5604-5613`. -/
def t3dInter (d : Dims) (H : Arrays) (t3c t3d : Buffer) : Inter where
  i2c_vooo := calcI2c_vooo d H t3c t3d (fun m a i j => (1 / 2) * H.h2c_vooo m a i j)
  i2c_vvov := calcI2c_vvov d H t3c t3d (fun m a i j => (1 / 2) * H.h2c_vvov m a i j)

/-- `/repo/ccpy/lib/fortran/ccsdt_p_loops.f90:7313-7328` -/
def t3dMoment1 (d : Dims) (H : Arrays) (I : Inter) (p : ℕ → ℕ) : ℚ :=
  let xbuf : Arr4 := fun j i b a => H.t2c b a j i
  let a := p 1; let b := p 2; let c := p 3; let i := p 4; let j := p 5; let k := p 6
  sumTo d.ob fun m =>
    -I.i2c_vooo m a i j * xbuf m k b c
      + I.i2c_vooo m b i j * xbuf m k a c
      + I.i2c_vooo m c i j * xbuf m k b a
      + I.i2c_vooo m a k j * xbuf m i b c
      - I.i2c_vooo m b k j * xbuf m i a c
      - I.i2c_vooo m c k j * xbuf m i b a
      + I.i2c_vooo m a i k * xbuf m j b c
      - I.i2c_vooo m b i k * xbuf m j a c
      - I.i2c_vooo m c i k * xbuf m j b a
/-- `/repo/ccpy/lib/fortran/ccsdt_p_loops.f90:7336-7351` -/
def t3dMoment2 (d : Dims) (H : Arrays) (I : Inter) (p : ℕ → ℕ) : ℚ :=
  let a := p 1; let b := p 2; let c := p 3; let i := p 4; let j := p 5; let k := p 6
  sumTo d.ub fun e =>
    I.i2c_vvov e a b i * H.t2c e c j k
      - I.i2c_vvov e c b i * H.t2c e a j k
      - I.i2c_vvov e a c i * H.t2c e b j k
      - I.i2c_vvov e a b j * H.t2c e c i k
      + I.i2c_vvov e c b j * H.t2c e a i k
      + I.i2c_vvov e a c j * H.t2c e b i k
      - I.i2c_vvov e a b k * H.t2c e c j i
      + I.i2c_vvov e c b k * H.t2c e a j i
      + I.i2c_vvov e a c k * H.t2c e b j i

/-- `denom`, `/repo/ccpy/lib/fortran/ccsdt_p_loops.f90:7359` -/
def t3dDenom (H : Arrays) (p : ℕ → ℕ) : ℚ :=
  let a := p 1; let b := p 2; let c := p 3; let i := p 4; let j := p 5; let k := p 6
  H.fb_oo i i + H.fb_oo j j + H.fb_oo k k - H.fb_vv a a - H.fb_vv b b - H.fb_vv c c

/-- The blocks over the updated list, `/repo/ccpy/lib/fortran/ccsdt_p_loops.f90:5626-7157`. -/
def t3dBlocks (d : Dims) (H : Arrays) : List Block :=
  [t3dBlock1 d H, t3dBlock2 d H, t3dBlock3 d H, t3dBlock4 d H, t3dBlock5 d H, t3dBlock6 d H, t3dBlock7 d H, t3dBlock8 d H, t3dBlock9 d H, t3dBlock10 d H, t3dBlock11 d H, t3dBlock12 d H, t3dBlock13 d H, t3dBlock14 d H, t3dBlock15 d H]

/-- The blocks over a copy of `t3c`, `/repo/ccpy/lib/fortran/ccsdt_p_loops.f90:7174-7288`. -/
def t3dBlocksT3c (d : Dims) (H : Arrays) : List Block :=
  [t3dBlock16 d H]

/-- `update_t3d_p`, `/repo/ccpy/lib/fortran/ccsdt_p_loops.f90:5547-7369`. -/
def updateT3d (d : Dims) (H : Arrays) (t3c t3d : Buffer) : Option State := do
  let I := t3dInter d H t3c t3d
  let s : State := ⟨t3d.excits, t3d.amps, t3d.excits.map fun _ => 0⟩
  let s ← runOwn (t3dBlocks d H) s
  let s ← runOther (t3dBlocksT3c d H) s t3c
  let s := s.addMoment (t3dMoment1 d H I)
  let s := s.addMoment (t3dMoment2 d H I)
  some (s.finish H.shift (t3dDenom H))
end Ccpy.PSpace
