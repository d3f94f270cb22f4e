import Verif.Model.PSpaceInter

/-! The kernel `update_t3c_p`, block by block. -/

namespace Ccpy.PSpace

/-- `/repo/ccpy/lib/fortran/ccsdt_p_loops.f90:4090-4121` -/
def t3cBlock1 (d : Dims) (H : Arrays) : Block where
  rng1 := (1, (d.ub : ℤ) - 1)
  rng2 := (-1, (d.ub : ℤ))
  rng3 := (1, (d.ua : ℤ))
  rng4 := (1, (d.oa : ℤ))
  n1 := d.ub
  n2 := d.ub
  n3 := d.ua
  n4 := d.oa
  nloc := d.ub * (d.ub - 1) / 2 * d.ua * d.oa
  idims := [2, 3, 1, 4]
  cases := [
    { key := [2, 3, 1, 4], guarded := false, hmatel := fun p q =>
        let j := p 5; let k := p 6; let m := q 5; let n := q 6;
        let hmatel : ℚ := H.h2c_oooo n m k j;
        let hmatel1 : ℚ := if n = k then -H.h1b_oo m j else 0;
        let hmatel2 : ℚ := if n = j then H.h1b_oo m k else 0;
        let hmatel3 : ℚ := if m = k then H.h1b_oo n j else 0;
        let hmatel4 : ℚ := if m = j then -H.h1b_oo n k else 0;
        (hmatel + hmatel1 + hmatel2 + hmatel3 + hmatel4) }]

/-- `/repo/ccpy/lib/fortran/ccsdt_p_loops.f90:4135-4166` -/
def t3cBlock2 (d : Dims) (H : Arrays) : Block where
  rng1 := (1, (d.ob : ℤ) - 1)
  rng2 := (-1, (d.ob : ℤ))
  rng3 := (1, (d.oa : ℤ))
  rng4 := (1, (d.ua : ℤ))
  n1 := d.ob
  n2 := d.ob
  n3 := d.oa
  n4 := d.ua
  nloc := d.ua * d.ob * (d.ob - 1) / 2 * d.oa
  idims := [5, 6, 4, 1]
  cases := [
    { key := [5, 6, 4, 1], guarded := false, hmatel := fun p q =>
        let b := p 2; let c := p 3; let e := q 2; let f := q 3;
        let hmatel : ℚ := H.h2c_vvvv f e c b;
        let hmatel1 : ℚ := if c = f then H.h1b_vv e b else 0;
        let hmatel2 : ℚ := if b = f then -H.h1b_vv e c else 0;
        let hmatel3 : ℚ := if c = e then -H.h1b_vv f b else 0;
        let hmatel4 : ℚ := if b = e then H.h1b_vv f c else 0;
        (hmatel + hmatel1 + hmatel2 + hmatel3 + hmatel4) }]

/-- `/repo/ccpy/lib/fortran/ccsdt_p_loops.f90:4180-4219` -/
def t3cBlock3 (d : Dims) (H : Arrays) : Block where
  rng1 := (1, (d.ub : ℤ) - 1)
  rng2 := (-1, (d.ub : ℤ))
  rng3 := (1, (d.ua : ℤ))
  rng4 := (2, (d.ob : ℤ))
  n1 := d.ub
  n2 := d.ub
  n3 := d.ua
  n4 := d.ob
  nloc := d.ub * (d.ub - 1) / 2 * d.ua * d.ob
  idims := [2, 3, 1, 6]
  cases := [
    { key := [2, 3, 1, 6], guarded := false, hmatel := fun p q =>
        let i := p 4; let j := p 5; let l := q 4; let m := q 5;
        let hmatel : ℚ := H.h2b_oooo l m i j;
        let hmatel1 : ℚ := if m = j then -H.h1a_oo l i else 0;
        (hmatel + hmatel1) },
    { key := [2, 3, 1, 5], guarded := true, hmatel := fun p q =>
        let i := p 4; let k := p 6; let l := q 4; let m := q 5;
        let hmatel : ℚ := -H.h2b_oooo l m i k;
        let hmatel1 : ℚ := if m = k then H.h1a_oo l i else 0;
        (hmatel + hmatel1) }]

/-- `/repo/ccpy/lib/fortran/ccsdt_p_loops.f90:4224-4257` -/
def t3cBlock4 (d : Dims) (H : Arrays) : Block where
  rng1 := (1, (d.ub : ℤ) - 1)
  rng2 := (-1, (d.ub : ℤ))
  rng3 := (1, (d.ua : ℤ))
  rng4 := (1, (d.ob : ℤ) - 1)
  n1 := d.ub
  n2 := d.ub
  n3 := d.ua
  n4 := d.ob
  nloc := d.ub * (d.ub - 1) / 2 * d.ua * d.ob
  idims := [2, 3, 1, 5]
  cases := [
    { key := [2, 3, 1, 5], guarded := false, hmatel := fun p q =>
        let i := p 4; let k := p 6; let l := q 4; let n := q 6;
        H.h2b_oooo l n i k },
    { key := [2, 3, 1, 6], guarded := true, hmatel := fun p q =>
        let i := p 4; let j := p 5; let l := q 4; let n := q 6;
        -H.h2b_oooo l n i j }]

/-- `/repo/ccpy/lib/fortran/ccsdt_p_loops.f90:4271-4310` -/
def t3cBlock5 (d : Dims) (H : Arrays) : Block where
  rng1 := (1, (d.ob : ℤ) - 1)
  rng2 := (-1, (d.ob : ℤ))
  rng3 := (1, (d.oa : ℤ))
  rng4 := (1, (d.ub : ℤ) - 1)
  n1 := d.ob
  n2 := d.ob
  n3 := d.oa
  n4 := d.ub
  nloc := d.ub * d.ob * (d.ob - 1) / 2 * d.oa
  idims := [5, 6, 4, 2]
  cases := [
    { key := [5, 6, 4, 2], guarded := false, hmatel := fun p q =>
        let a := p 1; let c := p 3; let d := q 1; let f := q 3;
        let hmatel : ℚ := H.h2b_vvvv d f a c;
        let hmatel1 : ℚ := if c = f then H.h1a_vv d a else 0;
        (hmatel + hmatel1) },
    { key := [5, 6, 4, 3], guarded := true, hmatel := fun p q =>
        let a := p 1; let b := p 2; let d := q 1; let f := q 3;
        let hmatel : ℚ := -H.h2b_vvvv d f a b;
        let hmatel1 : ℚ := if b = f then -H.h1a_vv d a else 0;
        (hmatel + hmatel1) }]

/-- `/repo/ccpy/lib/fortran/ccsdt_p_loops.f90:4315-4349` -/
def t3cBlock6 (d : Dims) (H : Arrays) : Block where
  rng1 := (1, (d.ob : ℤ) - 1)
  rng2 := (-1, (d.ob : ℤ))
  rng3 := (1, (d.oa : ℤ))
  rng4 := (2, (d.ub : ℤ))
  n1 := d.ob
  n2 := d.ob
  n3 := d.oa
  n4 := d.ub
  nloc := d.ub * d.ob * (d.ob - 1) / 2 * d.oa
  idims := [5, 6, 4, 3]
  cases := [
    { key := [5, 6, 4, 3], guarded := false, hmatel := fun p q =>
        let a := p 1; let b := p 2; let d := q 1; let e := q 2;
        H.h2b_vvvv d e a b },
    { key := [5, 6, 4, 2], guarded := true, hmatel := fun p q =>
        let a := p 1; let c := p 3; let d := q 1; let e := q 2;
        -H.h2b_vvvv d e a c }]

/-- `/repo/ccpy/lib/fortran/ccsdt_p_loops.f90:4362-4419` -/
def t3cBlock7 (d : Dims) (H : Arrays) : Block where
  rng1 := (1, (d.ua : ℤ))
  rng2 := (1, (d.ub : ℤ) - 1)
  rng3 := (1, (d.oa : ℤ))
  rng4 := (1, (d.ob : ℤ) - 1)
  n1 := d.ua
  n2 := d.ub
  n3 := d.oa
  n4 := d.ob
  nloc := d.ub * d.ua * d.ob * d.oa
  idims := [1, 2, 4, 5]
  cases := [
    { key := [1, 2, 4, 5], guarded := false, hmatel := fun p q =>
        let c := p 3; let k := p 6; let f := q 3; let n := q 6;
        H.h2c_voov n f c k },
    { key := [1, 2, 4, 6], guarded := true, hmatel := fun p q =>
        let c := p 3; let j := p 5; let f := q 3; let n := q 6;
        -H.h2c_voov n f c j },
    { key := [1, 3, 4, 5], guarded := true, hmatel := fun p q =>
        let b := p 2; let k := p 6; let f := q 3; let n := q 6;
        -H.h2c_voov n f b k },
    { key := [1, 3, 4, 6], guarded := true, hmatel := fun p q =>
        let b := p 2; let j := p 5; let f := q 3; let n := q 6;
        H.h2c_voov n f b j }]

/-- `/repo/ccpy/lib/fortran/ccsdt_p_loops.f90:4424-4481` -/
def t3cBlock8 (d : Dims) (H : Arrays) : Block where
  rng1 := (1, (d.ua : ℤ))
  rng2 := (2, (d.ub : ℤ))
  rng3 := (1, (d.oa : ℤ))
  rng4 := (1, (d.ob : ℤ) - 1)
  n1 := d.ua
  n2 := d.ub
  n3 := d.oa
  n4 := d.ob
  nloc := d.ub * d.ua * d.ob * d.oa
  idims := [1, 3, 4, 5]
  cases := [
    { key := [1, 3, 4, 5], guarded := false, hmatel := fun p q =>
        let b := p 2; let k := p 6; let e := q 2; let n := q 6;
        H.h2c_voov n e b k },
    { key := [1, 3, 4, 6], guarded := true, hmatel := fun p q =>
        let b := p 2; let j := p 5; let e := q 2; let n := q 6;
        -H.h2c_voov n e b j },
    { key := [1, 2, 4, 5], guarded := true, hmatel := fun p q =>
        let c := p 3; let k := p 6; let e := q 2; let n := q 6;
        -H.h2c_voov n e c k },
    { key := [1, 2, 4, 6], guarded := true, hmatel := fun p q =>
        let c := p 3; let j := p 5; let e := q 2; let n := q 6;
        H.h2c_voov n e c j }]

/-- `/repo/ccpy/lib/fortran/ccsdt_p_loops.f90:4486-4543` -/
def t3cBlock9 (d : Dims) (H : Arrays) : Block where
  rng1 := (1, (d.ua : ℤ))
  rng2 := (1, (d.ub : ℤ) - 1)
  rng3 := (1, (d.oa : ℤ))
  rng4 := (2, (d.ob : ℤ))
  n1 := d.ua
  n2 := d.ub
  n3 := d.oa
  n4 := d.ob
  nloc := d.ub * d.ua * d.ob * d.oa
  idims := [1, 2, 4, 6]
  cases := [
    { key := [1, 2, 4, 6], guarded := false, hmatel := fun p q =>
        let c := p 3; let j := p 5; let f := q 3; let m := q 5;
        H.h2c_voov m f c j },
    { key := [1, 2, 4, 5], guarded := true, hmatel := fun p q =>
        let c := p 3; let k := p 6; let f := q 3; let m := q 5;
        -H.h2c_voov m f c k },
    { key := [1, 3, 4, 6], guarded := true, hmatel := fun p q =>
        let b := p 2; let j := p 5; let f := q 3; let m := q 5;
        -H.h2c_voov m f b j },
    { key := [1, 3, 4, 5], guarded := true, hmatel := fun p q =>
        let b := p 2; let k := p 6; let f := q 3; let m := q 5;
        H.h2c_voov m f b k }]

/-- `/repo/ccpy/lib/fortran/ccsdt_p_loops.f90:4548-4605` -/
def t3cBlock10 (d : Dims) (H : Arrays) : Block where
  rng1 := (1, (d.ua : ℤ))
  rng2 := (2, (d.ub : ℤ))
  rng3 := (1, (d.oa : ℤ))
  rng4 := (2, (d.ob : ℤ))
  n1 := d.ua
  n2 := d.ub
  n3 := d.oa
  n4 := d.ob
  nloc := d.ub * d.ua * d.ob * d.oa
  idims := [1, 3, 4, 6]
  cases := [
    { key := [1, 3, 4, 6], guarded := false, hmatel := fun p q =>
        let b := p 2; let j := p 5; let e := q 2; let m := q 5;
        H.h2c_voov m e b j },
    { key := [1, 3, 4, 5], guarded := true, hmatel := fun p q =>
        let b := p 2; let k := p 6; let e := q 2; let m := q 5;
        -H.h2c_voov m e b k },
    { key := [1, 2, 4, 6], guarded := true, hmatel := fun p q =>
        let c := p 3; let j := p 5; let e := q 2; let m := q 5;
        -H.h2c_voov m e c j },
    { key := [1, 2, 4, 5], guarded := true, hmatel := fun p q =>
        let c := p 3; let k := p 6; let e := q 2; let m := q 5;
        H.h2c_voov m e c k }]

/-- `/repo/ccpy/lib/fortran/ccsdt_p_loops.f90:4618-4642` -/
def t3cBlock11 (d : Dims) (H : Arrays) : Block where
  rng1 := (1, (d.ub : ℤ) - 1)
  rng2 := (-1, (d.ub : ℤ))
  rng3 := (1, (d.ob : ℤ) - 1)
  rng4 := (-1, (d.ob : ℤ))
  n1 := d.ub
  n2 := d.ub
  n3 := d.ob
  n4 := d.ob
  nloc := d.ub * (d.ub - 1) / 2 * d.ob * (d.ob - 1) / 2
  idims := [2, 3, 5, 6]
  cases := [
    { key := [2, 3, 5, 6], guarded := false, hmatel := fun p q =>
        let a := p 1; let i := p 4; let d := q 1; let l := q 4;
        H.h2a_voov l d a i }]

/-- `/repo/ccpy/lib/fortran/ccsdt_p_loops.f90:4655-4690` -/
def t3cBlock12 (d : Dims) (H : Arrays) : Block where
  rng1 := (1, (d.ob : ℤ) - 1)
  rng2 := (-1, (d.ob : ℤ))
  rng3 := (1, (d.ua : ℤ))
  rng4 := (2, (d.ub : ℤ))
  n1 := d.ob
  n2 := d.ob
  n3 := d.ua
  n4 := d.ub
  nloc := d.ob * (d.ob - 1) / 2 * d.ub * d.ua
  idims := [5, 6, 1, 3]
  cases := [
    { key := [5, 6, 1, 3], guarded := false, hmatel := fun p q =>
        let b := p 2; let i := p 4; let e := q 2; let l := q 4;
        -H.h2b_ovov l e b i },
    { key := [5, 6, 1, 2], guarded := true, hmatel := fun p q =>
        let c := p 3; let i := p 4; let e := q 2; let l := q 4;
        H.h2b_ovov l e c i }]

/-- `/repo/ccpy/lib/fortran/ccsdt_p_loops.f90:4695-4730` -/
def t3cBlock13 (d : Dims) (H : Arrays) : Block where
  rng1 := (1, (d.ob : ℤ) - 1)
  rng2 := (-1, (d.ob : ℤ))
  rng3 := (1, (d.ua : ℤ))
  rng4 := (1, (d.ub : ℤ) - 1)
  n1 := d.ob
  n2 := d.ob
  n3 := d.ua
  n4 := d.ub
  nloc := d.ob * (d.ob - 1) / 2 * d.ub * d.ua
  idims := [5, 6, 1, 2]
  cases := [
    { key := [5, 6, 1, 2], guarded := false, hmatel := fun p q =>
        let c := p 3; let i := p 4; let f := q 3; let l := q 4;
        -H.h2b_ovov l f c i },
    { key := [5, 6, 1, 3], guarded := true, hmatel := fun p q =>
        let b := p 2; let i := p 4; let f := q 3; let l := q 4;
        H.h2b_ovov l f b i }]

/-- `/repo/ccpy/lib/fortran/ccsdt_p_loops.f90:4743-4778` -/
def t3cBlock14 (d : Dims) (H : Arrays) : Block where
  rng1 := (1, (d.ub : ℤ) - 1)
  rng2 := (-1, (d.ub : ℤ))
  rng3 := (1, (d.oa : ℤ))
  rng4 := (2, (d.ob : ℤ))
  n1 := d.ub
  n2 := d.ub
  n3 := d.oa
  n4 := d.ob
  nloc := d.ub * (d.ub - 1) / 2 * d.oa * d.ob
  idims := [2, 3, 4, 6]
  cases := [
    { key := [2, 3, 4, 6], guarded := false, hmatel := fun p q =>
        let a := p 1; let j := p 5; let d := q 1; let m := q 5;
        -H.h2b_vovo m d a j },
    { key := [2, 3, 4, 5], guarded := true, hmatel := fun p q =>
        let a := p 1; let k := p 6; let d := q 1; let m := q 5;
        H.h2b_vovo m d a k }]

/-- `/repo/ccpy/lib/fortran/ccsdt_p_loops.f90:4783-4818` -/
def t3cBlock15 (d : Dims) (H : Arrays) : Block where
  rng1 := (1, (d.ub : ℤ) - 1)
  rng2 := (-1, (d.ub : ℤ))
  rng3 := (1, (d.oa : ℤ))
  rng4 := (1, (d.ob : ℤ) - 1)
  n1 := d.ub
  n2 := d.ub
  n3 := d.oa
  n4 := d.ob
  nloc := d.ub * (d.ub - 1) / 2 * d.oa * d.ob
  idims := [2, 3, 4, 5]
  cases := [
    { key := [2, 3, 4, 5], guarded := false, hmatel := fun p q =>
        let a := p 1; let k := p 6; let d := q 1; let n := q 6;
        -H.h2b_vovo n d a k },
    { key := [2, 3, 4, 6], guarded := true, hmatel := fun p q =>
        let a := p 1; let j := p 5; let d := q 1; let n := q 6;
        H.h2b_vovo n d a j }]

/-- `/repo/ccpy/lib/fortran/ccsdt_p_loops.f90:4836-4862` -/
def t3cBlock16 (d : Dims) (H : Arrays) : Block where
  rng1 := (2, (d.ub : ℤ) - 1)
  rng2 := (-1, (d.ub : ℤ))
  rng3 := (2, (d.ob : ℤ) - 1)
  rng4 := (-1, (d.ob : ℤ))
  n1 := d.ub
  n2 := d.ub
  n3 := d.ob
  n4 := d.ob
  nloc := (d.ub - 1) * (d.ub - 2) / 2 * (d.ob - 1) * (d.ob - 2) / 2
  idims := [2, 3, 5, 6]
  cases := [
    { key := [2, 3, 5, 6], guarded := true, hmatel := fun p q =>
        let a := p 1; let i := p 4; let d := q 1; let l := q 4;
        H.h2b_voov l d a i }]

/-- `/repo/ccpy/lib/fortran/ccsdt_p_loops.f90:4867-4893` -/
def t3cBlock17 (d : Dims) (H : Arrays) : Block where
  rng1 := (2, (d.ub : ℤ) - 1)
  rng2 := (-1, (d.ub : ℤ))
  rng3 := (1, (d.ob : ℤ) - 2)
  rng4 := (-2, (d.ob : ℤ))
  n1 := d.ub
  n2 := d.ub
  n3 := d.ob
  n4 := d.ob
  nloc := (d.ub - 1) * (d.ub - 2) / 2 * (d.ob - 1) * (d.ob - 2) / 2
  idims := [2, 3, 4, 6]
  cases := [
    { key := [2, 3, 5, 6], guarded := true, hmatel := fun p q =>
        let a := p 1; let i := p 4; let d := q 1; let m := q 5;
        -H.h2b_voov m d a i }]

/-- `/repo/ccpy/lib/fortran/ccsdt_p_loops.f90:4898-4924` -/
def t3cBlock18 (d : Dims) (H : Arrays) : Block where
  rng1 := (2, (d.ub : ℤ) - 1)
  rng2 := (-1, (d.ub : ℤ))
  rng3 := (1, (d.ob : ℤ) - 2)
  rng4 := (-1, (d.ob : ℤ) - 1)
  n1 := d.ub
  n2 := d.ub
  n3 := d.ob
  n4 := d.ob
  nloc := (d.ub - 1) * (d.ub - 2) / 2 * (d.ob - 1) * (d.ob - 2) / 2
  idims := [2, 3, 4, 5]
  cases := [
    { key := [2, 3, 5, 6], guarded := true, hmatel := fun p q =>
        let a := p 1; let i := p 4; let d := q 1; let n := q 6;
        H.h2b_voov n d a i }]

/-- `/repo/ccpy/lib/fortran/ccsdt_p_loops.f90:4929-4955` -/
def t3cBlock19 (d : Dims) (H : Arrays) : Block where
  rng1 := (1, (d.ub : ℤ) - 2)
  rng2 := (-2, (d.ub : ℤ))
  rng3 := (2, (d.ob : ℤ) - 1)
  rng4 := (-1, (d.ob : ℤ))
  n1 := d.ub
  n2 := d.ub
  n3 := d.ob
  n4 := d.ob
  nloc := (d.ub - 1) * (d.ub - 2) / 2 * (d.ob - 1) * (d.ob - 2) / 2
  idims := [1, 3, 5, 6]
  cases := [
    { key := [2, 3, 5, 6], guarded := true, hmatel := fun p q =>
        let a := p 1; let i := p 4; let e := q 2; let l := q 4;
        -H.h2b_voov l e a i }]

/-- `/repo/ccpy/lib/fortran/ccsdt_p_loops.f90:4960-4986` -/
def t3cBlock20 (d : Dims) (H : Arrays) : Block where
  rng1 := (1, (d.ub : ℤ) - 2)
  rng2 := (-2, (d.ub : ℤ))
  rng3 := (1, (d.ob : ℤ) - 2)
  rng4 := (-2, (d.ob : ℤ))
  n1 := d.ub
  n2 := d.ub
  n3 := d.ob
  n4 := d.ob
  nloc := (d.ub - 1) * (d.ub - 2) / 2 * (d.ob - 1) * (d.ob - 2) / 2
  idims := [1, 3, 4, 6]
  cases := [
    { key := [2, 3, 5, 6], guarded := true, hmatel := fun p q =>
        let a := p 1; let i := p 4; let e := q 2; let m := q 5;
        H.h2b_voov m e a i }]

/-- `/repo/ccpy/lib/fortran/ccsdt_p_loops.f90:4991-5017` -/
def t3cBlock21 (d : Dims) (H : Arrays) : Block where
  rng1 := (1, (d.ub : ℤ) - 2)
  rng2 := (-2, (d.ub : ℤ))
  rng3 := (1, (d.ob : ℤ) - 2)
  rng4 := (-1, (d.ob : ℤ) - 1)
  n1 := d.ub
  n2 := d.ub
  n3 := d.ob
  n4 := d.ob
  nloc := (d.ub - 1) * (d.ub - 2) / 2 * (d.ob - 1) * (d.ob - 2) / 2
  idims := [1, 3, 4, 5]
  cases := [
    { key := [2, 3, 5, 6], guarded := true, hmatel := fun p q =>
        let a := p 1; let i := p 4; let e := q 2; let n := q 6;
        -H.h2b_voov n e a i }]

/-- `/repo/ccpy/lib/fortran/ccsdt_p_loops.f90:5022-5048` -/
def t3cBlock22 (d : Dims) (H : Arrays) : Block where
  rng1 := (1, (d.ub : ℤ) - 2)
  rng2 := (-1, (d.ub : ℤ) - 1)
  rng3 := (2, (d.ob : ℤ) - 1)
  rng4 := (-1, (d.ob : ℤ))
  n1 := d.ub
  n2 := d.ub
  n3 := d.ob
  n4 := d.ob
  nloc := (d.ub - 1) * (d.ub - 2) / 2 * (d.ob - 1) * (d.ob - 2) / 2
  idims := [1, 2, 5, 6]
  cases := [
    { key := [2, 3, 5, 6], guarded := true, hmatel := fun p q =>
        let a := p 1; let i := p 4; let f := q 3; let l := q 4;
        H.h2b_voov l f a i }]

/-- `/repo/ccpy/lib/fortran/ccsdt_p_loops.f90:5053-5079` -/
def t3cBlock23 (d : Dims) (H : Arrays) : Block where
  rng1 := (1, (d.ub : ℤ) - 2)
  rng2 := (-1, (d.ub : ℤ) - 1)
  rng3 := (1, (d.ob : ℤ) - 2)
  rng4 := (-2, (d.ob : ℤ))
  n1 := d.ub
  n2 := d.ub
  n3 := d.ob
  n4 := d.ob
  nloc := (d.ub - 1) * (d.ub - 2) / 2 * (d.ob - 1) * (d.ob - 2) / 2
  idims := [1, 2, 4, 6]
  cases := [
    { key := [2, 3, 5, 6], guarded := true, hmatel := fun p q =>
        let a := p 1; let i := p 4; let f := q 3; let m := q 5;
        -H.h2b_voov m f a i }]

/-- `/repo/ccpy/lib/fortran/ccsdt_p_loops.f90:5084-5110` -/
def t3cBlock24 (d : Dims) (H : Arrays) : Block where
  rng1 := (1, (d.ub : ℤ) - 2)
  rng2 := (-1, (d.ub : ℤ) - 1)
  rng3 := (1, (d.ob : ℤ) - 2)
  rng4 := (-1, (d.ob : ℤ) - 1)
  n1 := d.ub
  n2 := d.ub
  n3 := d.ob
  n4 := d.ob
  nloc := (d.ub - 1) * (d.ub - 2) / 2 * (d.ob - 1) * (d.ob - 2) / 2
  idims := [1, 2, 4, 5]
  cases := [
    { key := [2, 3, 5, 6], guarded := true, hmatel := fun p q =>
        let a := p 1; let i := p 4; let f := q 3; let n := q 6;
        H.h2b_voov n f a i }]

/-- `/repo/ccpy/lib/fortran/ccsdt_p_loops.f90:5130-5189` -/
def t3cBlock25 (d : Dims) (H : Arrays) : Block where
  rng1 := (1, (d.ua : ℤ) - 1)
  rng2 := (1, (d.ub : ℤ))
  rng3 := (1, (d.oa : ℤ) - 1)
  rng4 := (1, (d.ob : ℤ))
  n1 := d.ua
  n2 := d.ub
  n3 := d.oa
  n4 := d.ob
  nloc := d.ua * d.ub * d.oa * d.ob
  idims := [1, 3, 4, 6]
  cases := [
    { key := [1, 3, 4, 6], guarded := true, hmatel := fun p q =>
        let b := p 2; let j := p 5; let e := q 2; let m := q 5;
        H.h2b_ovvo m e b j },
    { key := [1, 2, 4, 6], guarded := true, hmatel := fun p q =>
        let c := p 3; let j := p 5; let e := q 2; let m := q 5;
        -H.h2b_ovvo m e c j },
    { key := [1, 3, 4, 5], guarded := true, hmatel := fun p q =>
        let b := p 2; let k := p 6; let e := q 2; let m := q 5;
        -H.h2b_ovvo m e b k },
    { key := [1, 2, 4, 5], guarded := true, hmatel := fun p q =>
        let c := p 3; let k := p 6; let e := q 2; let m := q 5;
        H.h2b_ovvo m e c k }]

/-- `/repo/ccpy/lib/fortran/ccsdt_p_loops.f90:5194-5253` -/
def t3cBlock26 (d : Dims) (H : Arrays) : Block where
  rng1 := (2, (d.ua : ℤ))
  rng2 := (1, (d.ub : ℤ))
  rng3 := (1, (d.oa : ℤ) - 1)
  rng4 := (1, (d.ob : ℤ))
  n1 := d.ua
  n2 := d.ub
  n3 := d.oa
  n4 := d.ob
  nloc := d.ua * d.ub * d.oa * d.ob
  idims := [2, 3, 4, 6]
  cases := [
    { key := [1, 3, 4, 6], guarded := true, hmatel := fun p q =>
        let b := p 2; let j := p 5; let d := q 1; let m := q 5;
        -H.h2b_ovvo m d b j },
    { key := [1, 2, 4, 6], guarded := true, hmatel := fun p q =>
        let c := p 3; let j := p 5; let d := q 1; let m := q 5;
        H.h2b_ovvo m d c j },
    { key := [1, 3, 4, 5], guarded := true, hmatel := fun p q =>
        let b := p 2; let k := p 6; let d := q 1; let m := q 5;
        H.h2b_ovvo m d b k },
    { key := [1, 2, 4, 5], guarded := true, hmatel := fun p q =>
        let c := p 3; let k := p 6; let d := q 1; let m := q 5;
        -H.h2b_ovvo m d c k }]

/-- `/repo/ccpy/lib/fortran/ccsdt_p_loops.f90:5258-5317` -/
def t3cBlock27 (d : Dims) (H : Arrays) : Block where
  rng1 := (1, (d.ua : ℤ) - 1)
  rng2 := (1, (d.ub : ℤ))
  rng3 := (2, (d.oa : ℤ))
  rng4 := (1, (d.ob : ℤ))
  n1 := d.ua
  n2 := d.ub
  n3 := d.oa
  n4 := d.ob
  nloc := d.ua * d.ub * d.oa * d.ob
  idims := [1, 3, 5, 6]
  cases := [
    { key := [1, 3, 4, 6], guarded := true, hmatel := fun p q =>
        let b := p 2; let j := p 5; let e := q 2; let l := q 4;
        -H.h2b_ovvo l e b j },
    { key := [1, 2, 4, 6], guarded := true, hmatel := fun p q =>
        let c := p 3; let j := p 5; let e := q 2; let l := q 4;
        H.h2b_ovvo l e c j },
    { key := [1, 3, 4, 5], guarded := true, hmatel := fun p q =>
        let b := p 2; let k := p 6; let e := q 2; let l := q 4;
        H.h2b_ovvo l e b k },
    { key := [1, 2, 4, 5], guarded := true, hmatel := fun p q =>
        let c := p 3; let k := p 6; let e := q 2; let l := q 4;
        -H.h2b_ovvo l e c k }]

/-- `/repo/ccpy/lib/fortran/ccsdt_p_loops.f90:5322-5381` -/
def t3cBlock28 (d : Dims) (H : Arrays) : Block where
  rng1 := (2, (d.ua : ℤ))
  rng2 := (1, (d.ub : ℤ))
  rng3 := (2, (d.oa : ℤ))
  rng4 := (1, (d.ob : ℤ))
  n1 := d.ua
  n2 := d.ub
  n3 := d.oa
  n4 := d.ob
  nloc := d.ua * d.ub * d.oa * d.ob
  idims := [2, 3, 5, 6]
  cases := [
    { key := [1, 3, 4, 6], guarded := true, hmatel := fun p q =>
        let b := p 2; let j := p 5; let d := q 1; let l := q 4;
        H.h2b_ovvo l d b j },
    { key := [1, 2, 4, 6], guarded := true, hmatel := fun p q =>
        let c := p 3; let j := p 5; let d := q 1; let l := q 4;
        -H.h2b_ovvo l d c j },
    { key := [1, 3, 4, 5], guarded := true, hmatel := fun p q =>
        let b := p 2; let k := p 6; let d := q 1; let l := q 4;
        -H.h2b_ovvo l d b k },
    { key := [1, 2, 4, 5], guarded := true, hmatel := fun p q =>
        let c := p 3; let k := p 6; let d := q 1; let l := q 4;
        H.h2b_ovvo l d c k }]

/-- The arrays built first, `/repo/ccpy/lib/fortran/ccsdt_p_loops.f90:4049-4078`. -/
def t3cInter (d : Dims) (H : Arrays) (t3b t3c t3d : Buffer) : Inter where
  i2c_vooo := calcI2c_vooo d H t3c t3d (fun m a i j => (1 / 2) * H.h2c_vooo m a i j)
  i2c_vvov := calcI2c_vvov d H t3c t3d (fun m a i j => (1 / 2) * H.h2c_vvov m a i j)
  i2b_vooo := calcI2b_vooo d H t3b t3c H.h2b_vooo
  i2b_ovoo := calcI2b_ovoo d H t3b t3c H.h2b_ovoo
  i2b_vvov := calcI2b_vvov d H t3b t3c H.h2b_vvov
  i2b_vvvo := calcI2b_vvvo d H t3b t3c H.h2b_vvvo

/-- `/repo/ccpy/lib/fortran/ccsdt_p_loops.f90:5396-5406` -/
def t3cMoment1 (d : Dims) (H : Arrays) (I : Inter) (p : ℕ → ℕ) : ℚ :=
  let a := p 1; let b := p 2; let c := p 3; let i := p 4; let j := p 5; let k := p 6
  sumTo d.ua fun e =>
    I.i2b_vvvo e a b j * H.t2b e c i k
      - I.i2b_vvvo e a b k * H.t2b e c i j
      - I.i2b_vvvo e a c j * H.t2b e b i k
      + I.i2b_vvvo e a c k * H.t2b e b i j
/-- `/repo/ccpy/lib/fortran/ccsdt_p_loops.f90:5413-5421` -/
def t3cMoment2 (d : Dims) (H : Arrays) (I : Inter) (p : ℕ → ℕ) : ℚ :=
  let a := p 1; let b := p 2; let c := p 3; let i := p 4; let j := p 5; let k := p 6
  sumTo d.ub fun e =>
    I.i2b_vvov e a b i * H.t2c e c j k
      - I.i2b_vvov e a c i * H.t2c e b j k
/-- `/repo/ccpy/lib/fortran/ccsdt_p_loops.f90:5438-5446` -/
def t3cMoment3 (d : Dims) (H : Arrays) (I : Inter) (p : ℕ → ℕ) : ℚ :=
  let xbuf : Arr4 := fun b a j i => H.t2b a b i j
  let a := p 1; let b := p 2; let c := p 3; let i := p 4; let j := p 5; let k := p 6
  sumTo d.ub fun e =>
    I.i2c_vvov e c b k * xbuf e a j i
      - I.i2c_vvov e c b j * xbuf e a k i
/-- `/repo/ccpy/lib/fortran/ccsdt_p_loops.f90:5464-5474` -/
def t3cMoment4 (d : Dims) (H : Arrays) (I : Inter) (p : ℕ → ℕ) : ℚ :=
  let xbuf : Arr4 := fun i j a b => H.t2b a b i j
  let a := p 1; let b := p 2; let c := p 3; let i := p 4; let j := p 5; let k := p 6
  sumTo d.oa fun m =>
    -I.i2b_ovoo m b i j * xbuf m k a c
      + I.i2b_ovoo m c i j * xbuf m k a b
      + I.i2b_ovoo m b i k * xbuf m j a c
      - I.i2b_ovoo m c i k * xbuf m j a b
/-- `/repo/ccpy/lib/fortran/ccsdt_p_loops.f90:5492-5500` -/
def t3cMoment5 (d : Dims) (H : Arrays) (I : Inter) (p : ℕ → ℕ) : ℚ :=
  let xbuf : Arr4 := fun i j a b => H.t2c a b i j
  let a := p 1; let b := p 2; let c := p 3; let i := p 4; let j := p 5; let k := p 6
  sumTo d.ob fun m =>
    -I.i2b_vooo m a i j * xbuf m k b c
      + I.i2b_vooo m a i k * xbuf m j b c
/-- `/repo/ccpy/lib/fortran/ccsdt_p_loops.f90:5518-5526` -/
def t3cMoment6 (d : Dims) (H : Arrays) (I : Inter) (p : ℕ → ℕ) : ℚ :=
  let xbuf : Arr4 := fun j i b a => H.t2b a b i j
  let a := p 1; let b := p 2; let c := p 3; let i := p 4; let j := p 5; let k := p 6
  sumTo d.ob fun m =>
    -I.i2c_vooo m c k j * xbuf m i b a
      + I.i2c_vooo m b k j * xbuf m i c a

/-- `denom`, `/repo/ccpy/lib/fortran/ccsdt_p_loops.f90:5535` -/
def t3cDenom (H : Arrays) (p : ℕ → ℕ) : ℚ :=
  let a := p 1; let b := p 2; let c := p 3; let i := p 4; let j := p 5; let k := p 6
  H.fa_oo i i + H.fb_oo j j + H.fb_oo k k - H.fa_vv a a - H.fb_vv b b - H.fb_vv c c

/-- The blocks over the updated list, `/repo/ccpy/lib/fortran/ccsdt_p_loops.f90:4090-4818`. -/
def t3cBlocks (d : Dims) (H : Arrays) : List Block :=
  [t3cBlock1 d H, t3cBlock2 d H, t3cBlock3 d H, t3cBlock4 d H, t3cBlock5 d H, t3cBlock6 d H, t3cBlock7 d H, t3cBlock8 d H, t3cBlock9 d H, t3cBlock10 d H, t3cBlock11 d H, t3cBlock12 d H, t3cBlock13 d H, t3cBlock14 d H, t3cBlock15 d H]

/-- The blocks over a copy of `t3d`, `/repo/ccpy/lib/fortran/ccsdt_p_loops.f90:4836-5110`. -/
def t3cBlocksT3d (d : Dims) (H : Arrays) : List Block :=
  [t3cBlock16 d H, t3cBlock17 d H, t3cBlock18 d H, t3cBlock19 d H, t3cBlock20 d H, t3cBlock21 d H, t3cBlock22 d H, t3cBlock23 d H, t3cBlock24 d H]

/-- The blocks over a copy of `t3b`, `/repo/ccpy/lib/fortran/ccsdt_p_loops.f90:5130-5381`. -/
def t3cBlocksT3b (d : Dims) (H : Arrays) : List Block :=
  [t3cBlock25 d H, t3cBlock26 d H, t3cBlock27 d H, t3cBlock28 d H]

/-- `update_t3c_p`, `/repo/ccpy/lib/fortran/ccsdt_p_loops.f90:3960-5545`. -/
def updateT3c (d : Dims) (H : Arrays) (t3b t3c t3d : Buffer) : Option State := do
  let I := t3cInter d H t3b t3c t3d
  let s : State := ⟨t3c.excits, t3c.amps, t3c.excits.map fun _ => 0⟩
  let s ← runOwn (t3cBlocks d H) s
  let s ← runOther (t3cBlocksT3d d H) s t3d
  let s ← runOther (t3cBlocksT3b d H) s t3b
  let s := s.addMoment (t3cMoment1 d H I)
  let s := s.addMoment (t3cMoment2 d H I)
  let s := s.addMoment (t3cMoment3 d H I)
  let s := s.addMoment (t3cMoment4 d H I)
  let s := s.addMoment (t3cMoment5 d H I)
  let s := s.addMoment (t3cMoment6 d H I)
  some (s.finish H.shift (t3cDenom H))
end Ccpy.PSpace
