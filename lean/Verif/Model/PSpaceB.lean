import Verif.Model.PSpaceInter

/-! The kernel `update_t3b_p`, block by block. -/

namespace Ccpy.PSpace

/-- `/repo/ccpy/lib/fortran/ccsdt_p_loops.f90:2517-2547` -/
def t3bBlock1 (d : Dims) (H : Arrays) : Block where
  rng1 := (1, (d.ua : ℤ) - 1)
  rng2 := (-1, (d.ua : ℤ))
  rng3 := (1, (d.ub : ℤ))
  rng4 := (1, (d.ob : ℤ))
  n1 := d.ua
  n2 := d.ua
  n3 := d.ub
  n4 := d.oa
  nloc := d.ua * (d.ua - 1) / 2 * d.ub * d.ob
  idims := [1, 2, 3, 6]
  cases := [
    { key := [1, 2, 3, 6], guarded := false, hmatel := fun p q =>
        let i := p 4; let j := p 5; let l := q 4; let m := q 5;
        let hmatel : ℚ := H.h2a_oooo m l j i;
        let hmatel1 : ℚ := if m = j then -H.h1a_oo l i else 0;
        let hmatel2 : ℚ := if m = i then H.h1a_oo l j else 0;
        let hmatel3 : ℚ := if l = j then H.h1a_oo m i else 0;
        let hmatel4 : ℚ := if l = i then -H.h1a_oo m j else 0;
        (hmatel + hmatel1 + hmatel2 + hmatel3 + hmatel4) }]

/-- `/repo/ccpy/lib/fortran/ccsdt_p_loops.f90:2561-2594` -/
def t3bBlock2 (d : Dims) (H : Arrays) : Block where
  rng1 := (1, (d.oa : ℤ) - 1)
  rng2 := (-1, (d.oa : ℤ))
  rng3 := (1, (d.ob : ℤ))
  rng4 := (1, (d.ub : ℤ))
  n1 := d.oa
  n2 := d.oa
  n3 := d.ob
  n4 := d.ub
  nloc := d.ub * d.oa * (d.oa - 1) / 2 * d.ob
  idims := [4, 5, 6, 3]
  cases := [
    { key := [4, 5, 6, 3], guarded := false, hmatel := fun p q =>
        let a := p 1; let b := p 2; let d := q 1; let e := q 2;
        let hmatel : ℚ := H.h2a_vvvv e d b a;
        let hmatel1 : ℚ := if b = e then H.h1a_vv d a else 0;
        let hmatel2 : ℚ := if a = e then -H.h1a_vv d b else 0;
        let hmatel3 : ℚ := if b = d then -H.h1a_vv e a else 0;
        let hmatel4 : ℚ := if a = d then H.h1a_vv e b else 0;
        (hmatel + hmatel1 + hmatel2 + hmatel3 + hmatel4) }]

/-- `/repo/ccpy/lib/fortran/ccsdt_p_loops.f90:2608-2647` -/
def t3bBlock3 (d : Dims) (H : Arrays) : Block where
  rng1 := (1, (d.ua : ℤ) - 1)
  rng2 := (-1, (d.ua : ℤ))
  rng3 := (1, (d.ub : ℤ))
  rng4 := (1, (d.oa : ℤ) - 1)
  n1 := d.ua
  n2 := d.ua
  n3 := d.ub
  n4 := d.oa
  nloc := d.ua * (d.ua - 1) / 2 * d.ub * d.oa
  idims := [1, 2, 3, 4]
  cases := [
    { key := [1, 2, 3, 4], guarded := false, hmatel := fun p q =>
        let j := p 5; let k := p 6; let m := q 5; let n := q 6;
        let hmatel : ℚ := H.h2b_oooo m n j k;
        let hmatel1 : ℚ := if m = j then -H.h1b_oo n k else 0;
        (hmatel + hmatel1) },
    { key := [1, 2, 3, 5], guarded := true, hmatel := fun p q =>
        let i := p 4; let k := p 6; let m := q 5; let n := q 6;
        let hmatel : ℚ := -H.h2b_oooo m n i k;
        let hmatel1 : ℚ := if m = i then H.h1b_oo n k else 0;
        (hmatel + hmatel1) }]

/-- `/repo/ccpy/lib/fortran/ccsdt_p_loops.f90:2652-2685` -/
def t3bBlock4 (d : Dims) (H : Arrays) : Block where
  rng1 := (1, (d.ua : ℤ) - 1)
  rng2 := (-1, (d.ua : ℤ))
  rng3 := (1, (d.ub : ℤ))
  rng4 := (2, (d.oa : ℤ))
  n1 := d.ua
  n2 := d.ua
  n3 := d.ub
  n4 := d.oa
  nloc := d.ua * (d.ua - 1) / 2 * d.ub * d.oa
  idims := [1, 2, 3, 5]
  cases := [
    { key := [1, 2, 3, 5], guarded := false, hmatel := fun p q =>
        let i := p 4; let k := p 6; let l := q 4; let n := q 6;
        H.h2b_oooo l n i k },
    { key := [1, 2, 3, 4], guarded := true, hmatel := fun p q =>
        let j := p 5; let k := p 6; let l := q 4; let n := q 6;
        -H.h2b_oooo l n j k }]

/-- `/repo/ccpy/lib/fortran/ccsdt_p_loops.f90:2699-2740` -/
def t3bBlock5 (d : Dims) (H : Arrays) : Block where
  rng1 := (1, (d.oa : ℤ) - 1)
  rng2 := (-1, (d.oa : ℤ))
  rng3 := (1, (d.ob : ℤ))
  rng4 := (1, (d.ua : ℤ) - 1)
  n1 := d.oa
  n2 := d.oa
  n3 := d.ob
  n4 := d.ua
  nloc := d.ua * d.oa * (d.oa - 1) / 2 * d.ob
  idims := [4, 5, 6, 1]
  cases := [
    { key := [4, 5, 6, 1], guarded := false, hmatel := fun p q =>
        let b := p 2; let c := p 3; let e := q 2; let f := q 3;
        let hmatel : ℚ := H.h2b_vvvv f e c b;
        let hmatel1 : ℚ := if b = e then H.h1b_vv f c else 0;
        (hmatel + hmatel1) },
    { key := [4, 5, 6, 2], guarded := true, hmatel := fun p q =>
        let a := p 1; let c := p 3; let e := q 2; let f := q 3;
        let hmatel : ℚ := -H.h2b_vvvv f e c a;
        let hmatel1 : ℚ := if a = e then -H.h1b_vv f c else 0;
        (hmatel + hmatel1) }]

/-- `/repo/ccpy/lib/fortran/ccsdt_p_loops.f90:2745-2780` -/
def t3bBlock6 (d : Dims) (H : Arrays) : Block where
  rng1 := (1, (d.oa : ℤ) - 1)
  rng2 := (-1, (d.oa : ℤ))
  rng3 := (1, (d.ob : ℤ))
  rng4 := (2, (d.ua : ℤ))
  n1 := d.oa
  n2 := d.oa
  n3 := d.ob
  n4 := d.ua
  nloc := d.ua * d.oa * (d.oa - 1) / 2 * d.ob
  idims := [4, 5, 6, 2]
  cases := [
    { key := [4, 5, 6, 2], guarded := false, hmatel := fun p q =>
        let a := p 1; let c := p 3; let d := q 1; let f := q 3;
        H.h2b_vvvv f d c a },
    { key := [4, 5, 6, 1], guarded := true, hmatel := fun p q =>
        let b := p 2; let c := p 3; let d := q 1; let f := q 3;
        -H.h2b_vvvv f d c b }]

/-- `/repo/ccpy/lib/fortran/ccsdt_p_loops.f90:2793-2850` -/
def t3bBlock7 (d : Dims) (H : Arrays) : Block where
  rng1 := (2, (d.ua : ℤ))
  rng2 := (1, (d.ub : ℤ))
  rng3 := (2, (d.oa : ℤ))
  rng4 := (1, (d.ob : ℤ))
  n1 := d.ua
  n2 := d.ub
  n3 := d.oa
  n4 := d.ob
  nloc := d.ua * d.ub * d.oa * d.ob
  idims := [2, 3, 5, 6]
  cases := [
    { key := [2, 3, 5, 6], guarded := false, hmatel := fun p q =>
        let a := p 1; let i := p 4; let d := q 1; let l := q 4;
        H.h2a_voov l d a i },
    { key := [1, 3, 5, 6], guarded := true, hmatel := fun p q =>
        let b := p 2; let i := p 4; let d := q 1; let l := q 4;
        -H.h2a_voov l d b i },
    { key := [2, 3, 4, 6], guarded := true, hmatel := fun p q =>
        let a := p 1; let j := p 5; let d := q 1; let l := q 4;
        -H.h2a_voov l d a j },
    { key := [1, 3, 4, 6], guarded := true, hmatel := fun p q =>
        let b := p 2; let j := p 5; let d := q 1; let l := q 4;
        H.h2a_voov l d b j }]

/-- `/repo/ccpy/lib/fortran/ccsdt_p_loops.f90:2855-2912` -/
def t3bBlock8 (d : Dims) (H : Arrays) : Block where
  rng1 := (2, (d.ua : ℤ))
  rng2 := (1, (d.ub : ℤ))
  rng3 := (1, (d.oa : ℤ) - 1)
  rng4 := (1, (d.ob : ℤ))
  n1 := d.ua
  n2 := d.ub
  n3 := d.oa
  n4 := d.ob
  nloc := d.ua * d.ub * d.oa * d.ob
  idims := [2, 3, 4, 6]
  cases := [
    { key := [2, 3, 4, 6], guarded := false, hmatel := fun p q =>
        let a := p 1; let j := p 5; let d := q 1; let l := q 5;
        H.h2a_voov l d a j },
    { key := [2, 3, 5, 6], guarded := true, hmatel := fun p q =>
        let a := p 1; let i := p 4; let d := q 1; let l := q 5;
        -H.h2a_voov l d a i },
    { key := [1, 3, 4, 6], guarded := true, hmatel := fun p q =>
        let b := p 2; let j := p 5; let d := q 1; let l := q 5;
        -H.h2a_voov l d b j },
    { key := [1, 3, 5, 6], guarded := true, hmatel := fun p q =>
        let b := p 2; let i := p 4; let d := q 1; let l := q 5;
        H.h2a_voov l d b i }]

/-- `/repo/ccpy/lib/fortran/ccsdt_p_loops.f90:2917-2974` -/
def t3bBlock9 (d : Dims) (H : Arrays) : Block where
  rng1 := (1, (d.ua : ℤ) - 1)
  rng2 := (1, (d.ub : ℤ))
  rng3 := (1, (d.oa : ℤ) - 1)
  rng4 := (1, (d.ob : ℤ))
  n1 := d.ua
  n2 := d.ub
  n3 := d.oa
  n4 := d.ob
  nloc := d.ua * d.ub * d.oa * d.ob
  idims := [1, 3, 4, 6]
  cases := [
    { key := [1, 3, 4, 6], guarded := false, hmatel := fun p q =>
        let b := p 2; let j := p 5; let d := q 2; let l := q 5;
        H.h2a_voov l d b j },
    { key := [1, 3, 5, 6], guarded := true, hmatel := fun p q =>
        let b := p 2; let i := p 4; let d := q 2; let l := q 5;
        -H.h2a_voov l d b i },
    { key := [2, 3, 4, 6], guarded := true, hmatel := fun p q =>
        let a := p 1; let j := p 5; let d := q 2; let l := q 5;
        -H.h2a_voov l d a j },
    { key := [2, 3, 5, 6], guarded := true, hmatel := fun p q =>
        let a := p 1; let i := p 4; let d := q 2; let l := q 5;
        H.h2a_voov l d a i }]

/-- `/repo/ccpy/lib/fortran/ccsdt_p_loops.f90:2979-3036` -/
def t3bBlock10 (d : Dims) (H : Arrays) : Block where
  rng1 := (1, (d.ua : ℤ) - 1)
  rng2 := (1, (d.ub : ℤ))
  rng3 := (2, (d.oa : ℤ))
  rng4 := (1, (d.ob : ℤ))
  n1 := d.ua
  n2 := d.ub
  n3 := d.oa
  n4 := d.ob
  nloc := d.ua * d.ub * d.oa * d.ob
  idims := [1, 3, 5, 6]
  cases := [
    { key := [1, 3, 5, 6], guarded := false, hmatel := fun p q =>
        let b := p 2; let i := p 4; let d := q 2; let l := q 4;
        H.h2a_voov l d b i },
    { key := [1, 3, 4, 6], guarded := true, hmatel := fun p q =>
        let b := p 2; let j := p 5; let d := q 2; let l := q 4;
        -H.h2a_voov l d b j },
    { key := [2, 3, 5, 6], guarded := true, hmatel := fun p q =>
        let a := p 1; let i := p 4; let d := q 2; let l := q 4;
        -H.h2a_voov l d a i },
    { key := [2, 3, 4, 6], guarded := true, hmatel := fun p q =>
        let a := p 1; let j := p 5; let d := q 2; let l := q 4;
        H.h2a_voov l d a j }]

/-- `/repo/ccpy/lib/fortran/ccsdt_p_loops.f90:3049-3073` -/
def t3bBlock11 (d : Dims) (H : Arrays) : Block where
  rng1 := (1, (d.ua : ℤ) - 1)
  rng2 := (-1, (d.ua : ℤ))
  rng3 := (1, (d.oa : ℤ) - 1)
  rng4 := (-1, (d.oa : ℤ))
  n1 := d.ua
  n2 := d.ua
  n3 := d.oa
  n4 := d.oa
  nloc := d.ua * (d.ua - 1) / 2 * d.oa * (d.oa - 1) / 2
  idims := [1, 2, 4, 5]
  cases := [
    { key := [1, 2, 4, 5], guarded := false, hmatel := fun p q =>
        let c := p 3; let k := p 6; let f := q 3; let n := q 6;
        H.h2c_voov n f c k }]

/-- `/repo/ccpy/lib/fortran/ccsdt_p_loops.f90:3086-3121` -/
def t3bBlock12 (d : Dims) (H : Arrays) : Block where
  rng1 := (1, (d.ua : ℤ) - 1)
  rng2 := (-1, (d.ua : ℤ))
  rng3 := (1, (d.oa : ℤ) - 1)
  rng4 := (1, (d.ob : ℤ))
  n1 := d.ua
  n2 := d.ua
  n3 := d.oa
  n4 := d.ob
  nloc := d.ua * (d.ua - 1) / 2 * d.oa * d.ob
  idims := [1, 2, 4, 6]
  cases := [
    { key := [1, 2, 4, 6], guarded := false, hmatel := fun p q =>
        let c := p 3; let j := p 5; let f := q 3; let m := q 5;
        -H.h2b_ovov m f c j },
    { key := [1, 2, 5, 6], guarded := true, hmatel := fun p q =>
        let c := p 3; let i := p 4; let f := q 3; let m := q 5;
        H.h2b_ovov m f c i }]

/-- `/repo/ccpy/lib/fortran/ccsdt_p_loops.f90:3126-3161` -/
def t3bBlock13 (d : Dims) (H : Arrays) : Block where
  rng1 := (1, (d.ua : ℤ) - 1)
  rng2 := (-1, (d.ua : ℤ))
  rng3 := (2, (d.oa : ℤ))
  rng4 := (1, (d.ob : ℤ))
  n1 := d.ua
  n2 := d.ua
  n3 := d.oa
  n4 := d.ob
  nloc := d.ua * (d.ua - 1) / 2 * d.oa * d.ob
  idims := [1, 2, 5, 6]
  cases := [
    { key := [1, 2, 5, 6], guarded := false, hmatel := fun p q =>
        let c := p 3; let i := p 4; let f := q 3; let l := q 4;
        -H.h2b_ovov l f c i },
    { key := [1, 2, 4, 6], guarded := true, hmatel := fun p q =>
        let c := p 3; let j := p 5; let f := q 3; let l := q 4;
        H.h2b_ovov l f c j }]

/-- `/repo/ccpy/lib/fortran/ccsdt_p_loops.f90:3174-3209` -/
def t3bBlock14 (d : Dims) (H : Arrays) : Block where
  rng1 := (1, (d.oa : ℤ) - 1)
  rng2 := (-1, (d.oa : ℤ))
  rng3 := (2, (d.ua : ℤ))
  rng4 := (1, (d.ub : ℤ))
  n1 := d.oa
  n2 := d.oa
  n3 := d.ua
  n4 := d.ub
  nloc := d.ua * d.ub * d.oa * (d.oa - 1) / 2
  idims := [4, 5, 2, 3]
  cases := [
    { key := [4, 5, 2, 3], guarded := false, hmatel := fun p q =>
        let a := p 1; let k := p 6; let d := q 1; let n := q 6;
        -H.h2b_vovo n d a k },
    { key := [4, 5, 1, 3], guarded := true, hmatel := fun p q =>
        let b := p 2; let k := p 6; let d := q 1; let n := q 6;
        H.h2b_vovo n d b k }]

/-- `/repo/ccpy/lib/fortran/ccsdt_p_loops.f90:3214-3249` -/
def t3bBlock15 (d : Dims) (H : Arrays) : Block where
  rng1 := (1, (d.oa : ℤ) - 1)
  rng2 := (-1, (d.oa : ℤ))
  rng3 := (1, (d.ua : ℤ) - 1)
  rng4 := (1, (d.ub : ℤ))
  n1 := d.oa
  n2 := d.oa
  n3 := d.ua
  n4 := d.ub
  nloc := d.ua * d.ub * d.oa * (d.oa - 1) / 2
  idims := [4, 5, 1, 3]
  cases := [
    { key := [4, 5, 1, 3], guarded := false, hmatel := fun p q =>
        let b := p 2; let k := p 6; let e := q 2; let n := q 6;
        -H.h2b_vovo n e b k },
    { key := [4, 5, 2, 3], guarded := true, hmatel := fun p q =>
        let a := p 1; let k := p 6; let e := q 2; let n := q 6;
        H.h2b_vovo n e a k }]

/-- `/repo/ccpy/lib/fortran/ccsdt_p_loops.f90:3267-3291` -/
def t3bBlock16 (d : Dims) (H : Arrays) : Block where
  rng1 := (1, (d.ua : ℤ) - 2)
  rng2 := (-1, (d.ua : ℤ) - 1)
  rng3 := (1, (d.oa : ℤ) - 2)
  rng4 := (-1, (d.oa : ℤ) - 1)
  n1 := d.ua
  n2 := d.ua
  n3 := d.oa
  n4 := d.oa
  nloc := (d.ua - 1) * (d.ua - 2) / 2 * (d.oa - 1) * (d.oa - 2) / 2
  idims := [1, 2, 4, 5]
  cases := [
    { key := [1, 2, 4, 5], guarded := true, hmatel := fun p q =>
        let c := p 3; let k := p 6; let f := q 3; let n := q 6;
        H.h2b_ovvo n f c k }]

/-- `/repo/ccpy/lib/fortran/ccsdt_p_loops.f90:3296-3320` -/
def t3bBlock17 (d : Dims) (H : Arrays) : Block where
  rng1 := (1, (d.ua : ℤ) - 2)
  rng2 := (-2, (d.ua : ℤ))
  rng3 := (1, (d.oa : ℤ) - 2)
  rng4 := (-1, (d.oa : ℤ) - 1)
  n1 := d.ua
  n2 := d.ua
  n3 := d.oa
  n4 := d.oa
  nloc := (d.ua - 1) * (d.ua - 2) / 2 * (d.oa - 1) * (d.oa - 2) / 2
  idims := [1, 3, 4, 5]
  cases := [
    { key := [1, 2, 4, 5], guarded := true, hmatel := fun p q =>
        let c := p 3; let k := p 6; let e := q 2; let n := q 6;
        -H.h2b_ovvo n e c k }]

/-- `/repo/ccpy/lib/fortran/ccsdt_p_loops.f90:3325-3349` -/
def t3bBlock18 (d : Dims) (H : Arrays) : Block where
  rng1 := (2, (d.ua : ℤ) - 1)
  rng2 := (-1, (d.ua : ℤ))
  rng3 := (1, (d.oa : ℤ) - 2)
  rng4 := (-1, (d.oa : ℤ) - 1)
  n1 := d.ua
  n2 := d.ua
  n3 := d.oa
  n4 := d.oa
  nloc := (d.ua - 1) * (d.ua - 2) / 2 * (d.oa - 1) * (d.oa - 2) / 2
  idims := [2, 3, 4, 5]
  cases := [
    { key := [1, 2, 4, 5], guarded := true, hmatel := fun p q =>
        let c := p 3; let k := p 6; let d := q 1; let n := q 6;
        H.h2b_ovvo n d c k }]

/-- `/repo/ccpy/lib/fortran/ccsdt_p_loops.f90:3354-3378` -/
def t3bBlock19 (d : Dims) (H : Arrays) : Block where
  rng1 := (1, (d.ua : ℤ) - 2)
  rng2 := (-1, (d.ua : ℤ) - 1)
  rng3 := (1, (d.oa : ℤ) - 2)
  rng4 := (-2, (d.oa : ℤ))
  n1 := d.ua
  n2 := d.ua
  n3 := d.oa
  n4 := d.oa
  nloc := (d.ua - 1) * (d.ua - 2) / 2 * (d.oa - 1) * (d.oa - 2) / 2
  idims := [1, 2, 4, 6]
  cases := [
    { key := [1, 2, 4, 5], guarded := true, hmatel := fun p q =>
        let c := p 3; let k := p 6; let f := q 3; let m := q 5;
        -H.h2b_ovvo m f c k }]

/-- `/repo/ccpy/lib/fortran/ccsdt_p_loops.f90:3383-3407` -/
def t3bBlock20 (d : Dims) (H : Arrays) : Block where
  rng1 := (1, (d.ua : ℤ) - 2)
  rng2 := (-2, (d.ua : ℤ))
  rng3 := (1, (d.oa : ℤ) - 2)
  rng4 := (-2, (d.oa : ℤ))
  n1 := d.ua
  n2 := d.ua
  n3 := d.oa
  n4 := d.oa
  nloc := (d.ua - 1) * (d.ua - 2) / 2 * (d.oa - 1) * (d.oa - 2) / 2
  idims := [1, 3, 4, 6]
  cases := [
    { key := [1, 2, 4, 5], guarded := true, hmatel := fun p q =>
        let c := p 3; let k := p 6; let e := q 2; let m := q 5;
        H.h2b_ovvo m e c k }]

/-- `/repo/ccpy/lib/fortran/ccsdt_p_loops.f90:3412-3436` -/
def t3bBlock21 (d : Dims) (H : Arrays) : Block where
  rng1 := (2, (d.ua : ℤ) - 1)
  rng2 := (-1, (d.ua : ℤ))
  rng3 := (1, (d.oa : ℤ) - 2)
  rng4 := (-2, (d.oa : ℤ))
  n1 := d.ua
  n2 := d.ua
  n3 := d.oa
  n4 := d.oa
  nloc := (d.ua - 1) * (d.ua - 2) / 2 * (d.oa - 1) * (d.oa - 2) / 2
  idims := [2, 3, 4, 6]
  cases := [
    { key := [1, 2, 4, 5], guarded := true, hmatel := fun p q =>
        let c := p 3; let k := p 6; let d := q 1; let m := q 5;
        -H.h2b_ovvo m d c k }]

/-- `/repo/ccpy/lib/fortran/ccsdt_p_loops.f90:3441-3465` -/
def t3bBlock22 (d : Dims) (H : Arrays) : Block where
  rng1 := (1, (d.ua : ℤ) - 2)
  rng2 := (-1, (d.ua : ℤ) - 1)
  rng3 := (2, (d.oa : ℤ) - 1)
  rng4 := (-1, (d.oa : ℤ))
  n1 := d.ua
  n2 := d.ua
  n3 := d.oa
  n4 := d.oa
  nloc := (d.ua - 1) * (d.ua - 2) / 2 * (d.oa - 1) * (d.oa - 2) / 2
  idims := [1, 2, 5, 6]
  cases := [
    { key := [1, 2, 4, 5], guarded := true, hmatel := fun p q =>
        let c := p 3; let k := p 6; let f := q 3; let l := q 4;
        H.h2b_ovvo l f c k }]

/-- `/repo/ccpy/lib/fortran/ccsdt_p_loops.f90:3470-3494` -/
def t3bBlock23 (d : Dims) (H : Arrays) : Block where
  rng1 := (1, (d.ua : ℤ) - 2)
  rng2 := (-2, (d.ua : ℤ))
  rng3 := (2, (d.oa : ℤ) - 1)
  rng4 := (-1, (d.oa : ℤ))
  n1 := d.ua
  n2 := d.ua
  n3 := d.oa
  n4 := d.oa
  nloc := (d.ua - 1) * (d.ua - 2) / 2 * (d.oa - 1) * (d.oa - 2) / 2
  idims := [1, 3, 5, 6]
  cases := [
    { key := [1, 2, 4, 5], guarded := true, hmatel := fun p q =>
        let c := p 3; let k := p 6; let e := q 2; let l := q 4;
        -H.h2b_ovvo l e c k }]

/-- `/repo/ccpy/lib/fortran/ccsdt_p_loops.f90:3499-3523` -/
def t3bBlock24 (d : Dims) (H : Arrays) : Block where
  rng1 := (2, (d.ua : ℤ) - 1)
  rng2 := (-1, (d.ua : ℤ))
  rng3 := (2, (d.oa : ℤ) - 1)
  rng4 := (-1, (d.oa : ℤ))
  n1 := d.ua
  n2 := d.ua
  n3 := d.oa
  n4 := d.oa
  nloc := (d.ua - 1) * (d.ua - 2) / 2 * (d.oa - 1) * (d.oa - 2) / 2
  idims := [2, 3, 5, 6]
  cases := [
    { key := [1, 2, 4, 5], guarded := true, hmatel := fun p q =>
        let c := p 3; let k := p 6; let d := q 1; let l := q 4;
        H.h2b_ovvo l d c k }]

/-- `/repo/ccpy/lib/fortran/ccsdt_p_loops.f90:3543-3602` -/
def t3bBlock25 (d : Dims) (H : Arrays) : Block where
  rng1 := (1, (d.ua : ℤ))
  rng2 := (2, (d.ub : ℤ))
  rng3 := (1, (d.oa : ℤ))
  rng4 := (2, (d.ob : ℤ))
  n1 := d.ua
  n2 := d.ub
  n3 := d.oa
  n4 := d.ob
  nloc := d.ua * d.ub * d.oa * d.ob
  idims := [1, 3, 4, 6]
  cases := [
    { key := [1, 3, 4, 6], guarded := true, hmatel := fun p q =>
        let b := p 2; let j := p 5; let e := q 2; let m := q 5;
        H.h2b_voov m e b j },
    { key := [2, 3, 4, 6], guarded := true, hmatel := fun p q =>
        let a := p 1; let j := p 5; let e := q 2; let m := q 5;
        -H.h2b_voov m e a j },
    { key := [1, 3, 5, 6], guarded := true, hmatel := fun p q =>
        let b := p 2; let i := p 4; let e := q 2; let m := q 5;
        -H.h2b_voov m e b i },
    { key := [2, 3, 5, 6], guarded := true, hmatel := fun p q =>
        let a := p 1; let i := p 4; let e := q 2; let m := q 5;
        H.h2b_voov m e a i }]

/-- `/repo/ccpy/lib/fortran/ccsdt_p_loops.f90:3607-3666` -/
def t3bBlock26 (d : Dims) (H : Arrays) : Block where
  rng1 := (1, (d.ua : ℤ))
  rng2 := (1, (d.ub : ℤ) - 1)
  rng3 := (1, (d.oa : ℤ))
  rng4 := (2, (d.ob : ℤ))
  n1 := d.ua
  n2 := d.ub
  n3 := d.oa
  n4 := d.ob
  nloc := d.ua * d.ub * d.oa * d.ob
  idims := [1, 2, 4, 6]
  cases := [
    { key := [1, 3, 4, 6], guarded := true, hmatel := fun p q =>
        let b := p 2; let j := p 5; let f := q 3; let m := q 5;
        -H.h2b_voov m f b j },
    { key := [2, 3, 4, 6], guarded := true, hmatel := fun p q =>
        let a := p 1; let j := p 5; let f := q 3; let m := q 5;
        H.h2b_voov m f a j },
    { key := [1, 3, 5, 6], guarded := true, hmatel := fun p q =>
        let b := p 2; let i := p 4; let f := q 3; let m := q 5;
        H.h2b_voov m f b i },
    { key := [2, 3, 5, 6], guarded := true, hmatel := fun p q =>
        let a := p 1; let i := p 4; let f := q 3; let m := q 5;
        -H.h2b_voov m f a i }]

/-- `/repo/ccpy/lib/fortran/ccsdt_p_loops.f90:3671-3730` -/
def t3bBlock27 (d : Dims) (H : Arrays) : Block where
  rng1 := (1, (d.ua : ℤ))
  rng2 := (2, (d.ub : ℤ))
  rng3 := (1, (d.oa : ℤ))
  rng4 := (1, (d.ob : ℤ) - 1)
  n1 := d.ua
  n2 := d.ub
  n3 := d.oa
  n4 := d.ob
  nloc := d.ua * d.ub * d.oa * d.ob
  idims := [1, 3, 4, 5]
  cases := [
    { key := [1, 3, 4, 6], guarded := true, hmatel := fun p q =>
        let b := p 2; let j := p 5; let e := q 2; let n := q 6;
        -H.h2b_voov n e b j },
    { key := [2, 3, 4, 6], guarded := true, hmatel := fun p q =>
        let a := p 1; let j := p 5; let e := q 2; let n := q 6;
        H.h2b_voov n e a j },
    { key := [1, 3, 5, 6], guarded := true, hmatel := fun p q =>
        let b := p 2; let i := p 4; let e := q 2; let n := q 6;
        H.h2b_voov n e b i },
    { key := [2, 3, 5, 6], guarded := true, hmatel := fun p q =>
        let a := p 1; let i := p 4; let e := q 2; let n := q 6;
        -H.h2b_voov n e a i }]

/-- `/repo/ccpy/lib/fortran/ccsdt_p_loops.f90:3735-3794` -/
def t3bBlock28 (d : Dims) (H : Arrays) : Block where
  rng1 := (1, (d.ua : ℤ))
  rng2 := (1, (d.ub : ℤ) - 1)
  rng3 := (1, (d.oa : ℤ))
  rng4 := (1, (d.ob : ℤ) - 1)
  n1 := d.ua
  n2 := d.ub
  n3 := d.oa
  n4 := d.ob
  nloc := d.ua * d.ub * d.oa * d.ob
  idims := [1, 2, 4, 5]
  cases := [
    { key := [1, 3, 4, 6], guarded := true, hmatel := fun p q =>
        let b := p 2; let j := p 5; let f := q 3; let n := q 6;
        H.h2b_voov n f b j },
    { key := [2, 3, 4, 6], guarded := true, hmatel := fun p q =>
        let a := p 1; let j := p 5; let f := q 3; let n := q 6;
        -H.h2b_voov n f a j },
    { key := [1, 3, 5, 6], guarded := true, hmatel := fun p q =>
        let b := p 2; let i := p 4; let f := q 3; let n := q 6;
        -H.h2b_voov n f b i },
    { key := [2, 3, 5, 6], guarded := true, hmatel := fun p q =>
        let a := p 1; let i := p 4; let f := q 3; let n := q 6;
        H.h2b_voov n f a i }]

/-- The arrays built first, `/repo/ccpy/lib/fortran/ccsdt_p_loops.f90:2476-2505`. -/
def t3bInter (d : Dims) (H : Arrays) (t3a t3b t3c : Buffer) : Inter where
  i2a_vooo := calcI2a_vooo d H t3a t3b (fun m a i j => (1 / 2) * H.h2a_vooo m a i j)
  i2a_vvov := calcI2a_vvov d H t3a t3b (fun m a i j => (1 / 2) * H.h2a_vvov m a i j)
  i2b_vooo := calcI2b_vooo d H t3b t3c H.h2b_vooo
  i2b_ovoo := calcI2b_ovoo d H t3b t3c H.h2b_ovoo
  i2b_vvov := calcI2b_vvov d H t3b t3c H.h2b_vvov
  i2b_vvvo := calcI2b_vvvo d H t3b t3c H.h2b_vvvo

/-- `/repo/ccpy/lib/fortran/ccsdt_p_loops.f90:3809-3817` -/
def t3bMoment1 (d : Dims) (H : Arrays) (I : Inter) (p : ℕ → ℕ) : ℚ :=
  let a := p 1; let b := p 2; let c := p 3; let i := p 4; let j := p 5; let k := p 6
  sumTo d.ua fun e =>
    I.i2b_vvvo e b c k * H.t2a e a j i
      - I.i2b_vvvo e a c k * H.t2a e b j i
/-- `/repo/ccpy/lib/fortran/ccsdt_p_loops.f90:3824-3832` -/
def t3bMoment2 (d : Dims) (H : Arrays) (I : Inter) (p : ℕ → ℕ) : ℚ :=
  let a := p 1; let b := p 2; let c := p 3; let i := p 4; let j := p 5; let k := p 6
  sumTo d.ua fun e =>
    I.i2a_vvov e a b i * H.t2b e c j k
      - I.i2a_vvov e a b j * H.t2b e c i k
/-- `/repo/ccpy/lib/fortran/ccsdt_p_loops.f90:3849-3859` -/
def t3bMoment3 (d : Dims) (H : Arrays) (I : Inter) (p : ℕ → ℕ) : ℚ :=
  let xbuf : Arr4 := fun b a j i => H.t2b a b i j
  let a := p 1; let b := p 2; let c := p 3; let i := p 4; let j := p 5; let k := p 6
  sumTo d.ub fun e =>
    I.i2b_vvov e a c i * xbuf e b k j
      - I.i2b_vvov e a c j * xbuf e b k i
      - I.i2b_vvov e b c i * xbuf e a k j
      + I.i2b_vvov e b c j * xbuf e a k i
/-- `/repo/ccpy/lib/fortran/ccsdt_p_loops.f90:3877-3885` -/
def t3bMoment4 (d : Dims) (H : Arrays) (I : Inter) (p : ℕ → ℕ) : ℚ :=
  let xbuf : Arr4 := fun j i b a => H.t2a b a j i
  let a := p 1; let b := p 2; let c := p 3; let i := p 4; let j := p 5; let k := p 6
  sumTo d.oa fun m =>
    -I.i2b_ovoo m c j k * xbuf m i b a
      + I.i2b_ovoo m c i k * xbuf m j b a
/-- `/repo/ccpy/lib/fortran/ccsdt_p_loops.f90:3903-3911` -/
def t3bMoment5 (d : Dims) (H : Arrays) (I : Inter) (p : ℕ → ℕ) : ℚ :=
  let xbuf : Arr4 := fun i j a b => H.t2b a b i j
  let a := p 1; let b := p 2; let c := p 3; let i := p 4; let j := p 5; let k := p 6
  sumTo d.oa fun m =>
    -I.i2a_vooo m a i j * xbuf m k b c
      + I.i2a_vooo m b i j * xbuf m k a c
/-- `/repo/ccpy/lib/fortran/ccsdt_p_loops.f90:3929-3939` -/
def t3bMoment6 (d : Dims) (H : Arrays) (I : Inter) (p : ℕ → ℕ) : ℚ :=
  let xbuf : Arr4 := fun j i b a => H.t2b a b i j
  let a := p 1; let b := p 2; let c := p 3; let i := p 4; let j := p 5; let k := p 6
  sumTo d.ob fun m =>
    -I.i2b_vooo m a i k * xbuf m j c b
      + I.i2b_vooo m b i k * xbuf m j c a
      + I.i2b_vooo m a j k * xbuf m i c b
      - I.i2b_vooo m b j k * xbuf m i c a

/-- `denom`, `/repo/ccpy/lib/fortran/ccsdt_p_loops.f90:3948` -/
def t3bDenom (H : Arrays) (p : ℕ → ℕ) : ℚ :=
  let a := p 1; let b := p 2; let c := p 3; let i := p 4; let j := p 5; let k := p 6
  H.fa_oo i i + H.fa_oo j j + H.fb_oo k k - H.fa_vv a a - H.fa_vv b b - H.fb_vv c c

/-- The blocks over the updated list, `/repo/ccpy/lib/fortran/ccsdt_p_loops.f90:2517-3249`. -/
def t3bBlocks (d : Dims) (H : Arrays) : List Block :=
  [t3bBlock1 d H, t3bBlock2 d H, t3bBlock3 d H, t3bBlock4 d H, t3bBlock5 d H, t3bBlock6 d H, t3bBlock7 d H, t3bBlock8 d H, t3bBlock9 d H, t3bBlock10 d H, t3bBlock11 d H, t3bBlock12 d H, t3bBlock13 d H, t3bBlock14 d H, t3bBlock15 d H]

/-- The blocks over a copy of `t3a`, `/repo/ccpy/lib/fortran/ccsdt_p_loops.f90:3267-3523`. -/
def t3bBlocksT3a (d : Dims) (H : Arrays) : List Block :=
  [t3bBlock16 d H, t3bBlock17 d H, t3bBlock18 d H, t3bBlock19 d H, t3bBlock20 d H, t3bBlock21 d H, t3bBlock22 d H, t3bBlock23 d H, t3bBlock24 d H]

/-- The blocks over a copy of `t3c`, `/repo/ccpy/lib/fortran/ccsdt_p_loops.f90:3543-3794`. -/
def t3bBlocksT3c (d : Dims) (H : Arrays) : List Block :=
  [t3bBlock25 d H, t3bBlock26 d H, t3bBlock27 d H, t3bBlock28 d H]

/-- `update_t3b_p`, `/repo/ccpy/lib/fortran/ccsdt_p_loops.f90:2387-3958`. -/
def updateT3b (d : Dims) (H : Arrays) (t3a t3b t3c : Buffer) : Option State := do
  let I := t3bInter d H t3a t3b t3c
  let s : State := ⟨t3b.excits, t3b.amps, t3b.excits.map fun _ => 0⟩
  let s ← runOwn (t3bBlocks d H) s
  let s ← runOther (t3bBlocksT3a d H) s t3a
  let s ← runOther (t3bBlocksT3c d H) s t3c
  let s := s.addMoment (t3bMoment1 d H I)
  let s := s.addMoment (t3bMoment2 d H I)
  let s := s.addMoment (t3bMoment3 d H I)
  let s := s.addMoment (t3bMoment4 d H I)
  let s := s.addMoment (t3bMoment5 d H I)
  let s := s.addMoment (t3bMoment6 d H I)
  some (s.finish H.shift (t3bDenom H))
end Ccpy.PSpace
