import Verif.Model.PSpaceInter

/-! The kernel `update_t3a_p`, block by block. -/

namespace Ccpy.PSpace

/-- `/repo/ccpy/lib/fortran/ccsdt_p_loops.f90:642-710` -/
def t3aBlock1 (d : Dims) (H : Arrays) : Block where
  rng1 := (1, (d.ua : ℤ) - 2)
  rng2 := (-1, (d.ua : ℤ) - 1)
  rng3 := (-1, (d.ua : ℤ))
  rng4 := (3, (d.oa : ℤ))
  n1 := d.ua
  n2 := d.ua
  n3 := d.ua
  n4 := d.oa
  nloc := d.ua * (d.ua - 1) * (d.ua - 2) / 6 * d.oa
  idims := [1, 2, 3, 6]
  cases := [
    { key := [1, 2, 3, 6], guarded := false, hmatel := fun p q =>
        let i := p 4; let j := p 5; let l := q 4; let m := q 5;
        let hmatel : ℚ := H.h2a_oooo m l j i;
        let hmatel1 : ℚ := if m = j then -H.h1a_oo l i else 0;
        let hmatel2 : ℚ := if m = i then H.h1a_oo l j else 0;
        let hmatel3 : ℚ := if l = j then H.h1a_oo m i else 0;
        let hmatel4 : ℚ := if l = i then -H.h1a_oo m j else 0;
        let hmatel : ℚ := hmatel + (1 / 2) * (hmatel1 + hmatel2 + hmatel3 + hmatel4);
        hmatel },
    { key := [1, 2, 3, 4], guarded := true, hmatel := fun p q =>
        let j := p 5; let k := p 6; let l := q 4; let m := q 5;
        let hmatel : ℚ := H.h2a_oooo m l k j;
        let hmatel1 : ℚ := if m = j then H.h1a_oo l k else 0;
        let hmatel2 : ℚ := if m = k then -H.h1a_oo l j else 0;
        let hmatel3 : ℚ := if l = j then -H.h1a_oo m k else 0;
        let hmatel4 : ℚ := if l = k then H.h1a_oo m j else 0;
        let hmatel : ℚ := hmatel + (1 / 2) * (hmatel1 + hmatel2 + hmatel3 + hmatel4);
        hmatel },
    { key := [1, 2, 3, 5], guarded := true, hmatel := fun p q =>
        let i := p 4; let k := p 6; let l := q 4; let m := q 5;
        let hmatel : ℚ := -H.h2a_oooo m l k i;
        let hmatel1 : ℚ := if m = k then H.h1a_oo l i else 0;
        let hmatel2 : ℚ := if m = i then -H.h1a_oo l k else 0;
        let hmatel3 : ℚ := if l = k then -H.h1a_oo m i else 0;
        let hmatel4 : ℚ := if l = i then H.h1a_oo m k else 0;
        let hmatel : ℚ := hmatel + (1 / 2) * (hmatel1 + hmatel2 + hmatel3 + hmatel4);
        hmatel }]

/-- `/repo/ccpy/lib/fortran/ccsdt_p_loops.f90:715-783` -/
def t3aBlock2 (d : Dims) (H : Arrays) : Block where
  rng1 := (1, (d.ua : ℤ) - 2)
  rng2 := (-1, (d.ua : ℤ) - 1)
  rng3 := (-1, (d.ua : ℤ))
  rng4 := (1, (d.oa : ℤ) - 2)
  n1 := d.ua
  n2 := d.ua
  n3 := d.ua
  n4 := d.oa
  nloc := d.ua * (d.ua - 1) * (d.ua - 2) / 6 * d.oa
  idims := [1, 2, 3, 4]
  cases := [
    { key := [1, 2, 3, 4], guarded := false, hmatel := fun p q =>
        let j := p 5; let k := p 6; let m := q 5; let n := q 6;
        let hmatel : ℚ := H.h2a_oooo n m k j;
        let hmatel1 : ℚ := if n = k then -H.h1a_oo m j else 0;
        let hmatel2 : ℚ := if n = j then H.h1a_oo m k else 0;
        let hmatel3 : ℚ := if m = k then H.h1a_oo n j else 0;
        let hmatel4 : ℚ := if m = j then -H.h1a_oo n k else 0;
        let hmatel : ℚ := hmatel + (1 / 2) * (hmatel1 + hmatel2 + hmatel3 + hmatel4);
        hmatel },
    { key := [1, 2, 3, 5], guarded := true, hmatel := fun p q =>
        let i := p 4; let k := p 6; let m := q 5; let n := q 6;
        let hmatel : ℚ := -H.h2a_oooo n m k i;
        let hmatel1 : ℚ := if n = k then H.h1a_oo m i else 0;
        let hmatel2 : ℚ := if n = i then -H.h1a_oo m k else 0;
        let hmatel3 : ℚ := if m = k then -H.h1a_oo n i else 0;
        let hmatel4 : ℚ := if m = i then H.h1a_oo n k else 0;
        let hmatel : ℚ := hmatel + (1 / 2) * (hmatel1 + hmatel2 + hmatel3 + hmatel4);
        hmatel },
    { key := [1, 2, 3, 6], guarded := true, hmatel := fun p q =>
        let i := p 4; let j := p 5; let m := q 5; let n := q 6;
        let hmatel : ℚ := H.h2a_oooo n m j i;
        let hmatel1 : ℚ := if n = i then -H.h1a_oo m j else 0;
        let hmatel2 : ℚ := if n = j then H.h1a_oo m i else 0;
        let hmatel3 : ℚ := if m = i then H.h1a_oo n j else 0;
        let hmatel4 : ℚ := if m = j then -H.h1a_oo n i else 0;
        let hmatel : ℚ := hmatel + (1 / 2) * (hmatel1 + hmatel2 + hmatel3 + hmatel4);
        hmatel }]

/-- `/repo/ccpy/lib/fortran/ccsdt_p_loops.f90:788-856` -/
def t3aBlock3 (d : Dims) (H : Arrays) : Block where
  rng1 := (1, (d.ua : ℤ) - 2)
  rng2 := (-1, (d.ua : ℤ) - 1)
  rng3 := (-1, (d.ua : ℤ))
  rng4 := (2, (d.oa : ℤ) - 1)
  n1 := d.ua
  n2 := d.ua
  n3 := d.ua
  n4 := d.oa
  nloc := d.ua * (d.ua - 1) * (d.ua - 2) / 6 * d.oa
  idims := [1, 2, 3, 5]
  cases := [
    { key := [1, 2, 3, 5], guarded := false, hmatel := fun p q =>
        let i := p 4; let k := p 6; let l := q 4; let n := q 6;
        let hmatel : ℚ := H.h2a_oooo n l k i;
        let hmatel1 : ℚ := if n = k then -H.h1a_oo l i else 0;
        let hmatel2 : ℚ := if n = i then H.h1a_oo l k else 0;
        let hmatel3 : ℚ := if l = k then H.h1a_oo n i else 0;
        let hmatel4 : ℚ := if l = i then -H.h1a_oo n k else 0;
        let hmatel : ℚ := hmatel + (1 / 2) * (hmatel1 + hmatel2 + hmatel3 + hmatel4);
        hmatel },
    { key := [1, 2, 3, 4], guarded := true, hmatel := fun p q =>
        let j := p 5; let k := p 6; let l := q 4; let n := q 6;
        let hmatel : ℚ := -H.h2a_oooo n l k j;
        let hmatel1 : ℚ := if n = k then H.h1a_oo l j else 0;
        let hmatel2 : ℚ := if n = j then -H.h1a_oo l k else 0;
        let hmatel3 : ℚ := if l = k then -H.h1a_oo n j else 0;
        let hmatel4 : ℚ := if l = j then H.h1a_oo n k else 0;
        let hmatel : ℚ := hmatel + (1 / 2) * (hmatel1 + hmatel2 + hmatel3 + hmatel4);
        hmatel },
    { key := [1, 2, 3, 6], guarded := true, hmatel := fun p q =>
        let i := p 4; let j := p 5; let l := q 4; let n := q 6;
        let hmatel : ℚ := -H.h2a_oooo n l j i;
        let hmatel1 : ℚ := if n = j then H.h1a_oo l i else 0;
        let hmatel2 : ℚ := if n = i then -H.h1a_oo l j else 0;
        let hmatel3 : ℚ := if l = j then -H.h1a_oo n i else 0;
        let hmatel4 : ℚ := if l = i then H.h1a_oo n j else 0;
        let hmatel : ℚ := hmatel + (1 / 2) * (hmatel1 + hmatel2 + hmatel3 + hmatel4);
        hmatel }]

/-- `/repo/ccpy/lib/fortran/ccsdt_p_loops.f90:871-942` -/
def t3aBlock4 (d : Dims) (H : Arrays) : Block where
  rng1 := (1, (d.oa : ℤ) - 2)
  rng2 := (-1, (d.oa : ℤ) - 1)
  rng3 := (-1, (d.oa : ℤ))
  rng4 := (1, (d.ua : ℤ) - 2)
  n1 := d.oa
  n2 := d.oa
  n3 := d.oa
  n4 := d.ua
  nloc := d.oa * (d.oa - 1) * (d.oa - 2) / 6 * d.ua
  idims := [4, 5, 6, 1]
  cases := [
    { key := [4, 5, 6, 1], guarded := false, hmatel := fun p q =>
        let b := p 2; let c := p 3; let e := q 2; let f := q 3;
        let hmatel : ℚ := H.h2a_vvvv f e c b;
        let hmatel1 : ℚ := if c = f then H.h1a_vv e b else 0;
        let hmatel2 : ℚ := if b = f then -H.h1a_vv e c else 0;
        let hmatel3 : ℚ := if c = e then -H.h1a_vv f b else 0;
        let hmatel4 : ℚ := if b = e then H.h1a_vv f c else 0;
        let hmatel : ℚ := hmatel + (1 / 2) * (hmatel1 + hmatel2 + hmatel3 + hmatel4);
        hmatel },
    { key := [4, 5, 6, 2], guarded := true, hmatel := fun p q =>
        let a := p 1; let c := p 3; let e := q 2; let f := q 3;
        let hmatel : ℚ := -H.h2a_vvvv f e c a;
        let hmatel1 : ℚ := if c = f then -H.h1a_vv e a else 0;
        let hmatel2 : ℚ := if a = f then H.h1a_vv e c else 0;
        let hmatel3 : ℚ := if c = e then H.h1a_vv f a else 0;
        let hmatel4 : ℚ := if a = e then -H.h1a_vv f c else 0;
        let hmatel : ℚ := hmatel + (1 / 2) * (hmatel1 + hmatel2 + hmatel3 + hmatel4);
        hmatel },
    { key := [4, 5, 6, 3], guarded := true, hmatel := fun p q =>
        let a := p 1; let b := p 2; let e := q 2; let f := q 3;
        let hmatel : ℚ := H.h2a_vvvv f e b a;
        let hmatel1 : ℚ := if a = f then -H.h1a_vv e b else 0;
        let hmatel2 : ℚ := if b = f then H.h1a_vv e a else 0;
        let hmatel3 : ℚ := if a = e then H.h1a_vv f b else 0;
        let hmatel4 : ℚ := if b = e then -H.h1a_vv f a else 0;
        let hmatel : ℚ := hmatel + (1 / 2) * (hmatel1 + hmatel2 + hmatel3 + hmatel4);
        hmatel }]

/-- `/repo/ccpy/lib/fortran/ccsdt_p_loops.f90:947-1018` -/
def t3aBlock5 (d : Dims) (H : Arrays) : Block where
  rng1 := (1, (d.oa : ℤ) - 2)
  rng2 := (-1, (d.oa : ℤ) - 1)
  rng3 := (-1, (d.oa : ℤ))
  rng4 := (2, (d.ua : ℤ) - 1)
  n1 := d.oa
  n2 := d.oa
  n3 := d.oa
  n4 := d.ua
  nloc := d.oa * (d.oa - 1) * (d.oa - 2) / 6 * d.ua
  idims := [4, 5, 6, 2]
  cases := [
    { key := [4, 5, 6, 2], guarded := false, hmatel := fun p q =>
        let a := p 1; let c := p 3; let d := q 1; let f := q 3;
        let hmatel : ℚ := H.h2a_vvvv f d c a;
        let hmatel1 : ℚ := if c = f then H.h1a_vv d a else 0;
        let hmatel2 : ℚ := if a = f then -H.h1a_vv d c else 0;
        let hmatel3 : ℚ := if c = d then -H.h1a_vv f a else 0;
        let hmatel4 : ℚ := if a = d then H.h1a_vv f c else 0;
        let hmatel : ℚ := hmatel + (1 / 2) * (hmatel1 + hmatel2 + hmatel3 + hmatel4);
        hmatel },
    { key := [4, 5, 6, 1], guarded := true, hmatel := fun p q =>
        let b := p 2; let c := p 3; let d := q 1; let f := q 3;
        let hmatel : ℚ := -H.h2a_vvvv f d c b;
        let hmatel1 : ℚ := if c = f then -H.h1a_vv d b else 0;
        let hmatel2 : ℚ := if b = f then H.h1a_vv d c else 0;
        let hmatel3 : ℚ := if c = d then H.h1a_vv f b else 0;
        let hmatel4 : ℚ := if b = d then -H.h1a_vv f c else 0;
        let hmatel : ℚ := hmatel + (1 / 2) * (hmatel1 + hmatel2 + hmatel3 + hmatel4);
        hmatel },
    { key := [4, 5, 6, 3], guarded := true, hmatel := fun p q =>
        let a := p 1; let b := p 2; let d := q 1; let f := q 3;
        let hmatel : ℚ := -H.h2a_vvvv f d b a;
        let hmatel1 : ℚ := if b = f then -H.h1a_vv d a else 0;
        let hmatel2 : ℚ := if a = f then H.h1a_vv d b else 0;
        let hmatel3 : ℚ := if b = d then H.h1a_vv f a else 0;
        let hmatel4 : ℚ := if a = d then -H.h1a_vv f b else 0;
        let hmatel : ℚ := hmatel + (1 / 2) * (hmatel1 + hmatel2 + hmatel3 + hmatel4);
        hmatel }]

/-- `/repo/ccpy/lib/fortran/ccsdt_p_loops.f90:1023-1094` -/
def t3aBlock6 (d : Dims) (H : Arrays) : Block where
  rng1 := (1, (d.oa : ℤ) - 2)
  rng2 := (-1, (d.oa : ℤ) - 1)
  rng3 := (-1, (d.oa : ℤ))
  rng4 := (3, (d.ua : ℤ))
  n1 := d.oa
  n2 := d.oa
  n3 := d.oa
  n4 := d.ua
  nloc := d.oa * (d.oa - 1) * (d.oa - 2) / 6 * d.ua
  idims := [4, 5, 6, 3]
  cases := [
    { key := [4, 5, 6, 3], guarded := false, hmatel := fun p q =>
        let a := p 1; let b := p 2; let d := q 1; let e := q 2;
        let hmatel : ℚ := H.h2a_vvvv e d b a;
        let hmatel1 : ℚ := if b = e then H.h1a_vv d a else 0;
        let hmatel2 : ℚ := if a = e then -H.h1a_vv d b else 0;
        let hmatel3 : ℚ := if b = d then -H.h1a_vv e a else 0;
        let hmatel4 : ℚ := if a = d then H.h1a_vv e b else 0;
        let hmatel : ℚ := hmatel + (1 / 2) * (hmatel1 + hmatel2 + hmatel3 + hmatel4);
        hmatel },
    { key := [4, 5, 6, 1], guarded := true, hmatel := fun p q =>
        let b := p 2; let c := p 3; let d := q 1; let e := q 2;
        let hmatel : ℚ := H.h2a_vvvv e d c b;
        let hmatel1 : ℚ := if b = e then -H.h1a_vv d c else 0;
        let hmatel2 : ℚ := if c = e then H.h1a_vv d b else 0;
        let hmatel3 : ℚ := if b = d then H.h1a_vv e c else 0;
        let hmatel4 : ℚ := if c = d then -H.h1a_vv e b else 0;
        let hmatel : ℚ := hmatel + (1 / 2) * (hmatel1 + hmatel2 + hmatel3 + hmatel4);
        hmatel },
    { key := [4, 5, 6, 2], guarded := true, hmatel := fun p q =>
        let a := p 1; let c := p 3; let d := q 1; let e := q 2;
        let hmatel : ℚ := -H.h2a_vvvv e d c a;
        let hmatel1 : ℚ := if c = e then -H.h1a_vv d a else 0;
        let hmatel2 : ℚ := if a = e then H.h1a_vv d c else 0;
        let hmatel3 : ℚ := if c = d then H.h1a_vv e a else 0;
        let hmatel4 : ℚ := if a = d then -H.h1a_vv e c else 0;
        let hmatel : ℚ := hmatel + (1 / 2) * (hmatel1 + hmatel2 + hmatel3 + hmatel4);
        hmatel }]

/-- `/repo/ccpy/lib/fortran/ccsdt_p_loops.f90:1107-1221` -/
def t3aBlock7 (d : Dims) (H : Arrays) : Block where
  rng1 := (1, (d.ua : ℤ) - 2)
  rng2 := (-1, (d.ua : ℤ) - 1)
  rng3 := (1, (d.oa : ℤ) - 2)
  rng4 := (-1, (d.oa : ℤ) - 1)
  n1 := d.ua
  n2 := d.ua
  n3 := d.oa
  n4 := d.oa
  nloc := (d.ua - 1) * (d.ua - 2) / 2 * (d.oa - 1) * (d.oa - 2) / 2
  idims := [1, 2, 4, 5]
  cases := [
    { key := [1, 2, 4, 5], guarded := true, hmatel := fun p q =>
        let c := p 3; let k := p 6; let f := q 3; let n := q 6;
        H.h2a_voov n f c k },
    { key := [2, 3, 4, 5], guarded := true, hmatel := fun p q =>
        let a := p 1; let k := p 6; let f := q 3; let n := q 6;
        H.h2a_voov n f a k },
    { key := [1, 3, 4, 5], guarded := true, hmatel := fun p q =>
        let b := p 2; let k := p 6; let f := q 3; let n := q 6;
        -H.h2a_voov n f b k },
    { key := [1, 2, 5, 6], guarded := true, hmatel := fun p q =>
        let c := p 3; let i := p 4; let f := q 3; let n := q 6;
        H.h2a_voov n f c i },
    { key := [2, 3, 5, 6], guarded := true, hmatel := fun p q =>
        let a := p 1; let i := p 4; let f := q 3; let n := q 6;
        H.h2a_voov n f a i },
    { key := [1, 3, 5, 6], guarded := true, hmatel := fun p q =>
        let b := p 2; let i := p 4; let f := q 3; let n := q 6;
        -H.h2a_voov n f b i },
    { key := [1, 2, 4, 6], guarded := true, hmatel := fun p q =>
        let c := p 3; let j := p 5; let f := q 3; let n := q 6;
        -H.h2a_voov n f c j },
    { key := [2, 3, 4, 6], guarded := true, hmatel := fun p q =>
        let a := p 1; let j := p 5; let f := q 3; let n := q 6;
        -H.h2a_voov n f a j },
    { key := [1, 3, 4, 6], guarded := true, hmatel := fun p q =>
        let b := p 2; let j := p 5; let f := q 3; let n := q 6;
        H.h2a_voov n f b j }]

/-- `/repo/ccpy/lib/fortran/ccsdt_p_loops.f90:1226-1340` -/
def t3aBlock8 (d : Dims) (H : Arrays) : Block where
  rng1 := (1, (d.ua : ℤ) - 2)
  rng2 := (-2, (d.ua : ℤ))
  rng3 := (1, (d.oa : ℤ) - 2)
  rng4 := (-1, (d.oa : ℤ) - 1)
  n1 := d.ua
  n2 := d.ua
  n3 := d.oa
  n4 := d.oa
  nloc := (d.ua - 1) * (d.ua - 2) / 2 * (d.oa - 1) * (d.oa - 2) / 2
  idims := [1, 3, 4, 5]
  cases := [
    { key := [1, 3, 4, 5], guarded := true, hmatel := fun p q =>
        let b := p 2; let k := p 6; let e := q 2; let n := q 6;
        H.h2a_voov n e b k },
    { key := [2, 3, 4, 5], guarded := true, hmatel := fun p q =>
        let a := p 1; let k := p 6; let e := q 2; let n := q 6;
        -H.h2a_voov n e a k },
    { key := [1, 2, 4, 5], guarded := true, hmatel := fun p q =>
        let c := p 3; let k := p 6; let e := q 2; let n := q 6;
        -H.h2a_voov n e c k },
    { key := [1, 3, 5, 6], guarded := true, hmatel := fun p q =>
        let b := p 2; let i := p 4; let e := q 2; let n := q 6;
        H.h2a_voov n e b i },
    { key := [2, 3, 5, 6], guarded := true, hmatel := fun p q =>
        let a := p 1; let i := p 4; let e := q 2; let n := q 6;
        -H.h2a_voov n e a i },
    { key := [1, 2, 5, 6], guarded := true, hmatel := fun p q =>
        let c := p 3; let i := p 4; let e := q 2; let n := q 6;
        -H.h2a_voov n e c i },
    { key := [1, 3, 4, 6], guarded := true, hmatel := fun p q =>
        let b := p 2; let j := p 5; let e := q 2; let n := q 6;
        -H.h2a_voov n e b j },
    { key := [2, 3, 4, 6], guarded := true, hmatel := fun p q =>
        let a := p 1; let j := p 5; let e := q 2; let n := q 6;
        H.h2a_voov n e a j },
    { key := [1, 2, 4, 6], guarded := true, hmatel := fun p q =>
        let c := p 3; let j := p 5; let e := q 2; let n := q 6;
        H.h2a_voov n e c j }]

/-- `/repo/ccpy/lib/fortran/ccsdt_p_loops.f90:1345-1459` -/
def t3aBlock9 (d : Dims) (H : Arrays) : Block where
  rng1 := (2, (d.ua : ℤ) - 1)
  rng2 := (-1, (d.ua : ℤ))
  rng3 := (1, (d.oa : ℤ) - 2)
  rng4 := (-1, (d.oa : ℤ) - 1)
  n1 := d.ua
  n2 := d.ua
  n3 := d.oa
  n4 := d.oa
  nloc := (d.ua - 1) * (d.ua - 2) / 2 * (d.oa - 1) * (d.oa - 2) / 2
  idims := [2, 3, 4, 5]
  cases := [
    { key := [2, 3, 4, 5], guarded := true, hmatel := fun p q =>
        let a := p 1; let k := p 6; let d := q 1; let n := q 6;
        H.h2a_voov n d a k },
    { key := [1, 3, 4, 5], guarded := true, hmatel := fun p q =>
        let b := p 2; let k := p 6; let d := q 1; let n := q 6;
        -H.h2a_voov n d b k },
    { key := [1, 2, 4, 5], guarded := true, hmatel := fun p q =>
        let c := p 3; let k := p 6; let d := q 1; let n := q 6;
        H.h2a_voov n d c k },
    { key := [2, 3, 5, 6], guarded := true, hmatel := fun p q =>
        let a := p 1; let i := p 4; let d := q 1; let n := q 6;
        H.h2a_voov n d a i },
    { key := [1, 3, 5, 6], guarded := true, hmatel := fun p q =>
        let b := p 2; let i := p 4; let d := q 1; let n := q 6;
        -H.h2a_voov n d b i },
    { key := [1, 2, 5, 6], guarded := true, hmatel := fun p q =>
        let c := p 3; let i := p 4; let d := q 1; let n := q 6;
        H.h2a_voov n d c i },
    { key := [2, 3, 4, 6], guarded := true, hmatel := fun p q =>
        let a := p 1; let j := p 5; let d := q 1; let n := q 6;
        -H.h2a_voov n d a j },
    { key := [1, 3, 4, 6], guarded := true, hmatel := fun p q =>
        let b := p 2; let j := p 5; let d := q 1; let n := q 6;
        H.h2a_voov n d b j },
    { key := [1, 2, 4, 6], guarded := true, hmatel := fun p q =>
        let c := p 3; let j := p 5; let d := q 1; let n := q 6;
        -H.h2a_voov n d c j }]

/-- `/repo/ccpy/lib/fortran/ccsdt_p_loops.f90:1464-1578` -/
def t3aBlock10 (d : Dims) (H : Arrays) : Block where
  rng1 := (1, (d.ua : ℤ) - 2)
  rng2 := (-1, (d.ua : ℤ) - 1)
  rng3 := (1, (d.oa : ℤ) - 2)
  rng4 := (-2, (d.oa : ℤ))
  n1 := d.ua
  n2 := d.ua
  n3 := d.oa
  n4 := d.oa
  nloc := (d.ua - 1) * (d.ua - 2) / 2 * (d.oa - 1) * (d.oa - 2) / 2
  idims := [1, 2, 4, 6]
  cases := [
    { key := [1, 2, 4, 6], guarded := true, hmatel := fun p q =>
        let c := p 3; let j := p 5; let f := q 3; let m := q 5;
        H.h2a_voov m f c j },
    { key := [2, 3, 4, 6], guarded := true, hmatel := fun p q =>
        let a := p 1; let j := p 5; let f := q 3; let m := q 5;
        H.h2a_voov m f a j },
    { key := [1, 3, 4, 6], guarded := true, hmatel := fun p q =>
        let b := p 2; let j := p 5; let f := q 3; let m := q 5;
        -H.h2a_voov m f b j },
    { key := [1, 2, 5, 6], guarded := true, hmatel := fun p q =>
        let c := p 3; let i := p 4; let f := q 3; let m := q 5;
        -H.h2a_voov m f c i },
    { key := [2, 3, 5, 6], guarded := true, hmatel := fun p q =>
        let a := p 1; let i := p 4; let f := q 3; let m := q 5;
        -H.h2a_voov m f a i },
    { key := [1, 3, 5, 6], guarded := true, hmatel := fun p q =>
        let b := p 2; let i := p 4; let f := q 3; let m := q 5;
        H.h2a_voov m f b i },
    { key := [1, 2, 4, 5], guarded := true, hmatel := fun p q =>
        let c := p 3; let k := p 6; let f := q 3; let m := q 5;
        -H.h2a_voov m f c k },
    { key := [2, 3, 4, 5], guarded := true, hmatel := fun p q =>
        let a := p 1; let k := p 6; let f := q 3; let m := q 5;
        -H.h2a_voov m f a k },
    { key := [1, 3, 4, 5], guarded := true, hmatel := fun p q =>
        let b := p 2; let k := p 6; let f := q 3; let m := q 5;
        H.h2a_voov m f b k }]

/-- `/repo/ccpy/lib/fortran/ccsdt_p_loops.f90:1583-1697` -/
def t3aBlock11 (d : Dims) (H : Arrays) : Block where
  rng1 := (1, (d.ua : ℤ) - 2)
  rng2 := (-2, (d.ua : ℤ))
  rng3 := (1, (d.oa : ℤ) - 2)
  rng4 := (-2, (d.oa : ℤ))
  n1 := d.ua
  n2 := d.ua
  n3 := d.oa
  n4 := d.oa
  nloc := (d.ua - 1) * (d.ua - 2) / 2 * (d.oa - 1) * (d.oa - 2) / 2
  idims := [1, 3, 4, 6]
  cases := [
    { key := [1, 3, 4, 6], guarded := true, hmatel := fun p q =>
        let b := p 2; let j := p 5; let e := q 2; let m := q 5;
        H.h2a_voov m e b j },
    { key := [2, 3, 4, 6], guarded := true, hmatel := fun p q =>
        let a := p 1; let j := p 5; let e := q 2; let m := q 5;
        -H.h2a_voov m e a j },
    { key := [1, 2, 4, 6], guarded := true, hmatel := fun p q =>
        let c := p 3; let j := p 5; let e := q 2; let m := q 5;
        -H.h2a_voov m e c j },
    { key := [1, 3, 5, 6], guarded := true, hmatel := fun p q =>
        let b := p 2; let i := p 4; let e := q 2; let m := q 5;
        -H.h2a_voov m e b i },
    { key := [2, 3, 5, 6], guarded := true, hmatel := fun p q =>
        let a := p 1; let i := p 4; let e := q 2; let m := q 5;
        H.h2a_voov m e a i },
    { key := [1, 2, 5, 6], guarded := true, hmatel := fun p q =>
        let c := p 3; let i := p 4; let e := q 2; let m := q 5;
        H.h2a_voov m e c i },
    { key := [1, 3, 4, 5], guarded := true, hmatel := fun p q =>
        let b := p 2; let k := p 6; let e := q 2; let m := q 5;
        -H.h2a_voov m e b k },
    { key := [2, 3, 4, 5], guarded := true, hmatel := fun p q =>
        let a := p 1; let k := p 6; let e := q 2; let m := q 5;
        H.h2a_voov m e a k },
    { key := [1, 2, 4, 5], guarded := true, hmatel := fun p q =>
        let c := p 3; let k := p 6; let e := q 2; let m := q 5;
        H.h2a_voov m e c k }]

/-- `/repo/ccpy/lib/fortran/ccsdt_p_loops.f90:1702-1816` -/
def t3aBlock12 (d : Dims) (H : Arrays) : Block where
  rng1 := (2, (d.ua : ℤ) - 1)
  rng2 := (-1, (d.ua : ℤ))
  rng3 := (1, (d.oa : ℤ) - 2)
  rng4 := (-2, (d.oa : ℤ))
  n1 := d.ua
  n2 := d.ua
  n3 := d.oa
  n4 := d.oa
  nloc := (d.ua - 1) * (d.ua - 2) / 2 * (d.oa - 1) * (d.oa - 2) / 2
  idims := [2, 3, 4, 6]
  cases := [
    { key := [2, 3, 4, 6], guarded := true, hmatel := fun p q =>
        let a := p 1; let j := p 5; let d := q 1; let m := q 5;
        H.h2a_voov m d a j },
    { key := [1, 3, 4, 6], guarded := true, hmatel := fun p q =>
        let b := p 2; let j := p 5; let d := q 1; let m := q 5;
        -H.h2a_voov m d b j },
    { key := [1, 2, 4, 6], guarded := true, hmatel := fun p q =>
        let c := p 3; let j := p 5; let d := q 1; let m := q 5;
        H.h2a_voov m d c j },
    { key := [2, 3, 5, 6], guarded := true, hmatel := fun p q =>
        let a := p 1; let i := p 4; let d := q 1; let m := q 5;
        -H.h2a_voov m d a i },
    { key := [1, 3, 5, 6], guarded := true, hmatel := fun p q =>
        let b := p 2; let i := p 4; let d := q 1; let m := q 5;
        H.h2a_voov m d b i },
    { key := [1, 2, 5, 6], guarded := true, hmatel := fun p q =>
        let c := p 3; let i := p 4; let d := q 1; let m := q 5;
        -H.h2a_voov m d c i },
    { key := [2, 3, 4, 5], guarded := true, hmatel := fun p q =>
        let a := p 1; let k := p 6; let d := q 1; let m := q 5;
        -H.h2a_voov m d a k },
    { key := [1, 3, 4, 5], guarded := true, hmatel := fun p q =>
        let b := p 2; let k := p 6; let d := q 1; let m := q 5;
        H.h2a_voov m d b k },
    { key := [1, 2, 4, 5], guarded := true, hmatel := fun p q =>
        let c := p 3; let k := p 6; let d := q 1; let m := q 5;
        -H.h2a_voov m d c k }]

/-- `/repo/ccpy/lib/fortran/ccsdt_p_loops.f90:1821-1935` -/
def t3aBlock13 (d : Dims) (H : Arrays) : Block where
  rng1 := (1, (d.ua : ℤ) - 2)
  rng2 := (-1, (d.ua : ℤ) - 1)
  rng3 := (2, (d.oa : ℤ) - 1)
  rng4 := (-1, (d.oa : ℤ))
  n1 := d.ua
  n2 := d.ua
  n3 := d.oa
  n4 := d.oa
  nloc := (d.ua - 1) * (d.ua - 2) / 2 * (d.oa - 1) * (d.oa - 2) / 2
  idims := [1, 2, 5, 6]
  cases := [
    { key := [1, 2, 5, 6], guarded := true, hmatel := fun p q =>
        let c := p 3; let i := p 4; let f := q 3; let l := q 4;
        H.h2a_voov l f c i },
    { key := [2, 3, 5, 6], guarded := true, hmatel := fun p q =>
        let a := p 1; let i := p 4; let f := q 3; let l := q 4;
        H.h2a_voov l f a i },
    { key := [1, 3, 5, 6], guarded := true, hmatel := fun p q =>
        let b := p 2; let i := p 4; let f := q 3; let l := q 4;
        -H.h2a_voov l f b i },
    { key := [1, 2, 4, 6], guarded := true, hmatel := fun p q =>
        let c := p 3; let j := p 5; let f := q 3; let l := q 4;
        -H.h2a_voov l f c j },
    { key := [2, 3, 4, 6], guarded := true, hmatel := fun p q =>
        let a := p 1; let j := p 5; let f := q 3; let l := q 4;
        -H.h2a_voov l f a j },
    { key := [1, 3, 4, 6], guarded := true, hmatel := fun p q =>
        let b := p 2; let j := p 5; let f := q 3; let l := q 4;
        H.h2a_voov l f b j },
    { key := [1, 2, 4, 5], guarded := true, hmatel := fun p q =>
        let c := p 3; let k := p 6; let f := q 3; let l := q 4;
        H.h2a_voov l f c k },
    { key := [2, 3, 4, 5], guarded := true, hmatel := fun p q =>
        let a := p 1; let k := p 6; let f := q 3; let l := q 4;
        H.h2a_voov l f a k },
    { key := [1, 3, 4, 5], guarded := true, hmatel := fun p q =>
        let b := p 2; let k := p 6; let f := q 3; let l := q 4;
        -H.h2a_voov l f b k }]

/-- `/repo/ccpy/lib/fortran/ccsdt_p_loops.f90:1940-2054` -/
def t3aBlock14 (d : Dims) (H : Arrays) : Block where
  rng1 := (1, (d.ua : ℤ) - 2)
  rng2 := (-2, (d.ua : ℤ))
  rng3 := (2, (d.oa : ℤ) - 1)
  rng4 := (-1, (d.oa : ℤ))
  n1 := d.ua
  n2 := d.ua
  n3 := d.oa
  n4 := d.oa
  nloc := (d.ua - 1) * (d.ua - 2) / 2 * (d.oa - 1) * (d.oa - 2) / 2
  idims := [1, 3, 5, 6]
  cases := [
    { key := [1, 3, 5, 6], guarded := true, hmatel := fun p q =>
        let b := p 2; let i := p 4; let e := q 2; let l := q 4;
        H.h2a_voov l e b i },
    { key := [2, 3, 5, 6], guarded := true, hmatel := fun p q =>
        let a := p 1; let i := p 4; let e := q 2; let l := q 4;
        -H.h2a_voov l e a i },
    { key := [1, 2, 5, 6], guarded := true, hmatel := fun p q =>
        let c := p 3; let i := p 4; let e := q 2; let l := q 4;
        -H.h2a_voov l e c i },
    { key := [1, 3, 4, 6], guarded := true, hmatel := fun p q =>
        let b := p 2; let j := p 5; let e := q 2; let l := q 4;
        -H.h2a_voov l e b j },
    { key := [2, 3, 4, 6], guarded := true, hmatel := fun p q =>
        let a := p 1; let j := p 5; let e := q 2; let l := q 4;
        H.h2a_voov l e a j },
    { key := [1, 2, 4, 6], guarded := true, hmatel := fun p q =>
        let c := p 3; let j := p 5; let e := q 2; let l := q 4;
        H.h2a_voov l e c j },
    { key := [1, 3, 4, 5], guarded := true, hmatel := fun p q =>
        let b := p 2; let k := p 6; let e := q 2; let l := q 4;
        H.h2a_voov l e b k },
    { key := [2, 3, 4, 5], guarded := true, hmatel := fun p q =>
        let a := p 1; let k := p 6; let e := q 2; let l := q 4;
        -H.h2a_voov l e a k },
    { key := [1, 2, 4, 5], guarded := true, hmatel := fun p q =>
        let c := p 3; let k := p 6; let e := q 2; let l := q 4;
        -H.h2a_voov l e c k }]

/-- `/repo/ccpy/lib/fortran/ccsdt_p_loops.f90:2059-2173` -/
def t3aBlock15 (d : Dims) (H : Arrays) : Block where
  rng1 := (2, (d.ua : ℤ) - 1)
  rng2 := (-1, (d.ua : ℤ))
  rng3 := (2, (d.oa : ℤ) - 1)
  rng4 := (-1, (d.oa : ℤ))
  n1 := d.ua
  n2 := d.ua
  n3 := d.oa
  n4 := d.oa
  nloc := (d.ua - 1) * (d.ua - 2) / 2 * (d.oa - 1) * (d.oa - 2) / 2
  idims := [2, 3, 5, 6]
  cases := [
    { key := [2, 3, 5, 6], guarded := true, hmatel := fun p q =>
        let a := p 1; let i := p 4; let d := q 1; let l := q 4;
        H.h2a_voov l d a i },
    { key := [1, 3, 5, 6], guarded := true, hmatel := fun p q =>
        let b := p 2; let i := p 4; let d := q 1; let l := q 4;
        -H.h2a_voov l d b i },
    { key := [1, 2, 5, 6], guarded := true, hmatel := fun p q =>
        let c := p 3; let i := p 4; let d := q 1; let l := q 4;
        H.h2a_voov l d c i },
    { key := [2, 3, 4, 6], guarded := true, hmatel := fun p q =>
        let a := p 1; let j := p 5; let d := q 1; let l := q 4;
        -H.h2a_voov l d a j },
    { key := [1, 3, 4, 6], guarded := true, hmatel := fun p q =>
        let b := p 2; let j := p 5; let d := q 1; let l := q 4;
        H.h2a_voov l d b j },
    { key := [1, 2, 4, 6], guarded := true, hmatel := fun p q =>
        let c := p 3; let j := p 5; let d := q 1; let l := q 4;
        -H.h2a_voov l d c j },
    { key := [2, 3, 4, 5], guarded := true, hmatel := fun p q =>
        let a := p 1; let k := p 6; let d := q 1; let l := q 4;
        H.h2a_voov l d a k },
    { key := [1, 3, 4, 5], guarded := true, hmatel := fun p q =>
        let b := p 2; let k := p 6; let d := q 1; let l := q 4;
        -H.h2a_voov l d b k },
    { key := [1, 2, 4, 5], guarded := true, hmatel := fun p q =>
        let c := p 3; let k := p 6; let d := q 1; let l := q 4;
        H.h2a_voov l d c k }]

/-- `/repo/ccpy/lib/fortran/ccsdt_p_loops.f90:2190-2304` -/
def t3aBlock16 (d : Dims) (H : Arrays) : Block where
  rng1 := (1, (d.ua : ℤ) - 1)
  rng2 := (-1, (d.ua : ℤ))
  rng3 := (1, (d.oa : ℤ) - 1)
  rng4 := (-1, (d.oa : ℤ))
  n1 := d.ua
  n2 := d.ua
  n3 := d.oa
  n4 := d.oa
  nloc := d.ua * (d.ua - 1) / 2 * d.oa * (d.oa - 1) / 2
  idims := [1, 2, 4, 5]
  cases := [
    { key := [1, 2, 4, 5], guarded := true, hmatel := fun p q =>
        let c := p 3; let k := p 6; let f := q 3; let n := q 6;
        H.h2b_voov n f c k },
    { key := [1, 2, 5, 6], guarded := true, hmatel := fun p q =>
        let c := p 3; let i := p 4; let f := q 3; let n := q 6;
        H.h2b_voov n f c i },
    { key := [1, 2, 4, 6], guarded := true, hmatel := fun p q =>
        let c := p 3; let j := p 5; let f := q 3; let n := q 6;
        -H.h2b_voov n f c j },
    { key := [2, 3, 4, 5], guarded := true, hmatel := fun p q =>
        let a := p 1; let k := p 6; let f := q 3; let n := q 6;
        H.h2b_voov n f a k },
    { key := [2, 3, 5, 6], guarded := true, hmatel := fun p q =>
        let a := p 1; let i := p 4; let f := q 3; let n := q 6;
        H.h2b_voov n f a i },
    { key := [2, 3, 4, 6], guarded := true, hmatel := fun p q =>
        let a := p 1; let j := p 5; let f := q 3; let n := q 6;
        -H.h2b_voov n f a j },
    { key := [1, 3, 4, 5], guarded := true, hmatel := fun p q =>
        let b := p 2; let k := p 6; let f := q 3; let n := q 6;
        -H.h2b_voov n f b k },
    { key := [1, 3, 5, 6], guarded := true, hmatel := fun p q =>
        let b := p 2; let i := p 4; let f := q 3; let n := q 6;
        -H.h2b_voov n f b i },
    { key := [1, 3, 4, 6], guarded := true, hmatel := fun p q =>
        let b := p 2; let j := p 5; let f := q 3; let n := q 6;
        H.h2b_voov n f b j }]

/-- The arrays built first, `/repo/ccpy/lib/fortran/ccsdt_p_loops.f90:620-629`. -/
def t3aInter (d : Dims) (H : Arrays) (t3a t3b : Buffer) : Inter where
  i2a_vooo := calcI2a_vooo d H t3a t3b (fun m a i j => (1 / 2) * H.h2a_vooo m a i j)
  i2a_vvov := calcI2a_vvov d H t3a t3b (fun m a i j => (1 / 2) * H.h2a_vvov m a i j)

/-- `/repo/ccpy/lib/fortran/ccsdt_p_loops.f90:2329-2344` -/
def t3aMoment1 (d : Dims) (H : Arrays) (I : Inter) (p : ℕ → ℕ) : ℚ :=
  let xbuf : Arr4 := fun j i b a => H.t2a b a j i
  let a := p 1; let b := p 2; let c := p 3; let i := p 4; let j := p 5; let k := p 6
  sumTo d.oa fun m =>
    -I.i2a_vooo m a i j * xbuf m k b c
      + I.i2a_vooo m b i j * xbuf m k a c
      + I.i2a_vooo m c i j * xbuf m k b a
      + I.i2a_vooo m a k j * xbuf m i b c
      - I.i2a_vooo m b k j * xbuf m i a c
      - I.i2a_vooo m c k j * xbuf m i b a
      + I.i2a_vooo m a i k * xbuf m j b c
      - I.i2a_vooo m b i k * xbuf m j a c
      - I.i2a_vooo m c i k * xbuf m j b a
/-- `/repo/ccpy/lib/fortran/ccsdt_p_loops.f90:2352-2367` -/
def t3aMoment2 (d : Dims) (H : Arrays) (I : Inter) (p : ℕ → ℕ) : ℚ :=
  let a := p 1; let b := p 2; let c := p 3; let i := p 4; let j := p 5; let k := p 6
  sumTo d.ua fun e =>
    I.i2a_vvov e a b i * H.t2a e c j k
      - I.i2a_vvov e c b i * H.t2a e a j k
      - I.i2a_vvov e a c i * H.t2a e b j k
      - I.i2a_vvov e a b j * H.t2a e c i k
      + I.i2a_vvov e c b j * H.t2a e a i k
      + I.i2a_vvov e a c j * H.t2a e b i k
      - I.i2a_vvov e a b k * H.t2a e c j i
      + I.i2a_vvov e c b k * H.t2a e a j i
      + I.i2a_vvov e a c k * H.t2a e b j i

/-- `denom`, `/repo/ccpy/lib/fortran/ccsdt_p_loops.f90:2375` -/
def t3aDenom (H : Arrays) (p : ℕ → ℕ) : ℚ :=
  let a := p 1; let b := p 2; let c := p 3; let i := p 4; let j := p 5; let k := p 6
  H.fa_oo i i + H.fa_oo j j + H.fa_oo k k - H.fa_vv a a - H.fa_vv b b - H.fa_vv c c

/-- The blocks over the updated list, `/repo/ccpy/lib/fortran/ccsdt_p_loops.f90:642-2173`. -/
def t3aBlocks (d : Dims) (H : Arrays) : List Block :=
  [t3aBlock1 d H, t3aBlock2 d H, t3aBlock3 d H, t3aBlock4 d H, t3aBlock5 d H, t3aBlock6 d H, t3aBlock7 d H, t3aBlock8 d H, t3aBlock9 d H, t3aBlock10 d H, t3aBlock11 d H, t3aBlock12 d H, t3aBlock13 d H, t3aBlock14 d H, t3aBlock15 d H]

/-- The blocks over a copy of `t3b`, `/repo/ccpy/lib/fortran/ccsdt_p_loops.f90:2190-2304`. -/
def t3aBlocksT3b (d : Dims) (H : Arrays) : List Block :=
  [t3aBlock16 d H]

/-- `update_t3a_p`, `/repo/ccpy/lib/fortran/ccsdt_p_loops.f90:564-2385`. -/
def updateT3a (d : Dims) (H : Arrays) (t3a t3b : Buffer) : Option State := do
  let I := t3aInter d H t3a t3b
  let s : State := ⟨t3a.excits, t3a.amps, t3a.excits.map fun _ => 0⟩
  let s ← runOwn (t3aBlocks d H) s
  let s ← runOther (t3aBlocksT3b d H) s t3b
  let s := s.addMoment (t3aMoment1 d H I)
  let s := s.addMoment (t3aMoment2 d H I)
  some (s.finish H.shift (t3aDenom H))
end Ccpy.PSpace
