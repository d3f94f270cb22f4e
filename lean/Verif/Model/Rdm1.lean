import Verif.Model.Amplitudes

/-! Model of the one-particle density matrix, `/repo/ccpy/density/rdm1.py:4-124`. -/

namespace Ccpy.Amplitudes
open Finset

variable {K : Type*} [Field K]

/-- `rdm1.a.oo` without triples, `/repo/ccpy/density/rdm1.py:12-16, 23`. -/
def rdm_a_oo (d : Dims) (T L : Amplitudes K) (i j : ℕ) : K :=
    -(∑ e ∈ d.va, L.a e i * T.a e j)
    - ((1 / 2) * ∑ e ∈ d.va, ∑ f ∈ d.va, ∑ n ∈ d.oa, L.aa e f i n * T.aa e f j n)
    - (∑ e ∈ d.va, ∑ f ∈ d.vb, ∑ n ∈ d.ob, L.ab e f i n * T.ab e f j n)
    + (if i = j then 1 else 0)

/-- `rdm1.b.oo` without triples, `/repo/ccpy/density/rdm1.py:17-21, 24`. -/
def rdm_b_oo (d : Dims) (T L : Amplitudes K) (i j : ℕ) : K :=
    -(∑ e ∈ d.vb, L.b e i * T.b e j)
    - ((1 / 2) * ∑ e ∈ d.vb, ∑ f ∈ d.vb, ∑ n ∈ d.ob, L.bb e f i n * T.bb e f j n)
    - (∑ f ∈ d.va, ∑ e ∈ d.vb, ∑ n ∈ d.oa, L.ab f e n i * T.ab f e n j)
    + (if i = j then 1 else 0)

/-- `rdm1.a.vv` without triples, `/repo/ccpy/density/rdm1.py:27-31`. -/
def rdm_a_vv (d : Dims) (T L : Amplitudes K) (a b : ℕ) : K :=
    (∑ m ∈ d.oa, L.a b m * T.a a m)
    + ((1 / 2) * ∑ f ∈ d.va, ∑ m ∈ d.oa, ∑ n ∈ d.oa, L.aa b f m n * T.aa a f m n)
    + ∑ f ∈ d.vb, ∑ m ∈ d.oa, ∑ n ∈ d.ob, L.ab b f m n * T.ab a f m n

/-- `rdm1.b.vv` without triples, `/repo/ccpy/density/rdm1.py:32-36`. -/
def rdm_b_vv (d : Dims) (T L : Amplitudes K) (a b : ℕ) : K :=
    (∑ m ∈ d.ob, L.b b m * T.b a m)
    + ((1 / 2) * ∑ f ∈ d.vb, ∑ m ∈ d.ob, ∑ n ∈ d.ob, L.bb b f m n * T.bb a f m n)
    + ∑ f ∈ d.va, ∑ n ∈ d.oa, ∑ m ∈ d.ob, L.ab f b n m * T.ab f a n m

/-- `rdm1.a.ov` without triples, `/repo/ccpy/density/rdm1.py:39`. -/
def rdm_a_ov (_d : Dims) (_T L : Amplitudes K) (p q : ℕ) : K :=
    L.a q p

/-- `rdm1.b.ov` without triples, `/repo/ccpy/density/rdm1.py:40`. -/
def rdm_b_ov (_d : Dims) (_T L : Amplitudes K) (p q : ℕ) : K :=
    L.b q p

/-- `rdm1.a.vo` without triples, `/repo/ccpy/density/rdm1.py:43-51, 62`. -/
def rdm_a_vo (d : Dims) (T L : Amplitudes K) (a i : ℕ) : K :=
    (∑ e ∈ d.va, ∑ m ∈ d.oa, L.a e m * T.aa a e i m)
    + (∑ e ∈ d.vb, ∑ m ∈ d.ob, L.b e m * T.ab a e i m)
    - (∑ e ∈ d.va, ∑ m ∈ d.oa, L.a e m * T.a e i * T.a a m)
    - ((1 / 2) * ∑ e ∈ d.va, ∑ f ∈ d.va, ∑ m ∈ d.oa, ∑ n ∈ d.oa, L.aa e f m n * T.aa a f m n * T.a e i)
    - (∑ e ∈ d.va, ∑ f ∈ d.vb, ∑ m ∈ d.oa, ∑ n ∈ d.ob, L.ab e f m n * T.ab a f m n * T.a e i)
    - ((1 / 2) * ∑ e ∈ d.va, ∑ f ∈ d.va, ∑ m ∈ d.oa, ∑ n ∈ d.oa, L.aa e f m n * T.aa e f i n * T.a a m)
    - (∑ e ∈ d.va, ∑ f ∈ d.vb, ∑ m ∈ d.oa, ∑ n ∈ d.ob, L.ab e f m n * T.ab e f i n * T.a a m)
    + T.a a i

/-- `rdm1.b.vo` without triples, `/repo/ccpy/density/rdm1.py:52-60, 63`. -/
def rdm_b_vo (d : Dims) (T L : Amplitudes K) (a i : ℕ) : K :=
    (∑ e ∈ d.vb, ∑ m ∈ d.ob, L.b e m * T.bb a e i m)
    + (∑ e ∈ d.va, ∑ m ∈ d.oa, L.a e m * T.ab e a m i)
    - (∑ e ∈ d.vb, ∑ m ∈ d.ob, L.b e m * T.b e i * T.b a m)
    - ((1 / 2) * ∑ e ∈ d.vb, ∑ f ∈ d.vb, ∑ m ∈ d.ob, ∑ n ∈ d.ob, L.bb e f m n * T.bb a f m n * T.b e i)
    - (∑ f ∈ d.va, ∑ e ∈ d.vb, ∑ n ∈ d.oa, ∑ m ∈ d.ob, L.ab f e n m * T.ab f a n m * T.b e i)
    - ((1 / 2) * ∑ e ∈ d.vb, ∑ f ∈ d.vb, ∑ m ∈ d.ob, ∑ n ∈ d.ob, L.bb e f m n * T.bb e f i n * T.b a m)
    - (∑ f ∈ d.va, ∑ e ∈ d.vb, ∑ n ∈ d.oa, ∑ m ∈ d.ob, L.ab f e n m * T.ab f e n i * T.b a m)
    + T.b a i

/-- Triples part of `rdm1.a.oo`, `/repo/ccpy/density/rdm1.py:69-73`. -/
def rdmTriples_a_oo (d : Dims) (T L : Amplitudes K) (i j : ℕ) : K :=
    (-(1 / 12) * ∑ e ∈ d.va, ∑ f ∈ d.va, ∑ g ∈ d.va, ∑ n ∈ d.oa, ∑ o ∈ d.oa, L.aaa e f g i n o *
        T.aaa e f g j n o)
    - ((1 / 2) * ∑ e ∈ d.va, ∑ f ∈ d.va, ∑ g ∈ d.vb, ∑ n ∈ d.oa, ∑ o ∈ d.ob, L.aab e f g i n o *
        T.aab e f g j n o)
    - (1 / 4) * ∑ e ∈ d.va, ∑ f ∈ d.vb, ∑ g ∈ d.vb, ∑ n ∈ d.ob, ∑ o ∈ d.ob, L.abb e f g i n o *
        T.abb e f g j n o

/-- Triples part of `rdm1.b.oo`, `/repo/ccpy/density/rdm1.py:74-78`. -/
def rdmTriples_b_oo (d : Dims) (T L : Amplitudes K) (i j : ℕ) : K :=
    (-(1 / 12) * ∑ e ∈ d.vb, ∑ f ∈ d.vb, ∑ g ∈ d.vb, ∑ o ∈ d.ob, ∑ n ∈ d.ob, L.bbb e f g o n i *
        T.bbb e f g o n j)
    - ((1 / 2) * ∑ e ∈ d.va, ∑ f ∈ d.vb, ∑ g ∈ d.vb, ∑ o ∈ d.oa, ∑ n ∈ d.ob, L.abb e f g o n i *
        T.abb e f g o n j)
    - (1 / 4) * ∑ e ∈ d.va, ∑ f ∈ d.va, ∑ g ∈ d.vb, ∑ o ∈ d.oa, ∑ n ∈ d.oa, L.aab e f g o n i *
        T.aab e f g o n j

/-- Triples part of `rdm1.a.vv`, `/repo/ccpy/density/rdm1.py:81-85`. -/
def rdmTriples_a_vv (d : Dims) (T L : Amplitudes K) (a b : ℕ) : K :=
    ((1 / 12) * ∑ f ∈ d.va, ∑ g ∈ d.va, ∑ m ∈ d.oa, ∑ n ∈ d.oa, ∑ o ∈ d.oa, L.aaa b f g m n o *
        T.aaa a f g m n o)
    + ((1 / 2) * ∑ f ∈ d.va, ∑ g ∈ d.vb, ∑ m ∈ d.oa, ∑ n ∈ d.oa, ∑ o ∈ d.ob, L.aab b f g m n o *
        T.aab a f g m n o)
    + (1 / 4) * ∑ f ∈ d.vb, ∑ g ∈ d.vb, ∑ m ∈ d.oa, ∑ n ∈ d.ob, ∑ o ∈ d.ob, L.abb b f g m n o *
        T.abb a f g m n o

/-- Triples part of `rdm1.b.vv`, `/repo/ccpy/density/rdm1.py:86-90`. -/
def rdmTriples_b_vv (d : Dims) (T L : Amplitudes K) (a b : ℕ) : K :=
    ((1 / 12) * ∑ g ∈ d.vb, ∑ f ∈ d.vb, ∑ m ∈ d.ob, ∑ n ∈ d.ob, ∑ o ∈ d.ob, L.bbb g f b m n o *
        T.bbb g f a m n o)
    + ((1 / 2) * ∑ g ∈ d.va, ∑ f ∈ d.vb, ∑ m ∈ d.oa, ∑ n ∈ d.ob, ∑ o ∈ d.ob, L.abb g f b m n o *
        T.abb g f a m n o)
    + (1 / 4) * ∑ g ∈ d.va, ∑ f ∈ d.va, ∑ m ∈ d.oa, ∑ n ∈ d.oa, ∑ o ∈ d.ob, L.aab g f b m n o *
        T.aab g f a m n o

/-- Triples part of `rdm1.a.vo`, `/repo/ccpy/density/rdm1.py:93-107`. -/
def rdmTriples_a_vo (d : Dims) (T L : Amplitudes K) (a i : ℕ) : K :=
    ((1 / 4) * ∑ e ∈ d.va, ∑ f ∈ d.va, ∑ m ∈ d.oa, ∑ n ∈ d.oa, L.aa e f m n * T.aaa a e f i m n)
    + (∑ e ∈ d.va, ∑ f ∈ d.vb, ∑ m ∈ d.oa, ∑ n ∈ d.ob, L.ab e f m n * T.aab a e f i m n)
    + ((1 / 4) * ∑ e ∈ d.vb, ∑ f ∈ d.vb, ∑ m ∈ d.ob, ∑ n ∈ d.ob, L.bb e f m n * T.abb a e f i m n)
    - ((1 / 4) * ∑ e ∈ d.va, ∑ f ∈ d.va, ∑ g ∈ d.va, ∑ m ∈ d.oa, ∑ n ∈ d.oa, ∑ o ∈ d.oa,
        L.aaa e f g m n o * T.aa a g m o * T.aa e f i n)
    - ((1 / 2) * ∑ e ∈ d.va, ∑ f ∈ d.va, ∑ g ∈ d.vb, ∑ m ∈ d.oa, ∑ n ∈ d.oa, ∑ o ∈ d.ob,
        L.aab e f g m n o * T.ab a g m o * T.aa e f i n)
    - ((1 / 2) * ∑ e ∈ d.va, ∑ g ∈ d.va, ∑ f ∈ d.vb, ∑ m ∈ d.oa, ∑ o ∈ d.oa, ∑ n ∈ d.ob,
        L.aab e g f m o n * T.aa a g m o * T.ab e f i n)
    - (∑ e ∈ d.va, ∑ f ∈ d.vb, ∑ g ∈ d.vb, ∑ m ∈ d.oa, ∑ n ∈ d.ob, ∑ o ∈ d.ob, L.abb e f g m n o *
        T.ab a g m o * T.ab e f i n)
    - ((1 / 12) * ∑ e ∈ d.va, ∑ f ∈ d.va, ∑ g ∈ d.va, ∑ m ∈ d.oa, ∑ n ∈ d.oa, ∑ o ∈ d.oa,
        L.aaa e f g m n o * T.aaa a f g m n o * T.a e i)
    - ((1 / 2) * ∑ e ∈ d.va, ∑ f ∈ d.va, ∑ g ∈ d.vb, ∑ m ∈ d.oa, ∑ n ∈ d.oa, ∑ o ∈ d.ob,
        L.aab e f g m n o * T.aab a f g m n o * T.a e i)
    - ((1 / 4) * ∑ e ∈ d.va, ∑ f ∈ d.vb, ∑ g ∈ d.vb, ∑ m ∈ d.oa, ∑ n ∈ d.ob, ∑ o ∈ d.ob,
        L.abb e f g m n o * T.abb a f g m n o * T.a e i)
    - ((1 / 12) * ∑ e ∈ d.va, ∑ f ∈ d.va, ∑ g ∈ d.va, ∑ m ∈ d.oa, ∑ n ∈ d.oa, ∑ o ∈ d.oa,
        L.aaa e f g m n o * T.aaa e f g i n o * T.a a m)
    - ((1 / 2) * ∑ e ∈ d.va, ∑ f ∈ d.va, ∑ g ∈ d.vb, ∑ m ∈ d.oa, ∑ n ∈ d.oa, ∑ o ∈ d.ob,
        L.aab e f g m n o * T.aab e f g i n o * T.a a m)
    - (1 / 4) * ∑ e ∈ d.va, ∑ f ∈ d.vb, ∑ g ∈ d.vb, ∑ m ∈ d.oa, ∑ n ∈ d.ob, ∑ o ∈ d.ob,
        L.abb e f g m n o * T.abb e f g i n o * T.a a m

/-- Triples part of `rdm1.b.vo`, `/repo/ccpy/density/rdm1.py:108-122`. -/
def rdmTriples_b_vo (d : Dims) (T L : Amplitudes K) (a i : ℕ) : K :=
    ((1 / 4) * ∑ e ∈ d.vb, ∑ f ∈ d.vb, ∑ m ∈ d.ob, ∑ n ∈ d.ob, L.bb e f m n * T.bbb a e f i m n)
    + (∑ e ∈ d.va, ∑ f ∈ d.vb, ∑ m ∈ d.oa, ∑ n ∈ d.ob, L.ab e f m n * T.abb e f a m n i)
    + ((1 / 4) * ∑ e ∈ d.va, ∑ f ∈ d.va, ∑ m ∈ d.oa, ∑ n ∈ d.oa, L.aa e f m n * T.aab e f a m n i)
    - ((1 / 4) * ∑ e ∈ d.vb, ∑ f ∈ d.vb, ∑ g ∈ d.vb, ∑ m ∈ d.ob, ∑ n ∈ d.ob, ∑ o ∈ d.ob,
        L.bbb e f g m n o * T.bb a g m o * T.bb e f i n)
    - ((1 / 2) * ∑ f ∈ d.va, ∑ e ∈ d.vb, ∑ g ∈ d.vb, ∑ n ∈ d.oa, ∑ m ∈ d.ob, ∑ o ∈ d.ob,
        L.abb f e g n m o * T.bb a g m o * T.ab f e n i)
    - ((1 / 2) * ∑ g ∈ d.va, ∑ e ∈ d.vb, ∑ f ∈ d.vb, ∑ o ∈ d.oa, ∑ m ∈ d.ob, ∑ n ∈ d.ob,
        L.abb g e f o m n * T.ab g a o m * T.bb e f i n)
    - (∑ f ∈ d.va, ∑ g ∈ d.va, ∑ e ∈ d.vb, ∑ n ∈ d.oa, ∑ o ∈ d.oa, ∑ m ∈ d.ob, L.aab f g e n o m *
        T.ab g a o m * T.ab f e n i)
    - ((1 / 12) * ∑ e ∈ d.vb, ∑ f ∈ d.vb, ∑ g ∈ d.vb, ∑ m ∈ d.ob, ∑ n ∈ d.ob, ∑ o ∈ d.ob,
        L.bbb e f g m n o * T.bbb a f g m n o * T.b e i)
    - ((1 / 2) * ∑ f ∈ d.va, ∑ g ∈ d.vb, ∑ e ∈ d.vb, ∑ n ∈ d.oa, ∑ o ∈ d.ob, ∑ m ∈ d.ob,
        L.abb f g e n o m * T.abb f g a n o m * T.b e i)
    - ((1 / 4) * ∑ f ∈ d.va, ∑ g ∈ d.va, ∑ e ∈ d.vb, ∑ n ∈ d.oa, ∑ o ∈ d.oa, ∑ m ∈ d.ob,
        L.aab f g e n o m * T.aab f g a n o m * T.b e i)
    - ((1 / 12) * ∑ e ∈ d.vb, ∑ f ∈ d.vb, ∑ g ∈ d.vb, ∑ m ∈ d.ob, ∑ n ∈ d.ob, ∑ o ∈ d.ob,
        L.bbb e f g m n o * T.bbb e f g i n o * T.b a m)
    - ((1 / 2) * ∑ f ∈ d.va, ∑ g ∈ d.vb, ∑ e ∈ d.vb, ∑ n ∈ d.oa, ∑ o ∈ d.ob, ∑ m ∈ d.ob,
        L.abb f g e n o m * T.abb f g e n o i * T.b a m)
    - (1 / 4) * ∑ f ∈ d.va, ∑ g ∈ d.va, ∑ e ∈ d.vb, ∑ n ∈ d.oa, ∑ o ∈ d.oa, ∑ m ∈ d.ob,
        L.aab f g e n o m * T.aab f g e n o i * T.b a m

/-- The blocks of one spin of the density matrix. -/
structure DensityBlocks (K : Type*) where
  oo : ℕ → ℕ → K
  ov : ℕ → ℕ → K
  vo : ℕ → ℕ → K
  vv : ℕ → ℕ → K

/-- `calc_rdm1`, `/repo/ccpy/density/rdm1.py:4-124`: alpha and beta density matrices; `orderT` and `orderL` are
`T.order` and `L.order`. -/
def calcRdm1 (d : Dims) (orderT orderL : ℕ) (T L : Amplitudes K) : DensityBlocks K × DensityBlocks K :=
  let t : K → K := fun x => if orderT = 3 ∧ orderL = 3 then x else 0
  ({ oo := fun i j => rdm_a_oo d T L i j + t (rdmTriples_a_oo d T L i j)
     ov := fun i a => rdm_a_ov d T L i a
     vo := fun a i => rdm_a_vo d T L a i + t (rdmTriples_a_vo d T L a i)
     vv := fun a b => rdm_a_vv d T L a b + t (rdmTriples_a_vv d T L a b) },
   { oo := fun i j => rdm_b_oo d T L i j + t (rdmTriples_b_oo d T L i j)
     ov := fun i a => rdm_b_ov d T L i a
     vo := fun a i => rdm_b_vo d T L a i + t (rdmTriples_b_vo d T L a i)
     vv := fun a b => rdm_b_vv d T L a b + t (rdmTriples_b_vv d T L a b) })

end Ccpy.Amplitudes
