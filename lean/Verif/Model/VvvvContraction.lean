import Verif.Model.FortranLoop
import Mathlib.Algebra.BigOperators.Group.Finset.Basic
import Mathlib.Algebra.Field.Defs
import Mathlib.Algebra.Group.Pi.Basic
import Mathlib.Order.Interval.Finset.Nat

/-! `/repo/ccpy/lib/fortran/vvvv_contraction.f90` and the calls from the Cholesky variants. Fortran arrays are
functions of their subscripts, which start at 1; python arrays are functions of indices that start at 0. -/

namespace Ccpy.Vvvv
open Ccpy.Fortran

variable {K : Type*} [Field K]

/-- An array with four subscripts. -/
abbrev Arr4 (K : Type*) := ℕ → ℕ → ℕ → ℕ → K

/-- `!$omp do reduction(+:resid)`, `/repo/ccpy/lib/fortran/vvvv_contraction.f90:31-33` and `71-73`: every thread runs
its iterations (one list of the schedule) on a private copy that starts at zero, and the copies are added to the
variable at the end. -/
def ompReduce {A : Type*} [AddCommMonoid A] (schedule : List (List ℕ)) (body : ℕ → A → A) (s : A) : A :=
  schedule.foldl (fun s own => s + own.foldl (fun p k => body k p) 0) s

/-- `dgemm('t','n',...,1.0d0,A,naux,B,naux,0.0d0,C,...)`: `C = transpose(A) * B` with the sum over the first subscript.
BLAS itself is not modelled. -/
def dgemmTn (naux : ℕ) (A B : ℕ → ℕ → K) : ℕ → ℕ → K :=
  fun p q => ∑ x ∈ Finset.Icc 1 naux, A x p * B x q

/-- `resid(:,:,b,a) = resid(:,:,b,a) + w*t2(:,:,f,e)`, `/repo/ccpy/lib/fortran/vvvv_contraction.f90:49` and `83`. -/
def addSlice (resid t2 : Arr4 K) (b a f e : ℕ) (w : K) : Arr4 K :=
  fun j i q p => if q = b ∧ p = a then resid j i q p + w * t2 j i f e else resid j i q p

/-- The loops that fill `ab_table`, `/repo/ccpy/lib/fortran/vvvv_contraction.f90:23-30`. The state is the counter and
the table. -/
def abTable (nu : ℕ) : ℕ × (ℕ → ℕ × ℕ) :=
  doLoop 1 nu (fun a => doLoop (a + 1) nu (fun b s =>
    (s.1 + 1, fun k => if k = s.1 then (a, b) else s.2 k))) (1, fun _ => (0, 0))

/-- `vvvv_t2_sym`, `/repo/ccpy/lib/fortran/vvvv_contraction.f90:7-55`. -/
def vvvvT2Sym (schedule : List (List ℕ)) (R : ℕ → ℕ → ℕ → K) (t2 : Arr4 K) (nu naux : ℕ) : Arr4 K :=
  let table := (abTable nu).2
  ompReduce schedule (fun k1 resid =>
    let a := (table k1).1
    let b := (table k1).2
    let batch := dgemmTn naux (fun x p => R x p b) (fun x q => R x q a)
    let batch := fun p q => batch p q - batch q p
    doLoop 1 nu (fun e => doLoop (e + 1) nu (fun f resid => addSlice resid t2 b a f e (batch f e))) resid)
    (fun _ _ _ _ => 0)

/-- `vvvv_t2`, `/repo/ccpy/lib/fortran/vvvv_contraction.f90:57-91`. -/
def vvvvT2 (schedule : List (List ℕ)) (Ra Rb : ℕ → ℕ → ℕ → K) (t2 : Arr4 K) (nua nub naux : ℕ) : Arr4 K :=
  ompReduce schedule (fun a resid =>
    doLoop 1 nub (fun b resid =>
      let batch := dgemmTn naux (fun x p => Rb x p b) (fun x q => Ra x q a)
      doLoop 1 nua (fun e => doLoop 1 nub (fun f resid => addSlice resid t2 b a f e (batch f e))) resid) resid)
    (fun _ _ _ _ => 0)

/-- A three-index python array as a Fortran argument. -/
def pass3 (t : ℕ → ℕ → ℕ → K) : ℕ → ℕ → ℕ → K := fun x p q => t (x - 1) (p - 1) (q - 1)

/-- `t.transpose(0, 2, 1)`. -/
def swap3 (t : ℕ → ℕ → ℕ → K) : ℕ → ℕ → ℕ → K := fun x p q => t x q p

/-- `t.transpose(3, 2, 1, 0)` as a Fortran argument. -/
def pass4 (t : Arr4 K) : Arr4 K := fun j i f e => t (e - 1) (f - 1) (i - 1) (j - 1)

/-- `tmp.transpose(3, 2, 1, 0)` of a Fortran result. -/
def back4 (t : Arr4 K) : Arr4 K := fun a b i j => t (j + 1) (i + 1) (b + 1) (a + 1)

/-- The term added to the residuals of equal spins, `/repo/ccpy/eomcc/eomccsd_chol.py:94-95` and `153-154`,
`/repo/ccpy/cc/ccsd_chol.py:205-206` and `309-310`, `/repo/ccpy/cc/ccsdt_p_chol.py:294` and `423`,
`/repo/ccpy/cc/ccsdt_chol.py:223-224` and `351-352`. -/
def sameTerm (schedule : List (List ℕ)) (nu nx : ℕ) (chol : ℕ → ℕ → ℕ → K) (r : Arr4 K) : Arr4 K :=
  back4 (vvvvT2Sym schedule (pass3 (swap3 chol)) (pass4 fun a b i j => 1 / 2 * r a b i j) nu nx)

/-- The term of equal spins of the left equations, `/repo/ccpy/left/left_ccsd_chol.py:153-154` and `215-216`. -/
def sameTermLeft (schedule : List (List ℕ)) (nu nx : ℕ) (chol : ℕ → ℕ → ℕ → K) (l : Arr4 K) : Arr4 K :=
  back4 (vvvvT2Sym schedule (pass3 chol) (pass4 fun a b i j => 1 / 2 * l a b i j) nu nx)

/-- The term of mixed spins, `/repo/ccpy/eomcc/eomccsd_chol.py:121-122`, `/repo/ccpy/cc/ccsd_chol.py:268`,
`/repo/ccpy/cc/ccsdt_p_chol.py:373`, `/repo/ccpy/cc/ccsdt_chol.py:300`. -/
def mixedTerm (schedule : List (List ℕ)) (nua nub nx : ℕ) (ca cb : ℕ → ℕ → ℕ → K) (r : Arr4 K) : Arr4 K :=
  back4 (vvvvT2 schedule (pass3 (swap3 ca)) (pass3 (swap3 cb)) (pass4 r) nua nub nx)

/-- The term of mixed spins of the left equations, `/repo/ccpy/left/left_ccsd_chol.py:176-177`. -/
def mixedTermLeft (schedule : List (List ℕ)) (nua nub nx : ℕ) (ca cb : ℕ → ℕ → ℕ → K) (l : Arr4 K) : Arr4 K :=
  back4 (vvvvT2 schedule (pass3 ca) (pass3 cb) (pass4 l) nua nub nx)

/-- `X -= transpose(X, (1,0,2,3)); X -= transpose(X, (0,1,3,2))`, `/repo/ccpy/eomcc/eomccsd_chol.py:103-104` and
`162-163`. -/
def antisymmetrize (X : Arr4 K) : Arr4 K :=
  let X : Arr4 K := fun a b i j => X a b i j - X b a i j
  fun a b i j => X a b i j - X a b j i

/-- `X -= transpose(X, (1,0,2,3)) + transpose(X, (0,1,3,2)) - transpose(X, (1,0,3,2))`,
`/repo/ccpy/left/left_ccsd_chol.py:158` and `220`. -/
def antisymmetrizeLeft (X : Arr4 K) : Arr4 K :=
  fun a b i j => X a b i j - (X b a i j + X a b j i - X b a j i)

/-- `vvvv_index`, `/repo/ccpy/lib/fortran/vvvv_contraction.f90:93-109`; the shifted products are not negative for
subscripts up to `nu`, so `shiftr(.,1)` is division by two. -/
def vvvvIndex (a b c d nu : ℤ) : ℤ :=
  let ab := (2 * nu - 2 - a) * (a - 1) / 2 + b - 2
  let cd := (2 * nu - 2 - d) * (c - 1) / 2 + d - 2
  let n := nu * (nu - 1) / 2
  cd + n * ab + 1

end Ccpy.Vvvv
