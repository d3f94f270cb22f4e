import Mathlib.Logic.Function.Basic
import Mathlib.Data.List.FinRange
import Mathlib.Algebra.BigOperators.Fin
import Mathlib.Algebra.BigOperators.Group.List.Basic
import Mathlib.Algebra.Ring.Defs
import Mathlib.Data.Fin.VecNotation

/-! Model of ccpy/lib/fortran/reorder.f90 (permute_array, inverse_permute_array, reorder_stripe,
sum_stripe, reorder4, sum4, reorder_amplitudes) and of ccpy/lib/fortran/combinatorics.f90:10-24
(gen_perm_array).

Simplifications: arrays of rank `n` are indexed by `Fin n` (from 0); a flat array of size N is a
function of the 0-based offset; arithmetic is exact. The OpenMP loops over `j` write disjoint parts
of the output and are modelled in sequence. -/

namespace Ccpy.Reorder

/-- `gen_perm_array`, ccpy/lib/fortran/combinatorics.f90:10-24: digits of the string, less one
(0-based); `none` if a character does not denote an index below the rank. -/
def genPermArray (n : ℕ) (s : String) : Option (List (Fin n)) :=
  s.toList.mapM fun c =>
    let idx := c.toNat - 48
    if h : 1 ≤ idx ∧ idx ≤ n then some ⟨idx - 1, by omega⟩ else none

/-- `permute_array`, ccpy/lib/fortran/reorder.f90:394-406: `B(permutation(i)) = A(i)` in turn. -/
def permuteArray {α : Type*} {n : ℕ} (perm : Fin n → Fin n) (A B : Fin n → α) : Fin n → α :=
  (List.finRange n).foldl (fun B i => Function.update B (perm i) (A i)) B

/-- `inverse_permute_array`, ccpy/lib/fortran/reorder.f90:408-419. -/
def inversePermuteArray {α : Type*} {n : ℕ} (perm : Fin n → Fin n) (A B : Fin n → α) : Fin n → α :=
  (List.finRange n).foldl (fun B i => Function.update B i (A (perm i))) B

/-- `stride_a`, ccpy/lib/fortran/reorder.f90:44-47. -/
def strideA (shape : List ℕ) : List ℕ :=
  match shape with
  | [] => []
  | d :: rest => 1 :: (strideA rest).map (d * ·)

/-- The decomposition of `j` and accumulation of `offset_a`,
ccpy/lib/fortran/reorder.f90:70-80, over the (extent, stride) pairs of `permutation(2..)`. -/
def offsetA : List (ℕ × ℕ) → ℕ → ℕ → ℕ
  | [], _, offset => offset
  | (extent, stride) :: rest, j, offset =>
    offsetA rest (j / extent) (offset + (j % extent) * stride)

/-- `size_outer`, ccpy/lib/fortran/reorder.f90:52-55: the product of all extents except that of
`permutation(1)`. -/
def sizeOuter (shape : List ℕ) (p1 : ℕ) : ℕ :=
  ((List.range shape.length).map fun i => if i ≠ p1 then shape.getD i 1 else 1).prod

/-- `reorder_stripe`, ccpy/lib/fortran/reorder.f90:7-93. `perm` is the permutation counted from 0;
`A` and `B` are flat arrays. -/
def reorderStripe {α : Type*} (shape perm : List ℕ) (A B : ℕ → α) : ℕ → α :=
  if perm = List.range shape.length then
    fun k => if k < shape.prod then A k else B k
  else
    match perm with
    | [] => B
    | p1 :: rest =>
      let stride := strideA shape
      let dims := rest.map fun p => (shape.getD p 1, stride.getD p 1)
      let sizeInner := shape.getD p1 1
      (List.range (sizeOuter shape p1)).foldl (fun B j =>
        (List.range sizeInner).foldl (fun B i =>
          Function.update B (j * sizeInner + i) (A (offsetA dims j 0 + i * stride.getD p1 1))) B) B

/-- `sum_stripe`, ccpy/lib/fortran/reorder.f90:202-288: adds `beta * B` (with permuted indices)
to `A`. -/
def sumStripe {α : Type*} [Semiring α] (shape perm : List ℕ) (beta : α) (A B : ℕ → α) : ℕ → α :=
  if perm = List.range shape.length then
    fun k => if k < shape.prod then A k + beta * B k else A k
  else
    match perm with
    | [] => A
    | p1 :: rest =>
      let stride := strideA shape
      let dims := rest.map fun p => (shape.getD p 1, stride.getD p 1)
      let sizeInner := shape.getD p1 1
      (List.range (sizeOuter shape p1)).foldl (fun A j =>
        (List.range sizeInner).foldl (fun A i =>
          let k := offsetA dims j 0 + i * stride.getD p1 1
          Function.update A k (A k + beta * B (j * sizeInner + i))) A) A

/-- The index tuples `(i,j,k,l)` of the nested loops of `reorder4` and `sum4`, from 0. -/
def loop4 (n1 n2 n3 n4 : ℕ) : List (Fin 4 → ℕ) :=
  (List.range n1).flatMap fun i => (List.range n2).flatMap fun j => (List.range n3).flatMap fun k =>
    (List.range n4).map fun l => ![i, j, k, l]

/-- `reorder4`, ccpy/lib/fortran/reorder.f90:462-486; `iorder` counts from 0. -/
def reorder4 {α : Type*} [Zero α] (n1 n2 n3 n4 : ℕ) (x : (Fin 4 → ℕ) → α) (iorder : Fin 4 → Fin 4) :
    (Fin 4 → ℕ) → α :=
  (loop4 n1 n2 n3 n4).foldl (fun y vec => Function.update y (vec ∘ iorder) (x vec)) fun _ => 0

/-- `sum4`, ccpy/lib/fortran/reorder.f90:488-511. -/
def sum4 {α : Type*} [Add α] (n1 n2 n3 n4 : ℕ) (x y : (Fin 4 → ℕ) → α) (iorder : Fin 4 → Fin 4) :
    (Fin 4 → ℕ) → α :=
  (loop4 n1 n2 n3 n4).foldl (fun x vec => Function.update x vec (x vec + y (vec ∘ iorder))) x

/-- One comparison of `reorder_amplitudes`, ccpy/lib/fortran/reorder.f90:440-455: swap the entries
`idet` and `jdet` of both arrays if row `jdet` of `l3_excits` is the wanted one. -/
def swapIfMatch {n : ℕ} {α : Type*} (t3 : Fin n → List ℕ) (idet : Fin n)
    (st : (Fin n → List ℕ) × (Fin n → α)) (jdet : Fin n) : (Fin n → List ℕ) × (Fin n → α) :=
  if t3 idet = st.1 jdet then
    let amp := st.2 jdet
    let amps := Function.update (Function.update st.2 jdet (st.2 idet)) idet amp
    let tmp := st.1 jdet
    let excits := Function.update (Function.update st.1 jdet (st.1 idet)) idet tmp
    (excits, amps)
  else st

/-- `reorder_amplitudes`, ccpy/lib/fortran/reorder.f90:421-460. -/
def reorderAmplitudes {n : ℕ} {α : Type*} (amps : Fin n → α) (l3 t3 : Fin n → List ℕ) :
    (Fin n → List ℕ) × (Fin n → α) :=
  (List.finRange n).foldl (fun st idet => (List.finRange n).foldl (swapIfMatch t3 idet) st) (l3, amps)

end Ccpy.Reorder
