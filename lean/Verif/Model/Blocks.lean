import Verif.Model.Argsort
import Mathlib.Order.Lattice
import Mathlib.Algebra.Order.Group.Nat
import Mathlib.Logic.Function.Basic

/-! Model of the block addressing of the P-space kernels: `get_index_table`, `sort4`
(ccpy/lib/fortran/ccsdt_p_loops.f90:7861-8007), the three-index `get_index_table`, `sort3`
(ccpy/lib/fortran/ccp3_adaptive_loops.f90:1379-1474) and the two-index `get_index_table2`, `sort2`
(ccpy/lib/fortran/eaccp3_correction.f90:6390-6470).

Simplifications: an index tuple is a list of integers, so that one table type serves all ranks; the
table is a function that is 0 where the Fortran array was never written; a write outside an array
(undefined behaviour in Fortran) is the value `none`; a table entry read outside the array is 0. -/

namespace Ccpy.Blocks

/-- The values taken by `do p = lo, hi`. -/
def loop (lo hi : ℤ) : List ℤ := (List.range (hi + 1 - lo).toNat).map fun i : ℕ => lo + (i : ℤ)

/-- The tuples visited by the four-index `get_index_table`, in order,
ccpy/lib/fortran/ccsdt_p_loops.f90:7872-7933. -/
def tuples4 (r1 r2 r3 r4 : ℤ × ℤ) : List (List ℤ) :=
  if r1.1 < 0 ∧ r2.1 < 0 ∧ r3.1 < 0 ∧ r4.1 < 0 then
    (loop r1.1 r1.2).flatMap fun p => (loop (p - r2.1) r2.2).flatMap fun q =>
      (loop (q - r3.1) r3.2).flatMap fun r => (loop (r - r4.1) r4.2).map fun s => [p, q, r, s]
  else if 0 < r1.1 ∧ r2.1 < 0 ∧ r3.1 < 0 ∧ 0 < r4.1 then
    (loop r1.1 r1.2).flatMap fun p => (loop (p - r2.1) r2.2).flatMap fun q =>
      (loop (q - r3.1) r3.2).flatMap fun r => (loop r4.1 r4.2).map fun s => [p, q, r, s]
  else if 0 < r1.1 ∧ r2.1 < 0 ∧ 0 < r3.1 ∧ r4.1 < 0 then
    (loop r1.1 r1.2).flatMap fun p => (loop (p - r2.1) r2.2).flatMap fun q =>
      (loop r3.1 r3.2).flatMap fun r => (loop (r - r4.1) r4.2).map fun s => [p, q, r, s]
  else if 0 < r1.1 ∧ r2.1 < 0 ∧ 0 < r3.1 ∧ 0 < r4.1 then
    (loop r1.1 r1.2).flatMap fun p => (loop (p - r2.1) r2.2).flatMap fun q =>
      (loop r3.1 r3.2).flatMap fun r => (loop r4.1 r4.2).map fun s => [p, q, r, s]
  else
    (loop r1.1 r1.2).flatMap fun p => (loop r2.1 r2.2).flatMap fun q =>
      (loop r3.1 r3.2).flatMap fun r => (loop r4.1 r4.2).map fun s => [p, q, r, s]

/-- The tuples visited by the three-index `get_index_table`,
ccpy/lib/fortran/ccp3_adaptive_loops.f90:1389-1430. -/
def tuples3 (r1 r2 r3 : ℤ × ℤ) : List (List ℤ) :=
  if 0 < r1.1 ∧ r2.1 < 0 ∧ r3.1 < 0 then
    (loop r1.1 r1.2).flatMap fun p => (loop (p - r2.1) r2.2).flatMap fun q =>
      (loop (q - r3.1) r3.2).map fun r => [p, q, r]
  else if 0 < r1.1 ∧ 0 < r2.1 ∧ r3.1 < 0 then
    (loop r1.1 r1.2).flatMap fun p => (loop r2.1 r2.2).flatMap fun q =>
      (loop (q - r3.1) r3.2).map fun r => [p, q, r]
  else if 0 < r1.1 ∧ r2.1 < 0 ∧ 0 < r3.1 then
    (loop r1.1 r1.2).flatMap fun p => (loop (p - r2.1) r2.2).flatMap fun q =>
      (loop r3.1 r3.2).map fun r => [p, q, r]
  else
    (loop r1.1 r1.2).flatMap fun p => (loop r2.1 r2.2).flatMap fun q =>
      (loop r3.1 r3.2).map fun r => [p, q, r]

/-- The tuples visited by `get_index_table2`, ccpy/lib/fortran/eaccp3_correction.f90:6400-6416. -/
def tuples2 (r1 r2 : ℤ × ℤ) : List (List ℤ) :=
  if 0 < r1.1 ∧ r2.1 < 0 then
    (loop r1.1 r1.2).flatMap fun p => (loop (p - r2.1) r2.2).map fun q => [p, q]
  else
    (loop r1.1 r1.2).flatMap fun p => (loop r2.1 r2.2).map fun q => [p, q]

/-- `idx_table = 0`, then `idx_table(p,q,..) = kout; kout = kout + 1` for the visited tuples;
`none` if a tuple lies outside `idx_table(n1,n2,..)`
(ccpy/lib/fortran/ccsdt_p_loops.f90:7871-7933). -/
def fillTable (dims : List ℤ) (tuples : List (List ℤ)) : Option (List ℤ → ℕ) :=
  if tuples.all fun t => (t.zip dims).all fun x => 1 ≤ x.1 ∧ x.1 ≤ x.2 then
    some (tuples.foldl (fun st t => (Function.update st.1 t st.2, st.2 + 1))
      ((fun _ => 0 : List ℤ → ℕ), 1)).1
  else none

/-- `get_index_table(idx_table, rng1, rng2, rng3, rng4, n1, n2, n3, n4)`,
ccpy/lib/fortran/ccsdt_p_loops.f90:7861-7935. -/
def getIndexTable4 (r1 r2 r3 r4 : ℤ × ℤ) (n1 n2 n3 n4 : ℤ) : Option (List ℤ → ℕ) :=
  fillTable [n1, n2, n3, n4] (tuples4 r1 r2 r3 r4)

/-- `get_index_table(idx_table, rng1, rng2, rng3, n1, n2, n3)`,
ccpy/lib/fortran/ccp3_adaptive_loops.f90:1379-1432. -/
def getIndexTable3 (r1 r2 r3 : ℤ × ℤ) (n1 n2 n3 : ℤ) : Option (List ℤ → ℕ) :=
  fillTable [n1, n2, n3] (tuples3 r1 r2 r3)

/-- `get_index_table2(idx_table, rng1, rng2, n1, n2)`,
ccpy/lib/fortran/eaccp3_correction.f90:6390-6417. -/
def getIndexTable2 (r1 r2 : ℤ × ℤ) (n1 n2 : ℤ) : Option (List ℤ → ℕ) :=
  fillTable [n1, n2] (tuples2 r1 r2)

/-- `idx_table(excits(idet,idims(1)), excits(idet,idims(2)), ..)`. -/
def lookup (table : List ℤ → ℕ) (idims : List ℕ) (row : List ℕ) : ℕ :=
  table (idims.map fun i => ((row.getD (i - 1) 0 : ℕ) : ℤ))

/-- `loc_arr(1,t)` and `loc_arr(2,t)`. -/
abbrev Loc := ℕ → ℕ × ℕ

/-- `loc_arr(1,t) = v`; `none` outside `loc_arr(2,nloc)`. -/
def setStart (nloc : ℕ) (loc : Loc) (t : ℤ) (v : ℕ) : Option Loc :=
  if 1 ≤ t ∧ t ≤ nloc then
    some (Function.update loc t.toNat (v, (loc t.toNat).2)) else none

/-- `loc_arr(2,t) = v`; `none` outside `loc_arr(2,nloc)`. -/
def setEnd (nloc : ℕ) (loc : Loc) (t : ℤ) (v : ℕ) : Option Loc :=
  if 1 ≤ t ∧ t ≤ nloc then
    some (Function.update loc t.toNat ((loc t.toNat).1, v)) else none

/-- The loop over consecutive rows, ccpy/lib/fortran/ccsdt_p_loops.f90:7990-8001, on the table
entries of the rows from row `idet` on. Returns `loc_arr` and the last value of `pqrs2`. -/
def scan (nloc : ℕ) : List ℕ → ℕ → Loc → ℤ → Option (Loc × ℤ)
  | c1 :: c2 :: rest, idet, loc, _ =>
    if c1 ≠ c2 then do
      let loc ← setEnd nloc loc c1 idet
      let loc ← setStart nloc loc c2 (idet + 1)
      scan nloc (c2 :: rest) (idet + 1) loc c2
    else scan nloc (c2 :: rest) (idet + 1) loc c2
  | _, _, loc, pqrs2 => some (loc, pqrs2)

/-- `x = x(idx)` for an index list counted from 1. -/
def gather {β : Type*} (idx : List ℕ) (x : List β) : List β := idx.filterMap fun i => x[i - 1]?

/-- Arrays after sorting: `excits`, `amps`, the optional `resid` and `loc_arr`. -/
structure Sorted (K : Type) where
  excits : List (List ℕ)
  amps : List K
  resid : Option (List K)
  loc : Loc

/-- The common part of the sort routines up to `loc_arr(1,:) = 1; loc_arr(2,:) = 0`,
ccpy/lib/fortran/ccsdt_p_loops.f90:7964-7979. -/
def sorted {K : Type} (table : List ℤ → ℕ) (idims : List ℕ) (excits : List (List ℕ))
    (amps : List K) (resid : Option (List K)) : Sorted K :=
  let temp := excits.map (lookup table idims)
  let idx := Argsort.argsort excits.length fun i => temp.getD (i - 1) 0
  ⟨gather idx excits, gather idx amps, resid.map (gather idx), fun _ => (1, 0)⟩

/-- `sort4`, ccpy/lib/fortran/ccsdt_p_loops.f90:7937-8007 (also deaeom4_p_loops.f90:3635-3686). -/
def sort4 {K : Type} (nloc : ℕ) (table : List ℤ → ℕ) (idims : List ℕ) (excits : List (List ℕ))
    (amps : List K) (resid : Option (List K)) : Option (Sorted K) :=
  let n3p := excits.length
  let st := sorted table idims excits amps resid
  let codes := st.excits.map (lookup table idims)
  if n3p = 1 ∧ st.excits = [[1, 1, 1, 1, 1, 1]] then some st
  else do
    let pqrs2 : ℤ := if n3p = 1 then ((codes.getD (n3p - 1) 0 : ℕ) : ℤ) else -1
    let (loc, pqrs2) ← scan nloc codes 1 st.loc pqrs2
    let loc ← setEnd nloc loc pqrs2 n3p
    some { st with loc := loc }

/-- `sort3`, ccpy/lib/fortran/ccp3_adaptive_loops.f90:1434-1474 (no amplitudes there; the copies in
ccp3_full_correction.f90:24701-24752 and `sort2`, eaccp3_correction.f90:6419-6470 sort amplitudes as
well and compute the table entry of a single row without using it). The final write is guarded by
`n3p > 1`. -/
def sort3 {K : Type} (nloc : ℕ) (table : List ℤ → ℕ) (idims : List ℕ) (excits : List (List ℕ))
    (amps : List K) (resid : Option (List K)) : Option (Sorted K) :=
  let n3p := excits.length
  let st := sorted table idims excits amps resid
  let codes := st.excits.map (lookup table idims)
  do
    let (loc, pqr2) ← scan nloc codes 1 st.loc 0
    let loc ← if n3p > 1 then setEnd nloc loc pqr2 n3p else some loc
    some { st with loc := loc }

end Ccpy.Blocks
