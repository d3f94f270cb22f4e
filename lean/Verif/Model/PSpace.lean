import Verif.Model.Blocks
import Mathlib.Data.Rat.Defs
import Mathlib.Algebra.BigOperators.Group.List.Defs
import Mathlib.Algebra.Group.Pi.Basic
import Mathlib.Algebra.Ring.Rat

/-! Common parts of the P-space kernels `update_t3a_p`, ..., `update_t3d_p` of `/repo/ccpy/lib/fortran/ccsdt_p_loops.f90`.

A list of triple excitations is an array of rows `[a, b, c, i, j, k]` with 1-based entries and an array of amplitudes.  A
kernel goes through a sequence of blocks; each block sorts a list by four of its columns and then adds, for each row `p` of
the list that is updated, the contributions of those rows `q` of the sorted list whose sort columns have the values that the
cases of the block ask for.

Simplifications: real numbers are rationals, so the order of a summation does not matter (the loops over `idet` are
parallel in `/repo`); arrays are functions of 1-based indices that are never read outside of their bounds by the rows that are
allowed; the sizes `nloc` are computed in the natural numbers, where `n - 1` is 0 for `n = 0`. -/

namespace Ccpy.PSpace
open Ccpy.Blocks

/-- The dimensions `noa`, `nua`, `nob`, `nub`. -/
structure Dims where
  oa : ℕ
  ua : ℕ
  ob : ℕ
  ub : ℕ

abbrev Arr2 := ℕ → ℕ → ℚ
abbrev Arr4 := ℕ → ℕ → ℕ → ℕ → ℚ

/-- The array arguments of the kernels, in the index order of the Fortran declarations, e.g.
`/repo/ccpy/lib/fortran/ccsdt_p_loops.f90:564-594` and `2387-2452`; a kernel reads only those that are among its arguments. -/
structure Arrays where
  t2a : Arr4 := fun _ _ _ _ => 0
  t2b : Arr4 := fun _ _ _ _ => 0
  t2c : Arr4 := fun _ _ _ _ => 0
  h1a_oo : Arr2 := fun _ _ => 0
  h1a_vv : Arr2 := fun _ _ => 0
  h1b_oo : Arr2 := fun _ _ => 0
  h1b_vv : Arr2 := fun _ _ => 0
  h2a_oovv : Arr4 := fun _ _ _ _ => 0
  h2a_vvov : Arr4 := fun _ _ _ _ => 0
  h2a_vooo : Arr4 := fun _ _ _ _ => 0
  h2a_oooo : Arr4 := fun _ _ _ _ => 0
  h2a_voov : Arr4 := fun _ _ _ _ => 0
  h2a_vvvv : Arr4 := fun _ _ _ _ => 0
  h2b_oovv : Arr4 := fun _ _ _ _ => 0
  h2b_vvov : Arr4 := fun _ _ _ _ => 0
  h2b_vvvo : Arr4 := fun _ _ _ _ => 0
  h2b_vooo : Arr4 := fun _ _ _ _ => 0
  h2b_ovoo : Arr4 := fun _ _ _ _ => 0
  h2b_oooo : Arr4 := fun _ _ _ _ => 0
  h2b_voov : Arr4 := fun _ _ _ _ => 0
  h2b_vovo : Arr4 := fun _ _ _ _ => 0
  h2b_ovov : Arr4 := fun _ _ _ _ => 0
  h2b_ovvo : Arr4 := fun _ _ _ _ => 0
  h2b_vvvv : Arr4 := fun _ _ _ _ => 0
  h2c_oovv : Arr4 := fun _ _ _ _ => 0
  h2c_vvov : Arr4 := fun _ _ _ _ => 0
  h2c_vooo : Arr4 := fun _ _ _ _ => 0
  h2c_oooo : Arr4 := fun _ _ _ _ => 0
  h2c_voov : Arr4 := fun _ _ _ _ => 0
  h2c_vvvv : Arr4 := fun _ _ _ _ => 0
  fa_oo : Arr2 := fun _ _ => 0
  fa_vv : Arr2 := fun _ _ => 0
  fb_oo : Arr2 := fun _ _ => 0
  fb_vv : Arr2 := fun _ _ => 0
  shift : ℚ := 0

/-- The arrays `I2A_vooo`, ... that the kernels build first. -/
structure Inter where
  i2a_vooo : Arr4 := fun _ _ _ _ => 0
  i2a_vvov : Arr4 := fun _ _ _ _ => 0
  i2b_vooo : Arr4 := fun _ _ _ _ => 0
  i2b_ovoo : Arr4 := fun _ _ _ _ => 0
  i2b_vvov : Arr4 := fun _ _ _ _ => 0
  i2b_vvvo : Arr4 := fun _ _ _ _ => 0
  i2c_vooo : Arr4 := fun _ _ _ _ => 0
  i2c_vvov : Arr4 := fun _ _ _ _ => 0

/-- `excits(idet,i)` -/
def column (row : List ℕ) (i : ℕ) : ℕ := row.getD (i - 1) 0

/-- One `idx = idx_table(..)` with its loop over `jdet`: the columns of the row `idet` that are looked up, whether
`if (idx/=0)` surrounds the loop, and the number multiplied with the amplitude of the row `jdet`, e.g.
`/repo/ccpy/lib/fortran/ccsdt_p_loops.f90:659-675`. -/
structure Case where
  key : List ℕ
  guarded : Bool
  hmatel : (ℕ → ℕ) → (ℕ → ℕ) → ℚ

/-- One call of `get_index_table` and `sort4` with the loop over `idet` that follows, e.g.
`/repo/ccpy/lib/fortran/ccsdt_p_loops.f90:638-711`. -/
structure Block where
  rng1 : ℤ × ℤ
  rng2 : ℤ × ℤ
  rng3 : ℤ × ℤ
  rng4 : ℤ × ℤ
  n1 : ℕ
  n2 : ℕ
  n3 : ℕ
  n4 : ℕ
  nloc : ℕ
  idims : List ℕ
  cases : List Case

/-- The arrays `excits`, `amps` and `resid` of the list that is updated. -/
structure State where
  excits : List (List ℕ)
  amps : List ℚ
  resid : List ℚ

/-- The arrays `t3_excits_buff` and `t3_amps_buff`. -/
structure Buffer where
  excits : List (List ℕ)
  amps : List ℚ

/-- `do jdet = loc_arr(1,idx), loc_arr(2,idx)`, adding `hmatel*amps(jdet)`. -/
def sumLoop (excits : List (List ℕ)) (amps : List ℚ) (lo hi : ℕ) (f : List ℕ → ℚ) : ℚ :=
  ((List.range' lo (hi + 1 - lo)).map fun jdet => f (excits.getD (jdet - 1) []) * amps.getD (jdet - 1) 0).sum

/-- One case for the row `idet`; `none` if `loc_arr` is read outside of its bounds. -/
def Case.run (c : Case) (nloc : ℕ) (table : List ℤ → ℕ) (loc : Loc) (excits : List (List ℕ)) (amps : List ℚ) (row : List ℕ) :
    Option ℚ :=
  let idx := lookup table c.key row
  if idx = 0 then if c.guarded then some 0 else none
  else if nloc < idx then none
  else some (sumLoop excits amps (loc idx).1 (loc idx).2 fun q => c.hmatel (column row) (column q))

/-- All cases of a block for the row `idet`. -/
def Block.total (b : Block) (table : List ℤ → ℕ) (loc : Loc) (excits : List (List ℕ)) (amps : List ℚ) (row : List ℕ) :
    Option ℚ := do
  let x ← b.cases.mapM fun c => c.run b.nloc table loc excits amps row
  some x.sum

/-- The loop over `idet`. -/
def Block.loop (b : Block) (table : List ℤ → ℕ) (loc : Loc) (excits : List (List ℕ)) (amps : List ℚ) (rows : List (List ℕ))
    (resid : List ℚ) : Option (List ℚ) :=
  (rows.zip resid).mapM fun x => do
    let y ← b.total table loc excits amps x.1
    some (x.2 + y)

/-- A block whose rows `jdet` are those of the updated list itself: the list is sorted together with `resid`, e.g.
`/repo/ccpy/lib/fortran/ccsdt_p_loops.f90:642-711`. -/
def Block.own (b : Block) (s : State) : Option State := do
  let table ← getIndexTable4 b.rng1 b.rng2 b.rng3 b.rng4 b.n1 b.n2 b.n3 b.n4
  let o ← sort4 b.nloc table b.idims s.excits s.amps (some s.resid)
  let r ← o.resid
  let resid ← b.loop table o.loc o.excits o.amps o.excits r
  some ⟨o.excits, o.amps, resid⟩

/-- A block whose rows `jdet` are those of a copy of another list, e.g.
`/repo/ccpy/lib/fortran/ccsdt_p_loops.f90:2190-2305`. -/
def Block.other (b : Block) (s : State) (buff : Buffer) : Option (State × Buffer) := do
  let table ← getIndexTable4 b.rng1 b.rng2 b.rng3 b.rng4 b.n1 b.n2 b.n3 b.n4
  let o ← sort4 b.nloc table b.idims buff.excits buff.amps none
  let resid ← b.loop table o.loc o.excits o.amps s.excits s.resid
  some (⟨s.excits, s.amps, resid⟩, ⟨o.excits, o.amps⟩)

/-- A sequence of blocks over the updated list. -/
def runOwn (bs : List Block) (s : State) : Option State := bs.foldlM (fun s b => b.own s) s

/-- A sequence of blocks over one copy of another list. -/
def runOther (bs : List Block) (s : State) (buff : Buffer) : Option State := do
  let x ← bs.foldlM (fun x b => b.other x.1 x.2) (s, buff)
  some x.1

/-- `do m = 1, n` adding `f m`. -/
def sumTo (n : ℕ) (f : ℕ → ℚ) : ℚ := ((List.range n).map fun m => f (m + 1)).sum

/-- The loops over `idet` that add the moment `f`, e.g. `/repo/ccpy/lib/fortran/ccsdt_p_loops.f90:2320-2369`. -/
def State.addMoment (s : State) (f : (ℕ → ℕ) → ℚ) : State :=
  { s with resid := (s.excits.zip s.resid).map fun x => x.2 + f (column x.1) }

/-- The last loop over `idet`, e.g. `/repo/ccpy/lib/fortran/ccsdt_p_loops.f90:2371-2383`; a division by zero gives zero here. -/
def State.finish (s : State) (shift : ℚ) (denom : (ℕ → ℕ) → ℚ) : State :=
  let resid := (s.excits.zip s.resid).map fun x => x.2 / (denom (column x.1) - shift)
  { s with resid := resid, amps := (s.amps.zip resid).map fun x => x.1 + x.2 }

/-- `I(:,a,i,j) = I(:,a,i,j) + v(:)`, e.g. `/repo/ccpy/lib/fortran/ccsdt_p_loops.f90:7393`. -/
def addSlice (a i j : ℕ) (v : ℕ → ℚ) (I : Arr4) : Arr4 := fun m a' i' j' =>
  if a' = a ∧ i' = i ∧ j' = j then I m a' i' j' + v m else I m a' i' j'

/-- `do i = 1,n; do j = i+1,n; I(i,j) = I(i,j) - I(j,i); I(j,i) = -I(i,j)`, where `I(i,j)` stands for the elements with
these two indices and all values of the other two, as in `/repo/ccpy/lib/fortran/ccsdt_p_loops.f90:7411-7421`. -/
def antisymmetrizeLoop {β : Type} [Sub β] [Neg β] (n : ℕ) (I : ℕ → ℕ → β) : ℕ → ℕ → β :=
  ((List.range n).flatMap fun i => (List.range (n - (i + 1))).map fun j => (i + 1, i + 1 + (j + 1))).foldl
    (fun I p =>
      let I := Function.update I p.1 (Function.update (I p.1) p.2 (I p.1 p.2 - I p.2 p.1))
      Function.update I p.2 (Function.update (I p.2) p.1 (- I p.1 p.2))) I

end Ccpy.PSpace
