import Mathlib.Data.List.Basic

/-! Lists that a `Driver` keeps or derives, `/repo/ccpy/drivers/driver.py`. -/

namespace Ccpy.DriverArrays

/-! ### Density matrices -/

/-- A Python list of lists: the outer list holds references, `rows` the lists referred to. -/
structure Table (α : Type) where
  refs : List ℕ
  rows : List (List (Option α))
  deriving DecidableEq

/-- `[[None] * n] * n`, `/repo/ccpy/drivers/driver.py:109`: one inner list, and `n` references to it. -/
def emptyTable (α : Type) (n : ℕ) : Table α := ⟨List.replicate n 0, [List.replicate n none]⟩

variable {α : Type}

/-- `t[i][j]`; `none` for an IndexError. -/
def Table.get (t : Table α) (i j : ℕ) : Option (Option α) := do
  let r ← t.refs[i]?
  let row ← t.rows[r]?
  row[j]?

/-- `t[i][j] = x`; `none` for an IndexError. -/
def Table.set (t : Table α) (i j : ℕ) (x : α) : Option (Table α) := do
  let r ← t.refs[i]?
  let row ← t.rows[r]?
  if j < row.length then some { t with rows := t.rows.set r (row.set j (some x)) } else none

/-- `run_rdm1`, `/repo/ccpy/drivers/driver.py:2364-2368`; `density i` is `calc_rdm1(self.T, self.L[i], self.system)`. -/
def runRdm1 (density : ℕ → α) (states : List ℕ) (t : Table α) : Option (Table α) :=
  (states.flatMap fun i => states.map fun j => (i, j)).foldlM (fun t x => t.set x.1 x.2 (density x.1)) t

/-! ### Excitation lists -/

/-- The rows `[a, b, c, i, j, k]` of an excitation array. -/
structure Row where
  (a b c i j k : ℕ)
  deriving DecidableEq

/-- The entries of `t3_excitations`. -/
structure Lists where
  (aaa aab abb bbb : List Row)
  deriving DecidableEq

/-- `row[[2, 0, 1, 5, 3, 4]]`. -/
def permuted (r : Row) : Row := ⟨r.c, r.a, r.b, r.k, r.i, r.j⟩

/-- The part of `run_ccp` (lines 355-360) and, with the same text, of `run_eomccp` (533-537) and `run_eomcc_multiroot`
(627-631) that completes the lists; `none` for an AssertionError. -/
def mirror (rhf : Bool) (l : Lists) : Option Lists :=
  if rhf then
    if l.aaa.length = l.bbb.length ∧ l.aab.length = l.abb.length then
      some { l with bbb := l.aaa, abb := l.aab.map permuted }
    else none
  else some l

end Ccpy.DriverArrays
