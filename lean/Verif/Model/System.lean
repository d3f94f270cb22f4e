import Mathlib.Data.List.Basic
import Mathlib.Data.Nat.Bitwise

/-! Model of `/repo/ccpy/models/system.py` and of the tables in
`/repo/ccpy/utilities/symmetry.py:1-52`. -/

namespace Ccpy.System

/-- `get_pg_irreps(pg)`, `/repo/ccpy/utilities/symmetry.py:1-17`; `none` is the `KeyError`.
Simplification: the argument is the name after `.upper()`. -/
def getPgIrreps (pg : String) : Option (List (String × ℕ)) :=
  [("C1", [("A", 0)]),
   ("C2", [("A", 0), ("B", 1)]),
   ("CI", [("AG", 0), ("AU", 1)]),
   ("CS", [("A'", 0), ("A\"", 1)]),
   ("C2V", [("A1", 0), ("A2", 1), ("B1", 2), ("B2", 3)]),
   ("C2H", [("AG", 0), ("BG", 1), ("BU", 2), ("AU", 3)]),
   ("D2", [("A", 0), ("B1", 1), ("B2", 2), ("B3", 3)]),
   ("D2H", [("AG", 0), ("B1G", 1), ("B2G", 2), ("B3G", 3), ("AU", 4), ("B1U", 5), ("B2U", 6),
     ("B3U", 7)])].lookup pg

/-- `sym_table(pg)`, `/repo/ccpy/utilities/symmetry.py:20-52`. -/
def symTable (pg : String) : Option (List (List ℕ)) :=
  [("C1", [[0]]),
   ("C2", [[0, 1], [1, 0]]),
   ("CS", [[0, 1], [1, 0]]),
   ("CI", [[0, 1], [1, 0]]),
   ("C2V", [[0, 1, 2, 3], [1, 0, 3, 2], [2, 3, 0, 1], [3, 2, 1, 0]]),
   ("C2H", [[0, 1, 2, 3], [1, 0, 3, 2], [2, 3, 0, 1], [3, 2, 1, 0]]),
   ("D2", [[0, 1, 2, 3], [1, 0, 3, 2], [2, 3, 0, 1], [3, 2, 1, 0]]),
   ("D2H", [[0, 1, 2, 3, 4, 5, 6, 7], [1, 0, 3, 2, 5, 4, 7, 6], [2, 3, 0, 1, 6, 7, 4, 5],
     [3, 2, 1, 0, 7, 6, 5, 4], [4, 5, 6, 7, 0, 1, 2, 3], [5, 4, 7, 6, 1, 0, 3, 2],
     [6, 7, 4, 5, 2, 3, 0, 1], [7, 6, 5, 4, 3, 2, 1, 0]])].lookup pg

/-- The integer fields computed first in `System.__init__` and `UHFSystem.__init__`,
`/repo/ccpy/models/system.py:29-40` and `124-135`. -/
structure Counts where
  nelectrons : ℤ
  norbitals : ℤ
  noa : ℤ
  nob : ℤ
  nua : ℤ
  nub : ℤ
  deriving DecidableEq, Repr

/-- `int(x / 2)`: true division followed by truncation towards zero. -/
def halfInt (x : ℤ) : ℤ := x.tdiv 2

/-- `/repo/ccpy/models/system.py:29-40` (`System`), `124-135` (`UHFSystem`). -/
def counts (nelectrons norbitals multiplicity nfrozen ndelete : ℤ) : Counts :=
  let ne := nelectrons - 2 * nfrozen
  let norb := norbitals - nfrozen - ndelete
  let noa := halfInt (ne + multiplicity - 1)
  let nob := halfInt (ne - multiplicity + 1)
  { nelectrons := ne, norbitals := norb, noa := noa, nob := nob,
    nua := norb - noa, nub := norb - nob }

/-- The eight active-space sizes. -/
structure ActiveSpace where
  actOccA : ℤ
  coreA : ℤ
  actOccB : ℤ
  coreB : ℤ
  actUnoccA : ℤ
  virtA : ℤ
  actUnoccB : ℤ
  virtB : ℤ
  deriving DecidableEq, Repr

/-- `set_active_space(nact_occupied, nact_unoccupied)`, `/repo/ccpy/models/system.py:85-93`
(`System`) and `176-184` (`UHFSystem`).  The last line subtracts from `nunoccupied_alpha`, as in
the source. -/
def setActiveSpace (c : Counts) (multiplicity nactOcc nactUnocc : ℤ) : ActiveSpace :=
  let actOccA := min c.noa ((multiplicity - 1) + nactOcc)
  let actOccB := min c.nob nactOcc
  let actUnoccA := min c.nua nactUnocc
  let actUnoccB := min c.nub ((multiplicity - 1) + nactUnocc)
  { actOccA := actOccA
    coreA := max 0 (c.noa - actOccA)
    actOccB := actOccB
    coreB := max 0 (c.nob - actOccB)
    actUnoccA := actUnoccA
    virtA := max 0 (c.nua - actUnoccA)
    actUnoccB := actUnoccB
    virtB := max 0 (c.nua - actUnoccB) }

/-- `set_full_active_space()`, `/repo/ccpy/models/system.py:95-96`. -/
def setFullActiveSpace (c : Counts) (multiplicity : ℤ) : ActiveSpace :=
  setActiveSpace c multiplicity c.noa c.nub

/-- The default `mo_occupation`, `/repo/ccpy/models/system.py:52-55`; python's list repetition
`[x] * n` is empty for negative `n`, hence `toNat`.  Occupations are integers here. -/
def defaultOccupation (c : Counts) (nfrozen : ℤ) : List ℕ :=
  List.replicate nfrozen.toNat 2 ++ List.replicate c.nob.toNat 2 ++
    List.replicate (c.noa - c.nob).toNat 1 ++ List.replicate (c.norbitals - c.noa).toNat 0

/-- `point_group_irrep_to_number[orbital_symmetries_all[i]]`; `none` stands for the `IndexError` or
`KeyError`.  `/repo/ccpy/models/system.py:79`. -/
def orbitalIrrep (table : List (String × ℕ)) (syms : List String) (i : ℕ) : Option ℕ :=
  syms[i]?.bind (fun s => table.lookup s)

/-- Inner loop `for j in range(int(mo_occupation[i])): sym = sym ^ irrep`,
`/repo/ccpy/models/system.py:78-79`.  The irrep is looked up once per pass, so nothing is looked up
(and nothing can fail) for an unoccupied orbital. -/
def xorTimes (irrep : Option ℕ) : ℕ → ℕ → Option ℕ
  | 0, sym => some sym
  | n + 1, sym => irrep.bind (fun r => xorTimes irrep n (sym ^^^ r))

/-- Outer loop over orbitals, `/repo/ccpy/models/system.py:76-79`. -/
def xorOrbitals (table : List (String × ℕ)) (syms : List String) (occ : List ℕ) :
    List ℕ → ℕ → Option ℕ
  | [], sym => some sym
  | i :: is, sym =>
    (occ[i]?).bind fun n =>
      (xorTimes (orbitalIrrep table syms i) n sym).bind fun sym' =>
        xorOrbitals table syms occ is sym'

/-- `number_to_irrep[sym]`, `/repo/ccpy/models/system.py:46, 80`. -/
def numberToIrrep (table : List (String × ℕ)) (n : ℕ) : Option String :=
  (table.map (fun p => (p.2, p.1))).lookup n

/-- `reference_symmetry`, `/repo/ccpy/models/system.py:75-80`. -/
def referenceSymmetry (table : List (String × ℕ)) (syms : List String) (occ : List ℕ)
    (nfrozen noa : ℕ) : Option String :=
  (xorOrbitals table syms occ (List.range (nfrozen + noa)) 0).bind (numberToIrrep table)

/-- Outer loop of `UHFSystem.__init__`, `/repo/ccpy/models/system.py:163-168`: alpha then beta
spin orbital of each spatial index. -/
def xorOrbitalsUHF (table : List (String × ℕ)) (symsA symsB : List String) (occA occB : List ℕ) :
    List ℕ → ℕ → Option ℕ
  | [], sym => some sym
  | i :: is, sym =>
    (occA[i]?).bind fun n =>
      (xorTimes (orbitalIrrep table symsA i) n sym).bind fun sym' =>
        (occB[i]?).bind fun m =>
          (xorTimes (orbitalIrrep table symsB i) m sym').bind fun sym'' =>
            xorOrbitalsUHF table symsA symsB occA occB is sym''

/-- `reference_symmetry` of `UHFSystem`, `/repo/ccpy/models/system.py:163-169`. -/
def referenceSymmetryUHF (table : List (String × ℕ)) (symsA symsB : List String)
    (occA occB : List ℕ) (nfrozen noa : ℕ) : Option String :=
  (xorOrbitalsUHF table symsA symsB occA occB (List.range (nfrozen + noa)) 0).bind
    (numberToIrrep table)

/-- Default orbital symmetries `["A"] * norbitals`, `/repo/ccpy/models/system.py:47-48`. -/
def defaultSymmetries (norbitals : ℕ) : List String := List.replicate norbitals "A"

end Ccpy.System
