import Verif.Model.Writes

/-! Integral files: the FCIDUMP reader (`/repo/ccpy/interfaces/fcidump_tools.py`), the reader of the direct integral files
(`/repo/ccpy/interfaces/gamess_tools.py`) and their writer (`/repo/ccpy/utilities/dumping.py`). -/

namespace Ccpy.IntegralFiles
open Ccpy.Writes

inductive Err where
  | indexError
  /-- `e_nn` is returned without having been assigned. -/
  | unboundLocal
  deriving DecidableEq, Repr

/-- numpy index `x - 1` on an axis of length `n`, for a number `x` of the file: 0 becomes the index `-1`, which is the last
element. -/
def axis (n x : ℕ) : Except Err ℕ :=
  if x = 0 then (if n = 0 then .error .indexError else .ok (n - 1)) else if x ≤ n then .ok (x - 1) else .error .indexError

/-- The fields `L[0], …, L[4]` of a line.  Numbers are parsed; the indices of such files are not negative. -/
structure Line (α : Type) where
  val : α
  (a b c d : ℕ)
  deriving DecidableEq

abbrev Key1 := ℕ × ℕ
abbrev Key2 := ℕ × ℕ × ℕ × ℕ

structure Loaded (α : Type) where
  e1 : Key1 → α
  e2 : Key2 → α
  enn : Option α

variable {α : Type}

/-- The loop body of `load_integrals_from_fcidump`, `/repo/ccpy/interfaces/fcidump_tools.py:91-112`. -/
def readLine (norb : ℕ) (s : Loaded α) (l : Line α) : Except Err (Loaded α) :=
  if l.c ≠ 0 ∧ l.d ≠ 0 then do
    let p ← axis norb l.a
    let q ← axis norb l.c
    let r ← axis norb l.b
    let t ← axis norb l.d
    .ok { s with e2 := applyWrites s.e2 [((p, q, r, t), l.val), ((r, q, p, t), l.val), ((p, t, r, q), l.val), ((r, t, p, q), l.val),
      ((q, p, t, r), l.val), ((q, r, t, p), l.val), ((t, p, q, r), l.val), ((t, r, q, p), l.val)] }
  else if l.c = 0 ∧ l.d = 0 ∧ l.a ≠ 0 then do
    let p ← axis norb l.a
    let r ← axis norb l.b
    .ok { s with e1 := applyWrites s.e1 [((p, r), l.val), ((r, p), l.val)] }
  else .ok { s with enn := some l.val }

/-- `load_integrals_from_fcidump`, `/repo/ccpy/interfaces/fcidump_tools.py:66-114`, for the lines after the four header
lines. -/
def loadFcidump [Zero α] (norb : ℕ) (lines : List (Line α)) : Except Err ((Key1 → α) × (Key2 → α) × α) := do
  let s ← lines.foldlM (readLine norb) ⟨fun _ => 0, fun _ => 0, none⟩
  match s.enn with
  | some x => .ok (s.e1, s.e2, x)
  | none => .error .unboundLocal

/-- The number of orbitals the reader uses: `system.norbitals + system.nfrozen - system.ndelete`, line 86, with
`system.norbitals = norbitals - nfrozen - ndelete`, `/repo/ccpy/models/system.py:30`. -/
def readerNorb (norbitals nfrozen ndelete : ℕ) : ℤ :=
  ((norbitals : ℤ) - nfrozen - ndelete) + nfrozen - ndelete

/-! ### Direct integral files -/

/-- The pairs `i, j` of the loops `for i in range(n): for j in range(i + 1)`. -/
def triangle (n : ℕ) : List (ℕ × ℕ) := (List.range n).flatMap fun i => (List.range (i + 1)).map fun j => (i, j)

/-- The first field of the lines of `onebody.inp` as `dumpIntegralstoPGFiles` writes them,
`/repo/ccpy/utilities/dumping.py:3-9`; `print` is the format `{:>.11f}`. -/
def dumpOnebody {β : Type} (print : α → β) (n : ℕ) (e1 : Key1 → α) : List β := (triangle n).map fun x => print (e1 x)

/-- The lines of `twobody.inp`, `/repo/ccpy/utilities/dumping.py:10-24`. -/
def dumpTwobody {β : Type} (print : α → β) (n : ℕ) (e2 : Key2 → α) (nuclear : α) : List (Line β) :=
  ((List.range n).flatMap fun i => (List.range n).flatMap fun k => (List.range n).flatMap fun j => (List.range n).map fun l =>
    ⟨print (e2 (i, j, k, l)), i + 1, j + 1, k + 1, l + 1⟩) ++ [⟨print nuclear, 0, 0, 0, 0⟩]

/-- `load_onebody_integrals`, `/repo/ccpy/interfaces/gamess_tools.py:198-228`: line number `ct` for the `ct`-th pair. -/
def loadOnebody [Zero α] {β : Type} (parse : β → α) (norb : ℕ) (lines : List β) : Except Err (Key1 → α) :=
  (triangle norb).zipIdx.foldlM (fun e1 x =>
    match lines[x.2]? with
    | none => .error .indexError
    | some y => .ok (applyWrites e1 [((x.1.1, x.1.2), parse y), ((x.1.2, x.1.1), parse y)])) fun _ => 0

/-- The loop of `load_twobody_integrals`, `/repo/ccpy/interfaces/gamess_tools.py:253-265`. -/
def readTwobody {β : Type} (parse : β → α) (norb : ℕ) (s : (Key2 → α) × Option α) (l : Line β) :
    Except Err ((Key2 → α) × Option α) :=
  if l.a + l.b + l.c + l.d = 0 then .ok (s.1, some (parse l.val))
  else do
    let i ← axis norb l.a
    let j ← axis norb l.b
    let k ← axis norb l.c
    let m ← axis norb l.d
    .ok (applyWrites s.1 [((i, j, k, m), parse l.val)], s.2)

/-- `load_twobody_integrals`, `/repo/ccpy/interfaces/gamess_tools.py:231-273`; the last step is
`np.einsum("iajb->ijab", e2int)`. -/
def loadTwobody [Zero α] {β : Type} (parse : β → α) (norb : ℕ) (lines : List (Line β)) : Except Err (α × (Key2 → α)) := do
  let s ← lines.foldlM (readTwobody parse norb) (fun _ => 0, none)
  match s.2 with
  | some x => .ok (x, fun k => s.1 (k.1, k.2.2.1, k.2.1, k.2.2.2))
  | none => .error .unboundLocal

end Ccpy.IntegralFiles
