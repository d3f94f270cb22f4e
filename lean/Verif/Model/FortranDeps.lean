import Verif.Spec.Dependencies

/-! Model of the build-order tool `/repo/devtools/order_fortran_dependencies.py`.

Not modelled: reading files, the regular expressions (a source line is given by the names they match)
and logging.  Sets are lists; where a set is iterated, `enum` gives the iteration order. -/

namespace Ccpy.FortranDeps
open Ccpy.Spec

variable {V M : Type*} [DecidableEq V] [DecidableEq M]

/-- Exceptions raised by the tool, and an exhausted iteration budget of the model. -/
inductive Err (V M : Type*) where
  | recursionError
  | keyError (v : V)
  | valueError (v : V)
  | exportExists (m : M)
  | circular (c : List V)
  | noResult

/-- `visited` and `path` of `_has_cycle`, `/repo/devtools/order_fortran_dependencies.py:35-36`. -/
structure Search (V : Type*) where
  visited : List V
  path : List V

/-- `for v in vs: if cycle := visit(v): return cycle`,
`/repo/devtools/order_fortran_dependencies.py:48-50` and `55-57`. -/
def firstCycle (visit : V → Search V → Except (Err V M) (Option (List V) × Search V)) :
    List V → Search V → Except (Err V M) (Option (List V) × Search V)
  | [], s => .ok (none, s)
  | v :: vs, s =>
    match visit v s with
    | .error e => .error e
    | .ok (some c, s) => .ok (some c, s)
    | .ok (none, s) => firstCycle visit vs s

/-- `visit`, `/repo/devtools/order_fortran_dependencies.py:38-53`; the first argument is the number of
nested calls Python still allows. -/
def visit (g : V → Option (List V)) : ℕ → V → Search V →
    Except (Err V M) (Option (List V) × Search V)
  | 0, _, _ => .error .recursionError
  | n + 1, v, s =>
    if v ∈ s.path then .ok (some (s.path.drop (s.path.idxOf v) ++ [v]), s)
    else if v ∈ s.visited then .ok (none, s)
    else
      match g v with
      | none => .error (.keyError v)
      | some ns =>
        match firstCycle (visit g n) ns ⟨v :: s.visited, s.path ++ [v]⟩ with
        | .error e => .error e
        | .ok (some c, s) => .ok (some c, s)
        | .ok (none, s) => .ok (none, ⟨s.visited, s.path.dropLast⟩)

/-- `_has_cycle`, `/repo/devtools/order_fortran_dependencies.py:33-58`; `limit` is Python's recursion
limit, `keys` the keys of the dictionary in order. -/
def hasCycle (limit : ℕ) (keys : List V) (g : V → Option (List V)) :
    Except (Err V M) (Option (List V)) :=
  match firstCycle (visit g limit) keys ⟨[], []⟩ with
  | .error e => .error e
  | .ok (c, _) => .ok c

/-- `exports` and `needs_mod`, `/repo/devtools/order_fortran_dependencies.py:63-67`. -/
structure Scan (V M : Type*) where
  exports : List (M × V)
  needsMod : V → List M

/-- One line of a file, `/repo/devtools/order_fortran_dependencies.py:82-98`. -/
def scanLine (f : V) (s : Scan V M) (l : SourceLine M) : Except (Err V M) (Scan V M) :=
  match l.defines with
  | none => .ok (use s)
  | some m =>
    if (s.exports.lookup m).isSome then .error (.exportExists m)
    else .ok (use { s with exports := s.exports ++ [(m, f)] })
where
  /-- lines 95-98 -/
  use (s : Scan V M) : Scan V M :=
    match l.uses with
    | none => s
    | some m => { s with needsMod := fun v => if v = f then
        (if m ∈ s.needsMod f then s.needsMod f else s.needsMod f ++ [m]) else s.needsMod v }

/-- A loop whose body may raise. -/
def forEach {A S E : Type*} (body : S → A → Except E S) : List A → S → Except E S
  | [], s => .ok s
  | a :: as, s =>
    match body s a with
    | .error e => .error e
    | .ok s => forEach body as s

/-- `scan_file`, `/repo/devtools/order_fortran_dependencies.py:69-98`. -/
def scanFile (contents : V → List (SourceLine M)) (s : Scan V M) (f : V) : Except (Err V M) (Scan V M) :=
  forEach (scanLine f) (contents f) s

/-- `_map_needs_to_files`, `/repo/devtools/order_fortran_dependencies.py:113-118`. -/
def mapNeeds (s : Scan V M) (f : V) : List V :=
  ((s.needsMod f).filterMap fun m => s.exports.lookup m).eraseDups

/-- `scan`, `/repo/devtools/order_fortran_dependencies.py:100-111`; returns `self.needs`. -/
def scan (limit : ℕ) (enum : List V → List V) (contents : V → List (SourceLine M)) (files : List V) :
    Except (Err V M) (V → List V) :=
  match forEach (scanFile contents) files ⟨[], fun _ => []⟩ with
  | .error e => .error e
  | .ok s =>
    match hasCycle limit files.eraseDups
      (fun v => if v ∈ files then some (enum (mapNeeds s v)) else none) with
    | .error e => .error e
    | .ok (some c) => .error (.circular c)
    | .ok none => .ok (mapNeeds s)

/-- `list.index`, raising `ValueError`. -/
def index (l : List V) (v : V) : Except (Err V M) ℕ :=
  if v ∈ l then .ok (l.idxOf v) else .error (.valueError v)

/-- Loop over the needs of one file, `/repo/devtools/order_fortran_dependencies.py:135-141`: the output
order, the position of the file and `moved`. -/
def moveNeed (file : V) (s : List V × ℕ × Bool) (need : V) : Except (Err V M) (List V × ℕ × Bool) :=
  match index s.1 need with
  | .error e => .error e
  | .ok needPos =>
    if needPos > s.2.1 then .ok ((s.1.set needPos file).set s.2.1 need, needPos, true) else .ok s

/-- One file of a pass, `/repo/devtools/order_fortran_dependencies.py:131-141`. -/
def moveFile (needs : V → List V) (s : List V × Bool) (file : V) : Except (Err V M) (List V × Bool) :=
  match index s.1 file with
  | .error e => .error e
  | .ok filePos =>
    match forEach (moveNeed file) (needs file) (s.1, filePos, s.2) with
    | .error e => .error e
    | .ok (o, _, moved) => .ok (o, moved)

/-- The `while True` loop, `/repo/devtools/order_fortran_dependencies.py:129-146`, for at most the given
number of passes. -/
def orderLoop (needs : V → List V) (files : List V) : ℕ → List V → Except (Err V M) (List V)
  | 0, _ => .error .noResult
  | n + 1, o =>
    match forEach (moveFile needs) files (o, false) with
    | .error e => .error e
    | .ok (o, moved) => if moved then orderLoop needs files n o else .ok o

/-- `order_dependencies`, `/repo/devtools/order_fortran_dependencies.py:120-146`. -/
def orderDependencies (passes : ℕ) (needs : V → List V) (files : List V) : Except (Err V M) (List V) :=
  orderLoop needs files passes files

/-- `main`, `/repo/devtools/order_fortran_dependencies.py:149-161`. -/
def main (limit passes : ℕ) (enum : List V → List V) (contents : V → List (SourceLine M))
    (files : List V) : Except (Err V M) (List V) :=
  match scan limit enum contents files with
  | .error e => .error e
  | .ok needs => orderDependencies passes (fun f => enum (needs f)) files

end Ccpy.FortranDeps
