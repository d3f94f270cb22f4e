import Verif.Model.Excitations

/-! Model of `add_spinorbital_triples_to_pspace` (ccpy/utilities/selection.py:5-116).

Simplifications: entries of the selection list are natural numbers; a row with some but not all
entries 0 (python would use the index -1) keeps natural-number arithmetic; the counters are a
function of irrep number and spin case (the IndexError of an irrep outside the table is C16's). The
local numbers n3aaa.. always equal the lengths of the new lists and are replaced by them. -/

namespace Ccpy.Excitations

/-- `spatial_orb_idx`, ccpy/utilities/determinants.py:27-31. -/
def spatialIdx (x : ℕ) : ℕ := if x % 2 = 1 then (x + 1) / 2 else x / 2

/-- `_get_excitation_symmetry`, ccpy/utilities/selection.py:23-44, for a row counted from 1. -/
def excSym (s : Sys) (c : Case) (r : List ℕ) : ℕ :=
  match r with
  | [a, b, d, i, j, k] =>
    let sym := s.ref ^^^ s.irrep (i - 1) ^^^ s.irrep (j - 1) ^^^ s.irrep (k - 1)
    match c with
    | .aaa => sym ^^^ s.irrep (a - 1 + s.noa) ^^^ s.irrep (b - 1 + s.noa) ^^^ s.irrep (d - 1 + s.noa)
    | .aab => sym ^^^ s.irrep (a - 1 + s.noa) ^^^ s.irrep (b - 1 + s.noa) ^^^ s.irrep (d - 1 + s.nob)
    | .abb => sym ^^^ s.irrep (a - 1 + s.noa) ^^^ s.irrep (b - 1 + s.nob) ^^^ s.irrep (d - 1 + s.nob)
    | .bbb => sym ^^^ s.irrep (a - 1 + s.nob) ^^^ s.irrep (b - 1 + s.nob) ^^^ s.irrep (d - 1 + s.nob)
  | _ => 0

/-- The new lists and the counters. -/
structure Growing where
  rows : Case → List (List ℕ)
  counts : ℕ → Case → ℕ

/-- `new_t3_excitations[case].append(row)` with its counter increment
(ccpy/utilities/selection.py:68-72 and alike). -/
def Growing.push (g : Growing) (s : Sys) (c : Case) (r : List ℕ) : Growing where
  rows := fun c' => if c' = c then g.rows c ++ [r] else g.rows c'
  counts := fun t c' => if c' = c ∧ t = excSym s c r then g.counts t c + 1 else g.counts t c'

/-- One pass of the loop, ccpy/utilities/selection.py:58-107; `none` is the ValueError of a row
that does not unpack into six entries. -/
def addOne (s : Sys) (rhf : Bool) (g : Growing) (r : List ℕ) : Option Growing :=
  match r.map spatialIdx with
  | [a, b, c, i, j, k] =>
    if a = 0 ∧ b = 0 ∧ c = 0 ∧ i = 0 ∧ j = 0 ∧ k = 0 then some g
    else
      let numAlpha := (r.map (· % 2)).sum / 2
      let g :=
        if numAlpha = 3 then
          let g := g.push s .aaa [a, b, c, i, j, k]
          if rhf then g.push s .bbb [a, b, c, i, j, k] else g
        else g
      let g :=
        if numAlpha = 2 then
          let g := g.push s .aab [a, b, c, i, j, k]
          if rhf then g.push s .abb [c, a, b, k, i, j] else g
        else g
      let g :=
        if !rhf then
          let g := if numAlpha = 1 then g.push s .abb [a, b, c, i, j, k] else g
          if numAlpha = 0 then g.push s .bbb [a, b, c, i, j, k] else g
        else g
      some g
  | _ => none

/-- `_add_t3_excitations`, ccpy/utilities/selection.py:11-21; `none` is the IndexError of looking
at the first row of an array without rows. -/
def mergeRows (old new : List (List ℕ)) : Option (List (List ℕ)) :=
  if new.length > 0 then
    match old with
    | [] => none
    | first :: rest => some (if first = List.replicate 6 1 then new else (first :: rest) ++ new)
  else some old

/-- `add_spinorbital_triples_to_pspace`, ccpy/utilities/selection.py:5-116. -/
def addTriples (s : Sys) (rhf : Bool) (triples : List (List ℕ)) (old : Case → List (List ℕ))
    (counts : ℕ → Case → ℕ) : Option ((Case → List (List ℕ)) × (ℕ → Case → ℕ)) := do
  let g ← triples.foldlM (addOne s rhf) ⟨fun _ => [], counts⟩
  let aaa ← mergeRows (old .aaa) (g.rows .aaa)
  let aab ← mergeRows (old .aab) (g.rows .aab)
  let abb ← mergeRows (old .abb) (g.rows .abb)
  let bbb ← mergeRows (old .bbb) (g.rows .bbb)
  return (fun | .aaa => aaa | .aab => aab | .abb => abb | .bbb => bbb, g.counts)

end Ccpy.Excitations
