import Mathlib.Data.Nat.Notation

/-! Model of the excitation-list generators: ccpy/utilities/pspace.py (active P spaces),
ccpy/utilities/qspace.py (Q spaces), ccpy/utilities/symmetry.py (symmetry-resolved counts).

Simplifications: the numpy conversion and the printing are dropped; irrep labels are already
replaced by their numbers (the lookup `point_group_irrep_to_number[orbital_symmetries[p]]` is the
field `irrep`, label errors are the subject of C09); counts of orbitals are natural numbers. -/

namespace Ccpy.Excitations

/-- The attributes of `System` the generators read (ccpy/models/system.py:73-105). -/
structure Sys where
  noa : ℕ
  nob : ℕ
  norb : ℕ
  actOA : ℕ
  actOB : ℕ
  actUA : ℕ
  actUB : ℕ
  /-- irrep number of a correlated spatial orbital -/
  irrep : ℕ → ℕ
  /-- irrep number of the reference -/
  ref : ℕ

/-- `nunoccupied_alpha = norbitals - noccupied_alpha`, ccpy/models/system.py:79-80. -/
def Sys.nua (s : Sys) : ℕ := s.norb - s.noa
def Sys.nub (s : Sys) : ℕ := s.norb - s.nob

/-- `for x in range(lo, hi): body`, where the body appends to one list. -/
def forRange {α : Type} (lo hi : ℕ) (f : ℕ → List α) : List α :=
  (List.range' lo (hi - lo)).flatMap f

/-- `active_hole`, ccpy/utilities/active_space.py:16-20. -/
def activeHole (x nocc nact : ℕ) : ℕ := if x < nocc - nact then 0 else 1

/-- `active_particle`, ccpy/utilities/active_space.py:22-26. -/
def activeParticle (x nact : ℕ) : ℕ := if x < nact then 1 else 0

/-- The four local counters, ccpy/utilities/pspace.py:616-626. -/
def countOccA (s : Sys) (occ : List ℕ) : ℕ := (occ.map fun i => activeHole i s.noa s.actOA).sum
def countOccB (s : Sys) (occ : List ℕ) : ℕ := (occ.map fun i => activeHole i s.nob s.actOB).sum
def countUnoccA (s : Sys) (un : List ℕ) : ℕ := (un.map fun a => activeParticle a s.actUA).sum
def countUnoccB (s : Sys) (un : List ℕ) : ℕ := (un.map fun a => activeParticle a s.actUB).sum

/-- `checksym_aaa`, ccpy/utilities/pspace.py:628-640;
the same text is in qspace.py. `none` is the code's `sym_target == -1`. -/
def checkAaa (s : Sys) (target : Option ℕ) (i j k a b c : ℕ) : Bool :=
  match target with
  | none => true
  | some t =>
    (s.ref ^^^ s.irrep i ^^^ s.irrep j ^^^ s.irrep k ^^^
      s.irrep (a + s.noa) ^^^ s.irrep (b + s.noa) ^^^ s.irrep (c + s.noa)) == t

/-- `checksym_aab`, ccpy/utilities/pspace.py:642-654;
the same text is in qspace.py. `none` is the code's `sym_target == -1`. -/
def checkAab (s : Sys) (target : Option ℕ) (i j k a b c : ℕ) : Bool :=
  match target with
  | none => true
  | some t =>
    (s.ref ^^^ s.irrep i ^^^ s.irrep j ^^^ s.irrep k ^^^
      s.irrep (a + s.noa) ^^^ s.irrep (b + s.noa) ^^^ s.irrep (c + s.nob)) == t

/-- `checksym_abb`, ccpy/utilities/pspace.py:656-668;
the same text is in qspace.py. `none` is the code's `sym_target == -1`. -/
def checkAbb (s : Sys) (target : Option ℕ) (i j k a b c : ℕ) : Bool :=
  match target with
  | none => true
  | some t =>
    (s.ref ^^^ s.irrep i ^^^ s.irrep j ^^^ s.irrep k ^^^
      s.irrep (a + s.noa) ^^^ s.irrep (b + s.nob) ^^^ s.irrep (c + s.nob)) == t

/-- `checksym_bbb`, ccpy/utilities/pspace.py:670-682;
the same text is in qspace.py. `none` is the code's `sym_target == -1`. -/
def checkBbb (s : Sys) (target : Option ℕ) (i j k a b c : ℕ) : Bool :=
  match target with
  | none => true
  | some t =>
    (s.ref ^^^ s.irrep i ^^^ s.irrep j ^^^ s.irrep k ^^^
      s.irrep (a + s.nob) ^^^ s.irrep (b + s.nob) ^^^ s.irrep (c + s.nob)) == t

/-- The `aaa` loops of `get_active_triples_pspace`, ccpy/utilities/pspace.py:694-704. -/
def activePAaa (s : Sys) (num : ℕ) (target : Option ℕ) : List (List ℕ) :=
  forRange 0 s.noa fun i => forRange (i + 1) s.noa fun j => forRange (j + 1) s.noa fun k =>
    if countOccA s [i, j, k] < num then [] else
    forRange 0 s.nua fun a => forRange (a + 1) s.nua fun b => forRange (b + 1) s.nua fun c =>
      if countUnoccA s [a, b, c] ≥ num then
        if !checkAaa s target i j k a b c then [] else [[a + 1, b + 1, c + 1, i + 1, j + 1, k + 1]]
      else []

/-- The `aab` loops of `get_active_triples_pspace`, ccpy/utilities/pspace.py:705-715. -/
def activePAab (s : Sys) (num : ℕ) (target : Option ℕ) : List (List ℕ) :=
  forRange 0 s.noa fun i => forRange (i + 1) s.noa fun j => forRange 0 s.nob fun k =>
    if countOccA s [i, j] + countOccB s [k] < num then [] else
    forRange 0 s.nua fun a => forRange (a + 1) s.nua fun b => forRange 0 s.nub fun c =>
      if countUnoccA s [a, b] + countUnoccB s [c] ≥ num then
        if !checkAab s target i j k a b c then [] else [[a + 1, b + 1, c + 1, i + 1, j + 1, k + 1]]
      else []

/-- The `abb` loops of `get_active_triples_pspace`, ccpy/utilities/pspace.py:716-726. -/
def activePAbb (s : Sys) (num : ℕ) (target : Option ℕ) : List (List ℕ) :=
  forRange 0 s.noa fun i => forRange 0 s.nob fun j => forRange (j + 1) s.nob fun k =>
    if countOccA s [i] + countOccB s [j, k] < num then [] else
    forRange 0 s.nua fun a => forRange 0 s.nub fun b => forRange (b + 1) s.nub fun c =>
      if countUnoccA s [a] + countUnoccB s [b, c] ≥ num then
        if !checkAbb s target i j k a b c then [] else [[a + 1, b + 1, c + 1, i + 1, j + 1, k + 1]]
      else []

/-- The `bbb` loops of `get_active_triples_pspace`, ccpy/utilities/pspace.py:727-737. -/
def activePBbb (s : Sys) (num : ℕ) (target : Option ℕ) : List (List ℕ) :=
  forRange 0 s.nob fun i => forRange (i + 1) s.nob fun j => forRange (j + 1) s.nob fun k =>
    if countOccB s [i, j, k] < num then [] else
    forRange 0 s.nub fun a => forRange (a + 1) s.nub fun b => forRange (b + 1) s.nub fun c =>
      if countUnoccB s [a, b, c] ≥ num then
        if !checkBbb s target i j k a b c then [] else [[a + 1, b + 1, c + 1, i + 1, j + 1, k + 1]]
      else []

/-- Conversion of a list, with the placeholder row of ones for an empty one
(ccpy/utilities/pspace.py:742-745; width 5 at 856-859, 973-976). -/
def finalize (width : ℕ) (rows : List (List ℕ)) : List (List ℕ) :=
  if rows = [] then [List.replicate width 1] else rows

/-- The spin cases of triples. -/
inductive Case where
  | aaa
  | aab
  | abb
  | bbb
deriving DecidableEq, Repr

/-- The list of one spin case before the conversion. -/
def activePraw (s : Sys) (num : ℕ) (target : Option ℕ) : Case → List (List ℕ)
  | .aaa => activePAaa s num target
  | .aab => activePAab s num target
  | .abb => activePAbb s num target
  | .bbb => activePBbb s num target

/-- `get_active_triples_pspace`, ccpy/utilities/pspace.py:603-750. -/
def activePspace (s : Sys) (num : ℕ) (target : Option ℕ) (c : Case) : List (List ℕ) :=
  finalize 6 (activePraw s num target c)

/-- The `aaa` loops of `get_active_triples_qspace`, ccpy/utilities/qspace.py:247-256. -/
def activeQAaa (s : Sys) (num : ℕ) (target : Option ℕ) : List (List ℕ) :=
  forRange 0 s.noa fun i => forRange (i + 1) s.noa fun j => forRange (j + 1) s.noa fun k =>
    forRange 0 s.nua fun a => forRange (a + 1) s.nua fun b => forRange (b + 1) s.nua fun c =>
      if countUnoccA s [a, b, c] < num ∨
          countOccA s [i, j, k] < num then
        if !checkAaa s target i j k a b c then [] else [[a + 1, b + 1, c + 1, i + 1, j + 1, k + 1]]
      else []

/-- The `aab` loops of `get_active_triples_qspace`, ccpy/utilities/qspace.py:257-266. -/
def activeQAab (s : Sys) (num : ℕ) (target : Option ℕ) : List (List ℕ) :=
  forRange 0 s.noa fun i => forRange (i + 1) s.noa fun j => forRange 0 s.nob fun k =>
    forRange 0 s.nua fun a => forRange (a + 1) s.nua fun b => forRange 0 s.nub fun c =>
      if countUnoccA s [a, b] + countUnoccB s [c] < num ∨
          countOccA s [i, j] + countOccB s [k] < num then
        if !checkAab s target i j k a b c then [] else [[a + 1, b + 1, c + 1, i + 1, j + 1, k + 1]]
      else []

/-- The `abb` loops of `get_active_triples_qspace`, ccpy/utilities/qspace.py:267-276. -/
def activeQAbb (s : Sys) (num : ℕ) (target : Option ℕ) : List (List ℕ) :=
  forRange 0 s.noa fun i => forRange 0 s.nob fun j => forRange (j + 1) s.nob fun k =>
    forRange 0 s.nua fun a => forRange 0 s.nub fun b => forRange (b + 1) s.nub fun c =>
      if countUnoccA s [a] + countUnoccB s [b, c] < num ∨
          countOccA s [i] + countOccB s [j, k] < num then
        if !checkAbb s target i j k a b c then [] else [[a + 1, b + 1, c + 1, i + 1, j + 1, k + 1]]
      else []

/-- The `bbb` loops of `get_active_triples_qspace`, ccpy/utilities/qspace.py:277-286. -/
def activeQBbb (s : Sys) (num : ℕ) (target : Option ℕ) : List (List ℕ) :=
  forRange 0 s.nob fun i => forRange (i + 1) s.nob fun j => forRange (j + 1) s.nob fun k =>
    forRange 0 s.nub fun a => forRange (a + 1) s.nub fun b => forRange (b + 1) s.nub fun c =>
      if countUnoccB s [a, b, c] < num ∨
          countOccB s [i, j, k] < num then
        if !checkBbb s target i j k a b c then [] else [[a + 1, b + 1, c + 1, i + 1, j + 1, k + 1]]
      else []

/-- The list of one spin case before the conversion. -/
def activeQraw (s : Sys) (num : ℕ) (target : Option ℕ) : Case → List (List ℕ)
  | .aaa => activeQAaa s num target
  | .aab => activeQAab s num target
  | .abb => activeQAbb s num target
  | .bbb => activeQBbb s num target

/-- `get_active_triples_qspace`, ccpy/utilities/qspace.py:156-298. -/
def activeQspace (s : Sys) (num : ℕ) (target : Option ℕ) (c : Case) : List (List ℕ) :=
  finalize 6 (activeQraw s num target c)

/-- Shape of the boolean tensor of a spin case, ccpy/utilities/qspace.py:67-78. -/
def shape (s : Sys) : Case → List ℕ
  | .aaa => [s.nua, s.nua, s.nua, s.noa, s.noa, s.noa]
  | .aab => [s.nua, s.nua, s.nub, s.noa, s.noa, s.nob]
  | .abb => [s.nua, s.nub, s.nub, s.noa, s.nob, s.nob]
  | .bbb => [s.nub, s.nub, s.nub, s.nob, s.nob, s.nob]

/-- numpy index `x - 1` on an axis of length `n`: a 0 entry wraps to the last element, an entry
beyond the axis raises IndexError. -/
def wrapIndex (n x : ℕ) : Option ℕ :=
  if x = 0 then (if n = 0 then none else some (n - 1)) else if x - 1 < n then some (x - 1) else none

/-- The index tuple `[x - 1 for x in row]`, ccpy/utilities/qspace.py:82; the width is checked by
the unpacking. -/
def rowIndex (dims r : List ℕ) : Option (List ℕ) :=
  if r.length = 6 then (dims.zip r).mapM fun p => wrapIndex p.1 p.2 else none

/-- Lines ccpy/utilities/qspace.py:80-95: the cells set to False. Nothing is set when the first
row is the placeholder. A bad row raises. -/
def excludedCells (dims : List ℕ) (rows : List (List ℕ)) : Option (List (List ℕ)) :=
  if rows.head? = some (List.replicate 6 1) then some [] else rows.mapM (rowIndex dims)

/-- The `aaa` loops of `get_triples_qspace`, ccpy/utilities/qspace.py:103-112; `open?` reads the tensor. -/
def generalQAaa (s : Sys) (open? : List ℕ → Bool) (target : Option ℕ) : List (List ℕ) :=
  forRange 0 s.noa fun i => forRange (i + 1) s.noa fun j => forRange (j + 1) s.noa fun k =>
    forRange 0 s.nua fun a => forRange (a + 1) s.nua fun b => forRange (b + 1) s.nua fun c =>
      if open? [a, b, c, i, j, k] then
        if !checkAaa s target i j k a b c then [] else [[a + 1, b + 1, c + 1, i + 1, j + 1, k + 1]]
      else []

/-- The `aab` loops of `get_triples_qspace`, ccpy/utilities/qspace.py:113-122; `open?` reads the tensor. -/
def generalQAab (s : Sys) (open? : List ℕ → Bool) (target : Option ℕ) : List (List ℕ) :=
  forRange 0 s.noa fun i => forRange (i + 1) s.noa fun j => forRange 0 s.nob fun k =>
    forRange 0 s.nua fun a => forRange (a + 1) s.nua fun b => forRange 0 s.nub fun c =>
      if open? [a, b, c, i, j, k] then
        if !checkAab s target i j k a b c then [] else [[a + 1, b + 1, c + 1, i + 1, j + 1, k + 1]]
      else []

/-- The `abb` loops of `get_triples_qspace`, ccpy/utilities/qspace.py:123-132; `open?` reads the tensor. -/
def generalQAbb (s : Sys) (open? : List ℕ → Bool) (target : Option ℕ) : List (List ℕ) :=
  forRange 0 s.noa fun i => forRange 0 s.nob fun j => forRange (j + 1) s.nob fun k =>
    forRange 0 s.nua fun a => forRange 0 s.nub fun b => forRange (b + 1) s.nub fun c =>
      if open? [a, b, c, i, j, k] then
        if !checkAbb s target i j k a b c then [] else [[a + 1, b + 1, c + 1, i + 1, j + 1, k + 1]]
      else []

/-- The `bbb` loops of `get_triples_qspace`, ccpy/utilities/qspace.py:133-142; `open?` reads the tensor. -/
def generalQBbb (s : Sys) (open? : List ℕ → Bool) (target : Option ℕ) : List (List ℕ) :=
  forRange 0 s.nob fun i => forRange (i + 1) s.nob fun j => forRange (j + 1) s.nob fun k =>
    forRange 0 s.nub fun a => forRange (a + 1) s.nub fun b => forRange (b + 1) s.nub fun c =>
      if open? [a, b, c, i, j, k] then
        if !checkBbb s target i j k a b c then [] else [[a + 1, b + 1, c + 1, i + 1, j + 1, k + 1]]
      else []

/-- The list of one spin case before the conversion. -/
def generalQraw (s : Sys) (open? : List ℕ → Bool) (target : Option ℕ) : Case → List (List ℕ)
  | .aaa => generalQAaa s open? target
  | .aab => generalQAab s open? target
  | .abb => generalQAbb s open? target
  | .bbb => generalQBbb s open? target

/-- One spin case of `get_triples_qspace`, ccpy/utilities/qspace.py:4-154; `none` is the
IndexError/ValueError of a malformed P row. -/
def generalQspace (s : Sys) (p : List (List ℕ)) (target : Option ℕ) (c : Case) :
    Option (List (List ℕ)) :=
  (excludedCells (shape s c) p).map fun ex =>
    finalize 6 (generalQraw s (fun x => !ex.contains x) target c)

/-- `checksym_aaa` of get_active_3p2h_pspace, ccpy/utilities/pspace.py:778-789. -/
def check3p2hAaa (s : Sys) (target : Option ℕ) (j k a b c : ℕ) : Bool :=
  match target with
  | none => true
  | some t =>
    (s.ref ^^^ s.irrep j ^^^ s.irrep k ^^^ s.irrep (a + s.noa) ^^^
      s.irrep (b + s.noa) ^^^ s.irrep (c + s.noa)) == t

/-- The `aaa` loops of `get_active_3p2h_pspace`, ccpy/utilities/pspace.py:827-834. -/
def active3p2hAaa (s : Sys) (num : ℕ) (target : Option ℕ) : List (List ℕ) :=
  forRange 0 s.nua fun a => forRange (a + 1) s.nua fun b => forRange (b + 1) s.nua fun c =>
    if countUnoccA s [a, b, c] < num then [] else
    forRange 0 s.noa fun j => forRange (j + 1) s.noa fun k =>
      if !check3p2hAaa s target j k a b c then [] else [[a + 1, b + 1, c + 1, j + 1, k + 1]]

/-- `checksym_aab` of get_active_3p2h_pspace, ccpy/utilities/pspace.py:791-802. -/
def check3p2hAab (s : Sys) (target : Option ℕ) (j k a b c : ℕ) : Bool :=
  match target with
  | none => true
  | some t =>
    (s.ref ^^^ s.irrep j ^^^ s.irrep k ^^^ s.irrep (a + s.noa) ^^^
      s.irrep (b + s.noa) ^^^ s.irrep (c + s.nob)) == t

/-- The `aab` loops of `get_active_3p2h_pspace`, ccpy/utilities/pspace.py:836-843. -/
def active3p2hAab (s : Sys) (num : ℕ) (target : Option ℕ) : List (List ℕ) :=
  forRange 0 s.nua fun a => forRange (a + 1) s.nua fun b => forRange 0 s.nub fun c =>
    if countUnoccA s [a, b] + countUnoccB s [c] < num then [] else
    forRange 0 s.noa fun j => forRange 0 s.nob fun k =>
      if !check3p2hAab s target j k a b c then [] else [[a + 1, b + 1, c + 1, j + 1, k + 1]]

/-- `checksym_abb` of get_active_3p2h_pspace, ccpy/utilities/pspace.py:804-815. -/
def check3p2hAbb (s : Sys) (target : Option ℕ) (j k a b c : ℕ) : Bool :=
  match target with
  | none => true
  | some t =>
    (s.ref ^^^ s.irrep j ^^^ s.irrep k ^^^ s.irrep (a + s.noa) ^^^
      s.irrep (b + s.nob) ^^^ s.irrep (c + s.nob)) == t

/-- The `abb` loops of `get_active_3p2h_pspace`, ccpy/utilities/pspace.py:845-852. -/
def active3p2hAbb (s : Sys) (num : ℕ) (target : Option ℕ) : List (List ℕ) :=
  forRange 0 s.nua fun a => forRange 0 s.nub fun b => forRange (b + 1) s.nub fun c =>
    if countUnoccA s [a] + countUnoccB s [b, c] < num then [] else
    forRange 0 s.nob fun j => forRange (j + 1) s.nob fun k =>
      if !check3p2hAbb s target j k a b c then [] else [[a + 1, b + 1, c + 1, j + 1, k + 1]]

/-- `checksym_aaa` of get_active_3h2p_pspace, ccpy/utilities/pspace.py:895-906. -/
def check3h2pAaa (s : Sys) (target : Option ℕ) (i j k b c : ℕ) : Bool :=
  match target with
  | none => true
  | some t =>
    (s.ref ^^^ s.irrep i ^^^ s.irrep j ^^^ s.irrep k ^^^
      s.irrep (b + s.noa) ^^^ s.irrep (c + s.noa)) == t

/-- The `aaa` loops of `get_active_3h2p_pspace`, ccpy/utilities/pspace.py:944-951. -/
def active3h2pAaa (s : Sys) (num : ℕ) (target : Option ℕ) : List (List ℕ) :=
  forRange 0 s.noa fun i => forRange (i + 1) s.noa fun j => forRange (j + 1) s.noa fun k =>
    if countOccA s [i, j, k] < num then [] else
    forRange 0 s.nua fun b => forRange (b + 1) s.nua fun c =>
      if !check3h2pAaa s target i j k b c then [] else [[b + 1, c + 1, i + 1, j + 1, k + 1]]

/-- `checksym_aab` of get_active_3h2p_pspace, ccpy/utilities/pspace.py:908-919. -/
def check3h2pAab (s : Sys) (target : Option ℕ) (i j k b c : ℕ) : Bool :=
  match target with
  | none => true
  | some t =>
    (s.ref ^^^ s.irrep i ^^^ s.irrep j ^^^ s.irrep k ^^^
      s.irrep (b + s.noa) ^^^ s.irrep (c + s.nob)) == t

/-- The `aab` loops of `get_active_3h2p_pspace`, ccpy/utilities/pspace.py:953-960. -/
def active3h2pAab (s : Sys) (num : ℕ) (target : Option ℕ) : List (List ℕ) :=
  forRange 0 s.noa fun i => forRange (i + 1) s.noa fun j => forRange 0 s.nob fun k =>
    if countOccA s [i, j] + countOccB s [k] < num then [] else
    forRange 0 s.nua fun b => forRange 0 s.nub fun c =>
      if !check3h2pAab s target i j k b c then [] else [[b + 1, c + 1, i + 1, j + 1, k + 1]]

/-- `checksym_abb` of get_active_3h2p_pspace, ccpy/utilities/pspace.py:921-932. -/
def check3h2pAbb (s : Sys) (target : Option ℕ) (i j k b c : ℕ) : Bool :=
  match target with
  | none => true
  | some t =>
    (s.ref ^^^ s.irrep i ^^^ s.irrep j ^^^ s.irrep k ^^^
      s.irrep (b + s.nob) ^^^ s.irrep (c + s.nob)) == t

/-- The `abb` loops of `get_active_3h2p_pspace`, ccpy/utilities/pspace.py:962-969. -/
def active3h2pAbb (s : Sys) (num : ℕ) (target : Option ℕ) : List (List ℕ) :=
  forRange 0 s.noa fun i => forRange 0 s.nob fun j => forRange (j + 1) s.nob fun k =>
    if countOccA s [i] + countOccB s [j, k] < num then [] else
    forRange 0 s.nub fun b => forRange (b + 1) s.nub fun c =>
      if !check3h2pAbb s target i j k b c then [] else [[b + 1, c + 1, i + 1, j + 1, k + 1]]

/-- `checksym_abaa` of get_active_4p2h_pspace, ccpy/utilities/pspace.py:1011-1023. -/
def check4p2hAbaa (s : Sys) (target : Option ℕ) (k l a b c d : ℕ) : Bool :=
  match target with
  | none => true
  | some t =>
    (s.ref ^^^ s.irrep k ^^^ s.irrep l ^^^ s.irrep (a + s.noa) ^^^
      s.irrep (b + s.nob) ^^^ s.irrep (c + s.noa) ^^^ s.irrep (d + s.noa)) == t

/-- The `abaa` loops of `get_active_4p2h_pspace`, ccpy/utilities/pspace.py:1063-1072. -/
def active4p2hAbaa (s : Sys) (num : ℕ) (target : Option ℕ) : List (List ℕ) :=
  forRange 0 s.nua fun a => forRange 0 s.nub fun b => forRange (a + 1) s.nua fun c => forRange (c + 1) s.nua fun d =>
    if countUnoccA s [a, c, d] + countUnoccB s [b] < num then [] else
    forRange 0 s.noa fun k => forRange (k + 1) s.noa fun l =>
      if !check4p2hAbaa s target k l a b c d then [] else [[a + 1, b + 1, c + 1, d + 1, k + 1, l + 1]]

/-- `checksym_abab` of get_active_4p2h_pspace, ccpy/utilities/pspace.py:1025-1037. -/
def check4p2hAbab (s : Sys) (target : Option ℕ) (k l a b c d : ℕ) : Bool :=
  match target with
  | none => true
  | some t =>
    (s.ref ^^^ s.irrep k ^^^ s.irrep l ^^^ s.irrep (a + s.noa) ^^^
      s.irrep (b + s.nob) ^^^ s.irrep (c + s.noa) ^^^ s.irrep (d + s.nob)) == t

/-- The `abab` loops of `get_active_4p2h_pspace`, ccpy/utilities/pspace.py:1073-1082. -/
def active4p2hAbab (s : Sys) (num : ℕ) (target : Option ℕ) : List (List ℕ) :=
  forRange 0 s.nua fun a => forRange 0 s.nub fun b => forRange (a + 1) s.nua fun c => forRange (b + 1) s.nub fun d =>
    if countUnoccA s [a, c] + countUnoccB s [b, d] < num then [] else
    forRange 0 s.noa fun k => forRange 0 s.nob fun l =>
      if !check4p2hAbab s target k l a b c d then [] else [[a + 1, b + 1, c + 1, d + 1, k + 1, l + 1]]

/-- `checksym_abbb` of get_active_4p2h_pspace, ccpy/utilities/pspace.py:1039-1051. -/
def check4p2hAbbb (s : Sys) (target : Option ℕ) (k l a b c d : ℕ) : Bool :=
  match target with
  | none => true
  | some t =>
    (s.ref ^^^ s.irrep k ^^^ s.irrep l ^^^ s.irrep (a + s.noa) ^^^
      s.irrep (b + s.nob) ^^^ s.irrep (c + s.nob) ^^^ s.irrep (d + s.nob)) == t

/-- The `abbb` loops of `get_active_4p2h_pspace`, ccpy/utilities/pspace.py:1083-1092. -/
def active4p2hAbbb (s : Sys) (num : ℕ) (target : Option ℕ) : List (List ℕ) :=
  forRange 0 s.nua fun a => forRange 0 s.nub fun b => forRange (b + 1) s.nub fun c => forRange (c + 1) s.nub fun d =>
    if countUnoccA s [a] + countUnoccB s [b, c, d] < num then [] else
    forRange 0 s.nob fun k => forRange (k + 1) s.nob fun l =>
      if !check4p2hAbbb s target k l a b c d then [] else [[a + 1, b + 1, c + 1, d + 1, k + 1, l + 1]]

/-- The assertions at the head of the three functions (ccpy/utilities/pspace.py:755-756, 872-873,
988-989); afterwards the alpha active counts serve both spins, which is the same. -/
def evenActive (s : Sys) : Bool := s.actOA == s.actOB && s.actUA == s.actUB

/-- `get_active_3p2h_pspace`, ccpy/utilities/pspace.py:752-866: the aaa, aab and abb lists, `none`
for an AssertionError. -/
def active3p2h (s : Sys) (num : ℕ) (target : Option ℕ) : Option (List (List (List ℕ))) :=
  if evenActive s then
    some ([active3p2hAaa s num target, active3p2hAab s num target, active3p2hAbb s num target].map
      (finalize 5))
  else none

/-- `get_active_3h2p_pspace`, ccpy/utilities/pspace.py:869-983. -/
def active3h2p (s : Sys) (num : ℕ) (target : Option ℕ) : Option (List (List (List ℕ))) :=
  if evenActive s then
    some ([active3h2pAaa s num target, active3h2pAab s num target, active3h2pAbb s num target].map
      (finalize 5))
  else none

/-- `get_active_4p2h_pspace`, ccpy/utilities/pspace.py:985-1105. -/
def active4p2h (s : Sys) (num : ℕ) (target : Option ℕ) : Option (List (List (List ℕ))) :=
  if evenActive s then
    some ([active4p2hAbaa s num target, active4p2hAbab s num target,
      active4p2hAbbb s num target].map (finalize 6))
  else none

end Ccpy.Excitations
