import Verif.Model.Excitations

/-! Model of the symmetry-resolved counts: ccpy/utilities/symmetry.py:54-362 and
`count_excitations_in_pspace` (ccpy/utilities/pspace.py:502-601).

The loops produce the sequence of irrep numbers at which a counter is incremented; `tally` performs
the increments. -/

namespace Ccpy.Excitations

/-- `countsym = [0 for i in range(h)]` and `countsym[sym] += 1` for every number of the sequence;
`none` is the IndexError of a number beyond the list. -/
def tally (h : ℕ) (syms : List ℕ) : Option (List ℕ) :=
  syms.foldlM (fun acc x => if x < acc.length then some (acc.modify x (· + 1)) else none)
    (List.replicate h 0)

/-- The increments of `count_singles`, ccpy/utilities/symmetry.py:60-78. -/
def symsSingles (s : Sys) : List ℕ :=
  (forRange 0 s.noa fun i => forRange s.noa s.norb fun a =>
    [s.irrep a ^^^ s.irrep i ^^^ s.ref]) ++
  (forRange 0 s.nob fun i => forRange s.nob s.norb fun a =>
    [s.irrep a ^^^ s.irrep i ^^^ s.ref])

/-- The increments of `count_doubles`, ccpy/utilities/symmetry.py:90-139. -/
def symsDoubles (s : Sys) : List ℕ :=
  (forRange 0 s.noa fun i => forRange (i + 1) s.noa fun j => forRange s.noa s.norb fun a => forRange (a + 1) s.norb fun b =>
    [s.irrep a ^^^ s.irrep b ^^^ s.irrep j ^^^ s.irrep i ^^^ s.ref]) ++
  (forRange 0 s.noa fun i => forRange 0 s.nob fun j => forRange s.noa s.norb fun a => forRange s.nob s.norb fun b =>
    [s.irrep a ^^^ s.irrep b ^^^ s.irrep j ^^^ s.irrep i ^^^ s.ref]) ++
  (forRange 0 s.nob fun i => forRange (i + 1) s.nob fun j => forRange s.nob s.norb fun a => forRange (a + 1) s.norb fun b =>
    [s.irrep a ^^^ s.irrep b ^^^ s.irrep j ^^^ s.irrep i ^^^ s.ref])

/-- The increments of `count_triples`, ccpy/utilities/symmetry.py:151-237. -/
def symsTriples (s : Sys) : List ℕ :=
  (forRange 0 s.noa fun i => forRange (i + 1) s.noa fun j => forRange (j + 1) s.noa fun k =>
    forRange s.noa s.norb fun a => forRange (a + 1) s.norb fun b => forRange (b + 1) s.norb fun c =>
    [s.ref ^^^ s.irrep a ^^^ s.irrep b ^^^ s.irrep c ^^^ s.irrep k ^^^ s.irrep j ^^^ s.irrep i]) ++
  (forRange 0 s.noa fun i => forRange (i + 1) s.noa fun j => forRange 0 s.nob fun k =>
    forRange s.noa s.norb fun a => forRange (a + 1) s.norb fun b => forRange s.nob s.norb fun c =>
    [s.ref ^^^ s.irrep a ^^^ s.irrep b ^^^ s.irrep c ^^^ s.irrep k ^^^ s.irrep j ^^^ s.irrep i]) ++
  (forRange 0 s.noa fun i => forRange 0 s.nob fun j => forRange (j + 1) s.nob fun k =>
    forRange s.noa s.norb fun a => forRange s.nob s.norb fun b => forRange (b + 1) s.norb fun c =>
    [s.ref ^^^ s.irrep a ^^^ s.irrep b ^^^ s.irrep c ^^^ s.irrep k ^^^ s.irrep j ^^^ s.irrep i]) ++
  (forRange 0 s.nob fun i => forRange (i + 1) s.nob fun j => forRange (j + 1) s.nob fun k =>
    forRange s.nob s.norb fun a => forRange (a + 1) s.norb fun b => forRange (b + 1) s.norb fun c =>
    [s.ref ^^^ s.irrep a ^^^ s.irrep b ^^^ s.irrep c ^^^ s.irrep k ^^^ s.irrep j ^^^ s.irrep i])

/-- The increments of `count_1p`, ccpy/utilities/symmetry.py:249-254. -/
def syms1p (s : Sys) : List ℕ :=
  (forRange s.noa s.norb fun a =>
    [s.irrep a ^^^ s.ref])

/-- The increments of `count_2p1h`, ccpy/utilities/symmetry.py:266-292. -/
def syms2p1h (s : Sys) : List ℕ :=
  (forRange 0 s.noa fun j => forRange s.noa s.norb fun a => forRange (a + 1) s.norb fun b =>
    [s.irrep a ^^^ s.irrep b ^^^ s.irrep j ^^^ s.ref]) ++
  (forRange 0 s.nob fun j => forRange s.noa s.norb fun a => forRange s.nob s.norb fun b =>
    [s.irrep a ^^^ s.irrep b ^^^ s.irrep j ^^^ s.ref])

/-- The increments of `count_3p2h`, ccpy/utilities/symmetry.py:303-358. -/
def syms3p2h (s : Sys) : List ℕ :=
  (forRange 0 s.noa fun j => forRange (j + 1) s.noa fun k =>
    forRange s.noa s.norb fun a => forRange (a + 1) s.norb fun b => forRange (b + 1) s.norb fun c =>
    [s.ref ^^^ s.irrep a ^^^ s.irrep b ^^^ s.irrep c ^^^ s.irrep k ^^^ s.irrep j]) ++
  (forRange 0 s.noa fun j => forRange 0 s.nob fun k =>
    forRange s.noa s.norb fun a => forRange (a + 1) s.norb fun b => forRange s.nob s.norb fun c =>
    [s.ref ^^^ s.irrep a ^^^ s.irrep b ^^^ s.irrep c ^^^ s.irrep k ^^^ s.irrep j]) ++
  (forRange 0 s.nob fun j => forRange (j + 1) s.nob fun k =>
    forRange s.noa s.norb fun a => forRange s.nob s.norb fun b => forRange (b + 1) s.norb fun c =>
    [s.ref ^^^ s.irrep a ^^^ s.irrep b ^^^ s.irrep c ^^^ s.irrep k ^^^ s.irrep j])

/-- The value returned by the counting functions, ccpy/utilities/symmetry.py:80-82 and alike: the
list of counters and their sum. -/
def counted (h : ℕ) (syms : List ℕ) : Option (List ℕ × ℕ) :=
  (tally h syms).map fun c => (c, c.sum)

def countSingles (s : Sys) (h : ℕ) := counted h (symsSingles s)
def countDoubles (s : Sys) (h : ℕ) := counted h (symsDoubles s)
def countTriples (s : Sys) (h : ℕ) := counted h (symsTriples s)
def count1p (s : Sys) (h : ℕ) := counted h (syms1p s)
def count2p1h (s : Sys) (h : ℕ) := counted h (syms2p1h s)
def count3p2h (s : Sys) (h : ℕ) := counted h (syms3p2h s)

/-- The `aaa` increments of `count_excitations_in_pspace`, ccpy/utilities/pspace.py:507-526. -/
def pspaceSymsAaa (s : Sys) (pspace : List ℕ → Bool) : List ℕ :=
  forRange 0 s.nua fun a => forRange (a + 1) s.nua fun b => forRange (b + 1) s.nua fun c =>
    forRange 0 s.noa fun i => forRange (i + 1) s.noa fun j => forRange (j + 1) s.noa fun k =>
      if pspace [a, b, c, i, j, k] then
        [s.ref ^^^ s.irrep i ^^^ s.irrep j ^^^ s.irrep k ^^^
          s.irrep (a + s.noa) ^^^ s.irrep (b + s.noa) ^^^ s.irrep (c + s.noa)]
      else []

/-- The `aab` increments of `count_excitations_in_pspace`, ccpy/utilities/pspace.py:528-547. -/
def pspaceSymsAab (s : Sys) (pspace : List ℕ → Bool) : List ℕ :=
  forRange 0 s.nua fun a => forRange (a + 1) s.nua fun b => forRange 0 s.nub fun c =>
    forRange 0 s.noa fun i => forRange (i + 1) s.noa fun j => forRange 0 s.nob fun k =>
      if pspace [a, b, c, i, j, k] then
        [s.ref ^^^ s.irrep i ^^^ s.irrep j ^^^ s.irrep k ^^^
          s.irrep (a + s.noa) ^^^ s.irrep (b + s.noa) ^^^ s.irrep (c + s.nob)]
      else []

/-- The `abb` increments of `count_excitations_in_pspace`, ccpy/utilities/pspace.py:549-568. -/
def pspaceSymsAbb (s : Sys) (pspace : List ℕ → Bool) : List ℕ :=
  forRange 0 s.nua fun a => forRange 0 s.nub fun b => forRange (b + 1) s.nub fun c =>
    forRange 0 s.noa fun i => forRange 0 s.nob fun j => forRange (j + 1) s.nob fun k =>
      if pspace [a, b, c, i, j, k] then
        [s.ref ^^^ s.irrep i ^^^ s.irrep j ^^^ s.irrep k ^^^
          s.irrep (a + s.noa) ^^^ s.irrep (b + s.nob) ^^^ s.irrep (c + s.nob)]
      else []

/-- The `bbb` increments of `count_excitations_in_pspace`, ccpy/utilities/pspace.py:570-589. -/
def pspaceSymsBbb (s : Sys) (pspace : List ℕ → Bool) : List ℕ :=
  forRange 0 s.nub fun a => forRange (a + 1) s.nub fun b => forRange (b + 1) s.nub fun c =>
    forRange 0 s.nob fun i => forRange (i + 1) s.nob fun j => forRange (j + 1) s.nob fun k =>
      if pspace [a, b, c, i, j, k] then
        [s.ref ^^^ s.irrep i ^^^ s.irrep j ^^^ s.irrep k ^^^
          s.irrep (a + s.nob) ^^^ s.irrep (b + s.nob) ^^^ s.irrep (c + s.nob)]
      else []

def pspaceSyms (s : Sys) (pspace : List ℕ → Bool) : Case → List ℕ
  | .aaa => pspaceSymsAaa s pspace
  | .aab => pspaceSymsAab s pspace
  | .abb => pspaceSymsAbb s pspace
  | .bbb => pspaceSymsBbb s pspace

/-- `count_excitations_in_pspace`, ccpy/utilities/pspace.py:502-601: for one spin case the list over
irreps of `excitation_count[sym][case]`. The printing is dropped. -/
def countInPspace (s : Sys) (h : ℕ) (pspace : List ℕ → Bool) (c : Case) : Option (List ℕ) :=
  tally h (pspaceSyms s pspace c)

end Ccpy.Excitations
