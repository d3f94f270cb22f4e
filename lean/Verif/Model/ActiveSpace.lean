import Verif.Model.Writes
import Verif.Model.Excitations
import Mathlib.Data.Fintype.Basic

/-! Model of ccpy/utilities/active_space.py: copying the active blocks of a triples tensor and zeroing
the amplitudes outside an active space.

Simplifications: a tensor is the function from its index tuples to its entries. The slices of a block
are intervals of indices, clipped as numpy does; the number of active occupied orbitals is taken not to
exceed the number of occupied orbitals (numpy reads a negative bound from the end); a block is the function from local index tuples to entries. -/

namespace Ccpy.ActiveSpace

open Ccpy.Writes Ccpy.Excitations

variable {R : Type} [Zero R]

/-- `A[k] = 0.0` for the listed index tuples, in order. -/
def zeroAll (T : Key3 → R) (ks : List Key3) : Key3 → R := applyWrites T (ks.map fun k => (k, 0))

/-- The assigned elements, ccpy/utilities/active_space.py:151-191. -/
def zeroKeysAaa (a b c i j k : ℕ) : List Key3 :=
  [(![a, b, c], ![i, j, k]),
   (![a, b, c], ![j, i, k]),
   (![a, b, c], ![j, k, i]),
   (![a, b, c], ![i, k, j]),
   (![a, b, c], ![k, j, i]),
   (![a, b, c], ![k, i, j]),
   (![a, c, b], ![i, j, k]),
   (![a, c, b], ![j, i, k]),
   (![a, c, b], ![j, k, i]),
   (![a, c, b], ![i, k, j]),
   (![a, c, b], ![k, j, i]),
   (![a, c, b], ![k, i, j]),
   (![b, a, c], ![i, j, k]),
   (![b, a, c], ![j, i, k]),
   (![b, a, c], ![j, k, i]),
   (![b, a, c], ![i, k, j]),
   (![b, a, c], ![k, j, i]),
   (![b, a, c], ![k, i, j]),
   (![b, c, a], ![i, j, k]),
   (![b, c, a], ![j, i, k]),
   (![b, c, a], ![j, k, i]),
   (![b, c, a], ![i, k, j]),
   (![b, c, a], ![k, j, i]),
   (![b, c, a], ![k, i, j]),
   (![c, a, b], ![i, j, k]),
   (![c, a, b], ![j, i, k]),
   (![c, a, b], ![j, k, i]),
   (![c, a, b], ![i, k, j]),
   (![c, a, b], ![k, j, i]),
   (![c, a, b], ![k, i, j]),
   (![c, b, a], ![i, j, k]),
   (![c, b, a], ![j, i, k]),
   (![c, b, a], ![j, k, i]),
   (![c, b, a], ![i, k, j]),
   (![c, b, a], ![k, j, i]),
   (![c, b, a], ![k, i, j])]

/-- `zero_t3aaa_outside_active_space`, ccpy/utilities/active_space.py:132-192. -/
def zeroAaa (T : Key3 → R) (s : Sys) (numAct : ℕ) : Key3 → R :=
  zeroAll T <|
    forRange 0 s.nua fun a =>
    forRange (a + 1) s.nua fun b =>
    forRange (b + 1) s.nua fun c =>
    forRange 0 s.noa fun i =>
    forRange (i + 1) s.noa fun j =>
    forRange (j + 1) s.noa fun k =>
    let activeH := activeHole i s.noa s.actOA + activeHole j s.noa s.actOA + activeHole k s.noa s.actOA
    let activeP := activeParticle a s.actUA + activeParticle b s.actUA + activeParticle c s.actUA
    if activeH < numAct ∨ activeP < numAct then zeroKeysAaa a b c i j k else []

/-- The assigned elements, ccpy/utilities/active_space.py:214-217. -/
def zeroKeysAab (a b c i j k : ℕ) : List Key3 :=
  [(![a, b, c], ![i, j, k]),
   (![b, a, c], ![i, j, k]),
   (![a, b, c], ![j, i, k]),
   (![b, a, c], ![j, i, k])]

/-- `zero_t3aab_outside_active_space`, ccpy/utilities/active_space.py:194-218. -/
def zeroAab (T : Key3 → R) (s : Sys) (numAct : ℕ) : Key3 → R :=
  zeroAll T <|
    forRange 0 s.nua fun a =>
    forRange (a + 1) s.nua fun b =>
    forRange 0 s.nub fun c =>
    forRange 0 s.noa fun i =>
    forRange (i + 1) s.noa fun j =>
    forRange 0 s.nob fun k =>
    let activeH := activeHole i s.noa s.actOA + activeHole j s.noa s.actOA + activeHole k s.nob s.actOB
    let activeP := activeParticle a s.actUA + activeParticle b s.actUA + activeParticle c s.actUB
    if activeH < numAct ∨ activeP < numAct then zeroKeysAab a b c i j k else []

/-- The assigned elements, ccpy/utilities/active_space.py:239-242. -/
def zeroKeysAbb (a b c i j k : ℕ) : List Key3 :=
  [(![a, b, c], ![i, j, k]),
   (![a, c, b], ![i, j, k]),
   (![a, b, c], ![i, k, j]),
   (![a, c, b], ![i, k, j])]

/-- `zero_t3abb_outside_active_space`, ccpy/utilities/active_space.py:220-243. -/
def zeroAbb (T : Key3 → R) (s : Sys) (numAct : ℕ) : Key3 → R :=
  zeroAll T <|
    forRange 0 s.nua fun a =>
    forRange 0 s.nub fun b =>
    forRange (b + 1) s.nub fun c =>
    forRange 0 s.noa fun i =>
    forRange 0 s.nob fun j =>
    forRange (j + 1) s.nob fun k =>
    let activeH := activeHole i s.noa s.actOA + activeHole j s.nob s.actOB + activeHole k s.nob s.actOB
    let activeP := activeParticle a s.actUA + activeParticle b s.actUB + activeParticle c s.actUB
    if activeH < numAct ∨ activeP < numAct then zeroKeysAbb a b c i j k else []

/-- The assigned elements, ccpy/utilities/active_space.py:264-304. -/
def zeroKeysBbb (a b c i j k : ℕ) : List Key3 :=
  [(![a, b, c], ![i, j, k]),
   (![a, b, c], ![j, i, k]),
   (![a, b, c], ![j, k, i]),
   (![a, b, c], ![i, k, j]),
   (![a, b, c], ![k, j, i]),
   (![a, b, c], ![k, i, j]),
   (![a, c, b], ![i, j, k]),
   (![a, c, b], ![j, i, k]),
   (![a, c, b], ![j, k, i]),
   (![a, c, b], ![i, k, j]),
   (![a, c, b], ![k, j, i]),
   (![a, c, b], ![k, i, j]),
   (![b, a, c], ![i, j, k]),
   (![b, a, c], ![j, i, k]),
   (![b, a, c], ![j, k, i]),
   (![b, a, c], ![i, k, j]),
   (![b, a, c], ![k, j, i]),
   (![b, a, c], ![k, i, j]),
   (![b, c, a], ![i, j, k]),
   (![b, c, a], ![j, i, k]),
   (![b, c, a], ![j, k, i]),
   (![b, c, a], ![i, k, j]),
   (![b, c, a], ![k, j, i]),
   (![b, c, a], ![k, i, j]),
   (![c, a, b], ![i, j, k]),
   (![c, a, b], ![j, i, k]),
   (![c, a, b], ![j, k, i]),
   (![c, a, b], ![i, k, j]),
   (![c, a, b], ![k, j, i]),
   (![c, a, b], ![k, i, j]),
   (![c, b, a], ![i, j, k]),
   (![c, b, a], ![j, i, k]),
   (![c, b, a], ![j, k, i]),
   (![c, b, a], ![i, k, j]),
   (![c, b, a], ![k, j, i]),
   (![c, b, a], ![k, i, j])]

/-- `zero_t3bbb_outside_active_space`, ccpy/utilities/active_space.py:246-305. -/
def zeroBbb (T : Key3 → R) (s : Sys) (numAct : ℕ) : Key3 → R :=
  zeroAll T <|
    forRange 0 s.nub fun a =>
    forRange (a + 1) s.nub fun b =>
    forRange (b + 1) s.nub fun c =>
    forRange 0 s.nob fun i =>
    forRange (i + 1) s.nob fun j =>
    forRange (j + 1) s.nob fun k =>
    let activeH := activeHole i s.nob s.actOB + activeHole j s.nob s.actOB + activeHole k s.nob s.actOB
    let activeP := activeParticle a s.actUB + activeParticle b s.actUB + activeParticle c s.actUB
    if activeH < numAct ∨ activeP < numAct then zeroKeysBbb a b c i j k else []

/-- A slice: its spin, and whether it holds active orbitals. -/
structure Slice where
  spin : Char
  active : Bool
  deriving DecidableEq, Repr

/-- `get_active_slices`, ccpy/utilities/active_space.py:2-14: first and one past the last hole index. -/
def holeSlice (s : Sys) (x : Slice) : ℕ × ℕ :=
  let nocc := if x.spin = 'a' then s.noa else s.nob
  let nact := if x.spin = 'a' then s.actOA else s.actOB
  if x.active then (nocc - nact, nocc) else (0, nocc - nact)

/-- `get_active_slices`, ccpy/utilities/active_space.py:2-14: first and one past the last particle index. -/
def particleSlice (s : Sys) (x : Slice) : ℕ × ℕ :=
  let nunocc := if x.spin = 'a' then s.nua else s.nub
  let nact := if x.spin = 'a' then s.actUA else s.actUB
  if x.active then (0, min nact nunocc) else (nact, nunocc)

/-- One assignment `T.xyz.NAME = T0.xyz[slices]`: the activity pattern in the block's name (capital letters)
and the six slices. -/
structure BlockCopy where
  name : List Bool
  slices : List Slice
  deriving DecidableEq, Repr

/-- The slices `Va`, `va`, `Vb`, `vb`, `Oa`, ... -/
def act (c : Char) : Slice := ⟨c, true⟩
def ina (c : Char) : Slice := ⟨c, false⟩

/-- `fill_t3aaa`, ccpy/utilities/active_space.py:32-40. -/
def fillAaa : List BlockCopy :=
  [⟨[true, true, true, true, true, true], [act 'a', act 'a', act 'a', act 'a', act 'a', act 'a']⟩,
   ⟨[true, true, false, true, true, true], [act 'a', act 'a', ina 'a', act 'a', act 'a', act 'a']⟩,
   ⟨[true, true, true, false, true, true], [act 'a', act 'a', act 'a', ina 'a', act 'a', act 'a']⟩,
   ⟨[true, true, false, false, true, true], [act 'a', act 'a', ina 'a', ina 'a', act 'a', act 'a']⟩,
   ⟨[true, false, false, true, true, true], [act 'a', ina 'a', ina 'a', act 'a', act 'a', act 'a']⟩,
   ⟨[true, true, true, false, false, true], [act 'a', act 'a', act 'a', ina 'a', ina 'a', act 'a']⟩,
   ⟨[true, false, false, false, true, true], [act 'a', ina 'a', ina 'a', ina 'a', act 'a', act 'a']⟩,
   ⟨[true, true, false, false, false, true], [act 'a', act 'a', ina 'a', ina 'a', ina 'a', act 'a']⟩,
   ⟨[true, false, false, false, false, true], [act 'a', ina 'a', ina 'a', ina 'a', ina 'a', act 'a']⟩]

/-- `fill_t3aab`, ccpy/utilities/active_space.py:48-76. -/
def fillAab : List BlockCopy :=
  [⟨[true, true, true, true, true, true], [act 'a', act 'a', act 'b', act 'a', act 'a', act 'b']⟩,
   ⟨[true, true, true, false, true, true], [act 'a', act 'a', act 'b', ina 'a', act 'a', act 'b']⟩,
   ⟨[true, true, true, true, true, false], [act 'a', act 'a', act 'b', act 'a', act 'a', ina 'b']⟩,
   ⟨[true, true, true, false, true, false], [act 'a', act 'a', act 'b', ina 'a', act 'a', ina 'b']⟩,
   ⟨[true, true, true, false, false, true], [act 'a', act 'a', act 'b', ina 'a', ina 'a', act 'b']⟩,
   ⟨[true, false, true, true, true, true], [act 'a', ina 'a', act 'b', act 'a', act 'a', act 'b']⟩,
   ⟨[true, false, true, false, true, true], [act 'a', ina 'a', act 'b', ina 'a', act 'a', act 'b']⟩,
   ⟨[true, false, true, true, true, false], [act 'a', ina 'a', act 'b', act 'a', act 'a', ina 'b']⟩,
   ⟨[true, false, true, false, true, false], [act 'a', ina 'a', act 'b', ina 'a', act 'a', ina 'b']⟩,
   ⟨[true, false, true, false, false, true], [act 'a', ina 'a', act 'b', ina 'a', ina 'a', act 'b']⟩,
   ⟨[true, true, false, true, true, true], [act 'a', act 'a', ina 'b', act 'a', act 'a', act 'b']⟩,
   ⟨[true, true, false, false, true, true], [act 'a', act 'a', ina 'b', ina 'a', act 'a', act 'b']⟩,
   ⟨[true, true, false, true, true, false], [act 'a', act 'a', ina 'b', act 'a', act 'a', ina 'b']⟩,
   ⟨[true, true, false, false, true, false], [act 'a', act 'a', ina 'b', ina 'a', act 'a', ina 'b']⟩,
   ⟨[true, true, false, false, false, true], [act 'a', act 'a', ina 'b', ina 'a', ina 'a', act 'b']⟩,
   ⟨[true, false, false, true, true, true], [act 'a', ina 'a', ina 'b', act 'a', act 'a', act 'b']⟩,
   ⟨[true, false, false, false, true, true], [act 'a', ina 'a', ina 'b', ina 'a', act 'a', act 'b']⟩,
   ⟨[true, false, false, true, true, false], [act 'a', ina 'a', ina 'b', act 'a', act 'a', ina 'b']⟩,
   ⟨[true, false, false, false, true, false], [act 'a', ina 'a', ina 'b', ina 'a', act 'a', ina 'b']⟩,
   ⟨[true, false, false, false, false, true], [act 'a', ina 'a', ina 'b', ina 'a', ina 'a', act 'b']⟩,
   ⟨[false, false, true, true, true, true], [ina 'a', ina 'a', act 'b', act 'a', act 'a', act 'b']⟩,
   ⟨[false, false, true, false, true, true], [ina 'a', ina 'a', act 'b', ina 'a', act 'a', act 'b']⟩,
   ⟨[false, false, true, true, true, false], [ina 'a', ina 'a', act 'b', act 'a', act 'a', ina 'b']⟩,
   ⟨[false, false, true, false, true, false], [ina 'a', ina 'a', act 'b', ina 'a', act 'a', ina 'b']⟩,
   ⟨[false, false, true, false, false, true], [ina 'a', ina 'a', act 'b', ina 'a', ina 'a', act 'b']⟩]

/-- `fill_t3abb`, ccpy/utilities/active_space.py:84-112. -/
def fillAbb : List BlockCopy :=
  [⟨[true, true, true, true, true, true], [act 'a', act 'b', act 'b', act 'a', act 'b', act 'b']⟩,
   ⟨[true, true, true, false, true, true], [act 'a', act 'b', act 'b', ina 'a', act 'b', act 'b']⟩,
   ⟨[true, true, true, true, false, true], [act 'a', act 'b', act 'b', act 'a', ina 'b', act 'b']⟩,
   ⟨[true, true, true, false, false, true], [act 'a', act 'b', act 'b', ina 'a', ina 'b', act 'b']⟩,
   ⟨[true, true, true, true, false, false], [act 'a', act 'b', act 'b', act 'a', ina 'b', ina 'b']⟩,
   ⟨[false, true, true, true, true, true], [ina 'a', act 'b', act 'b', act 'a', act 'b', act 'b']⟩,
   ⟨[false, true, true, false, true, true], [ina 'a', act 'b', act 'b', ina 'a', act 'b', act 'b']⟩,
   ⟨[false, true, true, true, false, true], [ina 'a', act 'b', act 'b', act 'a', ina 'b', act 'b']⟩,
   ⟨[false, true, true, false, false, true], [ina 'a', act 'b', act 'b', ina 'a', ina 'b', act 'b']⟩,
   ⟨[false, true, true, true, false, false], [ina 'a', act 'b', act 'b', act 'a', ina 'b', ina 'b']⟩,
   ⟨[true, true, false, true, true, true], [act 'a', act 'b', ina 'b', act 'a', act 'b', act 'b']⟩,
   ⟨[true, true, false, false, true, true], [act 'a', act 'b', ina 'b', ina 'a', act 'b', act 'b']⟩,
   ⟨[true, true, false, true, false, true], [act 'a', act 'b', ina 'b', act 'a', ina 'b', act 'b']⟩,
   ⟨[true, true, false, false, false, true], [act 'a', act 'b', ina 'b', ina 'a', ina 'b', act 'b']⟩,
   ⟨[true, true, false, true, false, false], [act 'a', act 'b', ina 'b', act 'a', ina 'b', ina 'b']⟩,
   ⟨[false, true, false, true, true, true], [ina 'a', act 'b', ina 'b', act 'a', act 'b', act 'b']⟩,
   ⟨[false, true, false, false, true, true], [ina 'a', act 'b', ina 'b', ina 'a', act 'b', act 'b']⟩,
   ⟨[false, true, false, true, false, true], [ina 'a', act 'b', ina 'b', act 'a', ina 'b', act 'b']⟩,
   ⟨[false, true, false, false, false, true], [ina 'a', act 'b', ina 'b', ina 'a', ina 'b', act 'b']⟩,
   ⟨[false, true, false, true, false, false], [ina 'a', act 'b', ina 'b', act 'a', ina 'b', ina 'b']⟩,
   ⟨[true, false, false, true, true, true], [act 'a', ina 'b', ina 'b', act 'a', act 'b', act 'b']⟩,
   ⟨[true, false, false, false, true, true], [act 'a', ina 'b', ina 'b', ina 'a', act 'b', act 'b']⟩,
   ⟨[true, false, false, true, false, true], [act 'a', ina 'b', ina 'b', act 'a', ina 'b', act 'b']⟩,
   ⟨[true, false, false, false, false, true], [act 'a', ina 'b', ina 'b', ina 'a', ina 'b', act 'b']⟩,
   ⟨[true, false, false, true, false, false], [act 'a', ina 'b', ina 'b', act 'a', ina 'b', ina 'b']⟩]

/-- `fill_t3bbb`, ccpy/utilities/active_space.py:120-128. -/
def fillBbb : List BlockCopy :=
  [⟨[true, true, true, true, true, true], [act 'b', act 'b', act 'b', act 'b', act 'b', act 'b']⟩,
   ⟨[true, true, false, true, true, true], [act 'b', act 'b', ina 'b', act 'b', act 'b', act 'b']⟩,
   ⟨[true, true, true, false, true, true], [act 'b', act 'b', act 'b', ina 'b', act 'b', act 'b']⟩,
   ⟨[true, true, false, false, true, true], [act 'b', act 'b', ina 'b', ina 'b', act 'b', act 'b']⟩,
   ⟨[true, false, false, true, true, true], [act 'b', ina 'b', ina 'b', act 'b', act 'b', act 'b']⟩,
   ⟨[true, true, true, false, false, true], [act 'b', act 'b', act 'b', ina 'b', ina 'b', act 'b']⟩,
   ⟨[true, false, false, false, true, true], [act 'b', ina 'b', ina 'b', ina 'b', act 'b', act 'b']⟩,
   ⟨[true, true, false, false, false, true], [act 'b', act 'b', ina 'b', ina 'b', ina 'b', act 'b']⟩,
   ⟨[true, false, false, false, false, true], [act 'b', ina 'b', ina 'b', ina 'b', ina 'b', act 'b']⟩]

/-- The element of the full tensor at local indices of a block: numpy adds the first index of each slice. -/
def blockKey (s : Sys) (b : BlockCopy) (p h : Fin 3 → ℕ) : Key3 :=
  (fun x => (particleSlice s (b.slices.getD x (act 'a'))).1 + p x,
   fun x => (holeSlice s (b.slices.getD (x + 3) (act 'a'))).1 + h x)

/-- The entry of a copied block at local indices. -/
def blockEntry {R : Type} (T0 : Key3 → R) (s : Sys) (b : BlockCopy) (p h : Fin 3 → ℕ) : R :=
  T0 (blockKey s b p h)

/-- The local indices a copied block has. -/
def InBlock (s : Sys) (b : BlockCopy) (p h : Fin 3 → ℕ) : Prop :=
  ∀ x : Fin 3, (particleSlice s (b.slices.getD x (act 'a'))).1 + p x
      < (particleSlice s (b.slices.getD x (act 'a'))).2 ∧
    (holeSlice s (b.slices.getD (x + 3) (act 'a'))).1 + h x
      < (holeSlice s (b.slices.getD (x + 3) (act 'a'))).2

end Ccpy.ActiveSpace
