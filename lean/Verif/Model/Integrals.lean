import Verif.Model.Operators
import Mathlib.Algebra.BigOperators.Group.Finset.Basic
import Mathlib.Algebra.Field.Basic

/-! Integral containers, normal-ordered Hamiltonian and reference energies:
`/repo/ccpy/models/integrals.py`, `/repo/ccpy/energy/hf_energy.py`.

Numbers are elements of a field.  Full (unsorted) integral arrays are functions of orbital numbers;
their common dimension is not stored, because no loop below runs over it. -/

namespace Ccpy.Integrals
open Ccpy.Operators (Name operatorName)

variable {K : Type*}

/-- An array: its shape and its element at given indices. -/
structure Tensor (K : Type*) where
  shape : List ℕ
  entry : List ℕ → K

/-- The orbital counts of `System`. -/
structure Orbitals where
  nfrozen : ℕ
  norb : ℕ
  noa : ℕ
  nob : ℕ

def Orbitals.nua (s : Orbitals) : ℕ := s.norb - s.noa
def Orbitals.nub (s : Orbitals) : ℕ := s.norb - s.nob

/-- Shape of `a[slice(lo, hi), …]`; `none` is `IndexError` (too many indices). -/
def sliceShape : List (ℕ × ℕ) → List ℕ → Option (List ℕ)
  | [], sh => some sh
  | _ :: _, [] => none
  | (lo, hi) :: ss, n :: sh => (sliceShape ss sh).map fun r => (min hi n - min lo n) :: r

/-- Position in the original array of an element of a slice. -/
def sliceIndex : List (ℕ × ℕ) → List ℕ → List ℕ → List ℕ
  | (lo, _) :: ss, n :: sh, i :: idx => (min lo n + i) :: sliceIndex ss sh idx
  | _, _, idx => idx

/-- `a[tuple(slices)]`. -/
def Tensor.slice (t : Tensor K) (ss : List (ℕ × ℕ)) : Option (Tensor K) :=
  (sliceShape ss t.shape).map fun sh => ⟨sh, fun idx => t.entry (sliceIndex ss t.shape idx)⟩

/-- `itertools.combinations(l, k)`. -/
def combinations : List ℕ → ℕ → List (List ℕ)
  | _, 0 => [[]]
  | [], _ + 1 => []
  | x :: xs, k + 1 => (combinations xs k).map (x :: ·) ++ combinations xs (k + 1)

/-- Block names in the order of `self.slices`, `/repo/ccpy/models/integrals.py:22-26,35`. -/
def blockNames (order : ℕ) : List Name :=
  (List.range (2 * order + 1)).flatMap fun i =>
    (combinations (List.range (2 * order)) i).map fun combs =>
      (List.range (2 * order)).map fun k => if k ∈ combs then 'v' else 'o'

/-- `slice_table[spin][kind]`, `/repo/ccpy/models/integrals.py:10-19`. -/
def sliceTable (s : Orbitals) (spin kind : Char) : ℕ × ℕ :=
  let nocc := if spin = 'a' then s.noa else s.nob
  if kind = 'o' then (0, nocc) else (nocc, s.norb)

/-- `SortedIntegral.__init__`, `/repo/ccpy/models/integrals.py:5-35`: the blocks by name, `none` for
`IndexError`.  A block without value (`use_none`) is `none`. -/
def sortedIntegral (s : Orbitals) (name : Name) (matrix : Option (Tensor K)) :
    Option (List (Name × Option (Tensor K))) :=
  (blockNames name.length).mapM fun attr =>
    match matrix with
    | none => some (attr, none)
    | some m => (m.slice (List.zipWith (sliceTable s) (name ++ name) attr)).map fun b => (attr, some b)

/-- An `Integral` object: for each spin case its blocks. -/
abbrev Integral (K : Type*) := List (Name × List (Name × Option (Tensor K)))

/-- Spin cases of rank up to `order`, `/repo/ccpy/models/integrals.py:41-43`. -/
def spinCases (order : ℕ) : List (ℕ × Name) :=
  (List.range' 1 order).flatMap fun i => (List.range (i + 1)).map fun j => (i, operatorName i j)

/-- `Integral.__init__` with `sorted=True`, `/repo/ccpy/models/integrals.py:37-48`. -/
def integral (s : Orbitals) (order : ℕ) (matrices : Name → Option (Tensor K)) : Option (Integral K) :=
  (spinCases order).mapM fun e => (sortedIntegral s e.2 (matrices e.2)).map fun b => (e.2, b)

/-- `Integral.from_empty`, `/repo/ccpy/models/integrals.py:50-61`. -/
def fromEmpty [Zero K] (s : Orbitals) (order : ℕ) (useNone : Bool) : Option (Integral K) :=
  integral s order fun _ =>
    if useNone then none else some ⟨List.replicate (2 * order) s.norb, fun _ => 0⟩

/-- The block of an `Integral` object, `self.<spin case>.<block>`. -/
def Integral.block (H : Integral K) (name attr : Name) : Option (Tensor K) :=
  (H.lookup name).bind fun b => (b.lookup attr).bind id

/-- One-body arrays by spin. -/
structure OneBody (K : Type*) where
  a : ℕ → ℕ → K
  b : ℕ → ℕ → K

/-- Two-body arrays by spin case. -/
structure TwoBody (K : Type*) where
  aa : ℕ → ℕ → ℕ → ℕ → K
  ab : ℕ → ℕ → ℕ → ℕ → K
  bb : ℕ → ℕ → ℕ → ℕ → K

section
variable [Field K]

/-- `build_v`, `/repo/ccpy/models/integrals.py:290-309`. -/
def buildV (e2int : ℕ → ℕ → ℕ → ℕ → K) : TwoBody K where
  aa p q r s := e2int p q r s - e2int p q s r
  ab p q r s := e2int p q r s
  bb p q r s := e2int p q r s - e2int p q s r

/-- `build_f`, `/repo/ccpy/models/integrals.py:312-350`.  Simplification: the occupied orbitals are
assumed to lie within the arrays, so `[:Nocc]` is not clipped. -/
def buildF (s : Orbitals) (z : OneBody K) (v : TwoBody K) : OneBody K where
  a p q := z.a p q + ∑ i ∈ Finset.range (s.noa + s.nfrozen), v.aa p i q i
    + ∑ i ∈ Finset.range (s.nob + s.nfrozen), v.ab p i q i
  b p q := z.b p q + ∑ i ∈ Finset.range (s.nob + s.nfrozen), v.bb p i q i
    + ∑ i ∈ Finset.range (s.noa + s.nfrozen), v.ab i p i q

/-- A full two-dimensional array after `[corr_slice, corr_slice]`, as used in
`/repo/ccpy/models/integrals.py:77-78`. -/
def cut2 (s : Orbitals) (m : ℕ → ℕ → K) : Tensor K where
  shape := [s.norb, s.norb]
  entry
    | [p, q] => m (s.nfrozen + p) (s.nfrozen + q)
    | _ => 0

/-- A full four-dimensional array after slicing all axes by `corr_slice`, as used in
`/repo/ccpy/models/integrals.py:79-81`. -/
def cut4 (s : Orbitals) (m : ℕ → ℕ → ℕ → ℕ → K) : Tensor K where
  shape := [s.norb, s.norb, s.norb, s.norb]
  entry
    | [p, q, r, t] => m (s.nfrozen + p) (s.nfrozen + q) (s.nfrozen + r) (s.nfrozen + t)
    | _ => 0

/-- The dictionary `{**onebody, **twobody}` restricted to correlated orbitals,
`/repo/ccpy/models/integrals.py:77-83`. -/
def matrices (s : Orbitals) (f : OneBody K) (v : TwoBody K) (name : Name) : Option (Tensor K) :=
  if name = ['a'] then some (cut2 s f.a)
  else if name = ['b'] then some (cut2 s f.b)
  else if name = ['a', 'a'] then some (cut4 s v.aa)
  else if name = ['a', 'b'] then some (cut4 s v.ab)
  else if name = ['b', 'b'] then some (cut4 s v.bb)
  else none

/-- One-body part of `getHamiltonian`, `/repo/ccpy/models/integrals.py:72-75`. -/
def oneBodyPart (s : Orbitals) (normalOrdered : Bool) (z : OneBody K) (v : TwoBody K) : OneBody K :=
  if normalOrdered then buildF s z v else z

/-- `getHamiltonian` with `sorted=True`, `/repo/ccpy/models/integrals.py:67-83`. -/
def getHamiltonian (s : Orbitals) (normalOrdered : Bool) (e1int : ℕ → ℕ → K)
    (e2int : ℕ → ℕ → ℕ → ℕ → K) : Option (Integral K) :=
  integral s 2 (matrices s (oneBodyPart s normalOrdered ⟨e1int, e1int⟩ (buildV e2int)) (buildV e2int))

/-- `np.einsum("ij,ip,jq->pq", z_ao, c, c)`, `/repo/ccpy/models/integrals.py:88-89`. -/
def transform1 (nao : ℕ) (z : ℕ → ℕ → K) (c : ℕ → ℕ → K) (p q : ℕ) : K :=
  ∑ i ∈ Finset.range nao, ∑ j ∈ Finset.range nao, z i j * c i p * c j q

/-- `np.einsum("ijkl,ip,jq,kr,ls->pqrs", v_ao, c, d, c, d)`, `/repo/ccpy/models/integrals.py:92-95`. -/
def transform2 (nao : ℕ) (v : ℕ → ℕ → ℕ → ℕ → K) (c d : ℕ → ℕ → K) (p q r s : ℕ) : K :=
  ∑ i ∈ Finset.range nao, ∑ j ∈ Finset.range nao, ∑ k ∈ Finset.range nao, ∑ l ∈ Finset.range nao,
    v i j k l * c i p * d j q * c k r * d l s

/-- The two-body arrays of `getUHFHamiltonian`, `/repo/ccpy/models/integrals.py:92-97`. -/
def uhfV (nao : ℕ) (v : ℕ → ℕ → ℕ → ℕ → K) (ca cb : ℕ → ℕ → K) : TwoBody K where
  aa p q r s := transform2 nao v ca ca p q r s - transform2 nao v ca ca p q s r
  ab p q r s := transform2 nao v ca cb p q r s
  bb p q r s := transform2 nao v cb cb p q r s - transform2 nao v cb cb p q s r

/-- `getUHFHamiltonian` with `sorted=True`, `/repo/ccpy/models/integrals.py:85-111`. -/
def getUHFHamiltonian (s : Orbitals) (normalOrdered : Bool) (nao : ℕ) (ca cb z : ℕ → ℕ → K)
    (v : ℕ → ℕ → ℕ → ℕ → K) : Option (Integral K) :=
  integral s 2 (matrices s
    (oneBodyPart s normalOrdered ⟨transform1 nao z ca, transform1 nao z cb⟩ (uhfV nao v ca cb))
    (uhfV nao v ca cb))

/-! ### Reference energies -/

/-- Lines 51-63 of `/repo/ccpy/energy/hf_energy.py` (and 87-99) for given numbers of occupied orbitals. -/
def meanFieldEnergy (na nb : ℕ) (e1int : ℕ → ℕ → K) (e2int : ℕ → ℕ → ℕ → ℕ → K) : K :=
  let e1a := ∑ i ∈ Finset.range na, e1int i i
  let e1b := ∑ i ∈ Finset.range nb, e1int i i
  let e2a := (1 / 2) * ((∑ i ∈ Finset.range na, ∑ j ∈ Finset.range na, e2int i j i j)
    - ∑ i ∈ Finset.range na, ∑ j ∈ Finset.range na, e2int i j j i)
  let e2b := ∑ i ∈ Finset.range na, ∑ j ∈ Finset.range nb, e2int i j i j
  let e2c := (1 / 2) * ((∑ i ∈ Finset.range nb, ∑ j ∈ Finset.range nb, e2int i j i j)
    - ∑ i ∈ Finset.range nb, ∑ j ∈ Finset.range nb, e2int i j j i)
  e1a + e1b + e2a + e2b + e2c

/-- `calc_hf_energy`, `/repo/ccpy/energy/hf_energy.py:46-65`. -/
def calcHfEnergy (s : Orbitals) (e1int : ℕ → ℕ → K) (e2int : ℕ → ℕ → ℕ → ℕ → K) : K :=
  meanFieldEnergy (s.noa + s.nfrozen) (s.nob + s.nfrozen) e1int e2int

/-- `calc_hf_frozen_core_energy`, `/repo/ccpy/energy/hf_energy.py:79-103`. -/
def calcHfFrozenCoreEnergy (s : Orbitals) (e1int : ℕ → ℕ → K) (e2int : ℕ → ℕ → ℕ → ℕ → K) : K :=
  if s.nfrozen = 0 then 0 else meanFieldEnergy s.nfrozen s.nfrozen e1int e2int

/-- `calc_hf_energy_unsorted`, `/repo/ccpy/energy/hf_energy.py:67-77`, for lists of occupied orbitals. -/
def calcHfEnergyUnsorted (h : OneBody K) (v : TwoBody K) (occA occB : List ℕ) : K :=
  let e1a := (occA.map fun i => h.a i i).sum
  let e1b := (occB.map fun i => h.b i i).sum
  let e2a := (1 / 2) * (occA.map fun i => (occA.map fun j => v.aa i j i j).sum).sum
  let e2b := (occA.map fun i => (occB.map fun j => v.ab i j i j).sum).sum
  let e2c := (1 / 2) * (occB.map fun i => (occB.map fun j => v.bb i j i j).sum).sum
  e1a + e1b + e2a + e2b + e2c

/-- `np.einsum("piqi->pq", t)`; `none` is the `ValueError` of mismatching dimensions, or the error of
an operand `None`. -/
def tracePiqi (t : Option (Tensor K)) : Option (Tensor K) :=
  match t with
  | none => none
  | some t =>
    match t.shape with
    | [d0, d1, d2, d3] =>
      if d1 = d3 then some ⟨[d0, d2], fun
        | [p, q] => ∑ i ∈ Finset.range d1, t.entry [p, i, q, i]
        | _ => 0⟩ else none
    | _ => none

/-- `np.einsum("ipiq->pq", t)`. -/
def traceIpiq (t : Option (Tensor K)) : Option (Tensor K) :=
  match t with
  | none => none
  | some t =>
    match t.shape with
    | [d0, d1, d2, d3] =>
      if d0 = d2 then some ⟨[d1, d3], fun
        | [p, q] => ∑ i ∈ Finset.range d0, t.entry [i, p, i, q]
        | _ => 0⟩ else none
    | _ => none

/-- Sum of two arrays of the same shape. -/
def addTensor (x y : Option (Tensor K)) : Option (Tensor K) :=
  match x, y with
  | some x, some y => if x.shape = y.shape then some ⟨x.shape, fun i => x.entry i + y.entry i⟩ else none
  | _, _ => none

/-- `calc_g_matrix`, `/repo/ccpy/energy/hf_energy.py:3-44`: the block `spin`, `attr` of `G`. -/
def calcGMatrix (H : Integral K) (spin : Char) (attr : Name) : Option (Tensor K) :=
  if spin = 'a' then
    if attr = ['o', 'o'] then addTensor (tracePiqi (H.block ['a', 'a'] ['o', 'o', 'o', 'o']))
      (tracePiqi (H.block ['a', 'b'] ['o', 'o', 'o', 'o']))
    else if attr = ['o', 'v'] then addTensor (tracePiqi (H.block ['a', 'a'] ['o', 'o', 'v', 'o']))
      (tracePiqi (H.block ['a', 'b'] ['o', 'o', 'v', 'o']))
    else if attr = ['v', 'o'] then addTensor (tracePiqi (H.block ['a', 'a'] ['v', 'o', 'o', 'o']))
      (tracePiqi (H.block ['a', 'b'] ['v', 'o', 'o', 'o']))
    else if attr = ['v', 'v'] then addTensor (tracePiqi (H.block ['a', 'a'] ['v', 'o', 'v', 'o']))
      (tracePiqi (H.block ['a', 'b'] ['v', 'o', 'v', 'o']))
    else none
  else if spin = 'b' then
    if attr = ['o', 'o'] then addTensor (tracePiqi (H.block ['b', 'b'] ['o', 'o', 'o', 'o']))
      (traceIpiq (H.block ['a', 'b'] ['o', 'o', 'o', 'o']))
    else if attr = ['o', 'v'] then addTensor (tracePiqi (H.block ['b', 'b'] ['o', 'o', 'v', 'o']))
      (traceIpiq (H.block ['a', 'b'] ['o', 'o', 'o', 'v']))
    else if attr = ['v', 'o'] then addTensor (tracePiqi (H.block ['b', 'b'] ['v', 'o', 'o', 'o']))
      (traceIpiq (H.block ['a', 'b'] ['o', 'v', 'o', 'o']))
    else if attr = ['v', 'v'] then addTensor (tracePiqi (H.block ['b', 'b'] ['v', 'o', 'v', 'o']))
      (traceIpiq (H.block ['a', 'b'] ['o', 'v', 'o', 'v']))
    else none
  else none

end

end Ccpy.Integrals
