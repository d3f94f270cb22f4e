import Verif.Model.Einsum

/-! Model of the Hamiltonian built from Cholesky vectors, `/repo/ccpy/models/integrals.py:113-288,352-388`,
`/repo/ccpy/energy/hf_energy.py:131-152`, `/repo/ccpy/cholesky/cholesky_builders.py`.

`R x p q` is the element `R_chol[x, p, q]` of the array of `nx` Cholesky vectors. -/

namespace Ccpy.Integrals
open Ccpy.Operators

variable {K : Type*}

/-- `build_f_chol`, `/repo/ccpy/models/integrals.py:352-388`. -/
def buildFChol [Field K] (s : Orbitals) (nx : ℕ) (e1int : ℕ → ℕ → K) (R : ℕ → ℕ → ℕ → K) : OneBody K :=
  let noa := s.noa + s.nfrozen
  let nob := s.nob + s.nfrozen
  { a := fun p q => e1int p q +
      (∑ x ∈ Finset.range nx, ∑ i ∈ Finset.range noa, R x p q * R x i i -
        ∑ x ∈ Finset.range nx, ∑ i ∈ Finset.range noa, R x p i * R x i q +
        ∑ x ∈ Finset.range nx, ∑ i ∈ Finset.range nob, R x p q * R x i i)
    b := fun p q => e1int p q +
      (∑ x ∈ Finset.range nx, ∑ i ∈ Finset.range nob, R x p q * R x i i -
        ∑ x ∈ Finset.range nx, ∑ i ∈ Finset.range nob, R x p i * R x i q +
        ∑ x ∈ Finset.range nx, ∑ i ∈ Finset.range noa, R x i i * R x p q) }

/-- `H.chol.<spin>.<k0 k1>`: the slices of the correlated part of the Cholesky vectors,
`/repo/ccpy/models/integrals.py:120-124,133,140-149`. -/
def cholSlice (s : Orbitals) (nx : ℕ) (R : ℕ → ℕ → ℕ → K) (spin k0 k1 : Char) : Tensor K :=
  let off := fun k => if k = 'o' then 0 else if spin = 'a' then s.noa else s.nob
  let len := fun k => if k = 'o' then (if spin = 'a' then s.noa else s.nob)
    else if spin = 'a' then s.nua else s.nub
  ⟨[nx, len k0, len k1], fun
    | [x, p, q] => R x (s.nfrozen + (off k0 + p)) (s.nfrozen + (off k1 + q))
    | idx => R (idx.getD 0 0) (s.nfrozen + (off k0 + idx.getD 1 0)) (s.nfrozen + (off k1 + idx.getD 2 0))⟩

/-- The one-body blocks, `/repo/ccpy/models/integrals.py:150-158`. -/
def cholOneBody (s : Orbitals) (f : ℕ → ℕ → K) (spin : Char) : List (Name × Option (Tensor K)) :=
  let nocc := if spin = 'a' then s.noa else s.nob
  let nunocc := if spin = 'a' then s.nua else s.nub
  let g := fun i j => f (s.nfrozen + i) (s.nfrozen + j)
  [(['o', 'o'], some ⟨[nocc, nocc], fun idx => g (idx.getD 0 0) (idx.getD 1 0)⟩),
   (['v', 'v'], some ⟨[nunocc, nunocc], fun idx => g (nocc + idx.getD 0 0) (nocc + idx.getD 1 0)⟩),
   (['o', 'v'], some ⟨[nocc, nunocc], fun idx => g (idx.getD 0 0) (nocc + idx.getD 1 0)⟩),
   (['v', 'o'], some ⟨[nunocc, nocc], fun idx => g (nocc + idx.getD 0 0) (idx.getD 1 0)⟩)]

/-- The assigned `aa` blocks of `getCholeskyHamiltonian`, `/repo/ccpy/models/integrals.py:162-185`. -/
def cholBlocksAa [Field K] (c : Char → Char → Char → Tensor K) :
    List (Name × Option (Tensor K)) := [
  (['o', 'o', 'o', 'o'], subTensor
      (einsum [['x', 'm', 'i'], ['x', 'n', 'j']] ['m', 'n', 'i', 'j'] [c 'a' 'o' 'o', c 'a' 'o' 'o'])
      (einsum [['x', 'm', 'j'], ['x', 'n', 'i']] ['m', 'n', 'i', 'j'] [c 'a' 'o' 'o', c 'a' 'o' 'o'])),  -- 162-165
  (['o', 'o', 'o', 'v'], subTensor
      (einsum [['x', 'm', 'i'], ['x', 'n', 'e']] ['m', 'n', 'i', 'e'] [c 'a' 'o' 'o', c 'a' 'o' 'v'])
      (einsum [['x', 'n', 'i'], ['x', 'm', 'e']] ['m', 'n', 'i', 'e'] [c 'a' 'o' 'o', c 'a' 'o' 'v'])),  -- 166-169
  (['v', 'o', 'o', 'o'], subTensor
      (einsum [['x', 'a', 'i'], ['x', 'm', 'j']] ['a', 'm', 'i', 'j'] [c 'a' 'v' 'o', c 'a' 'o' 'o'])
      (einsum [['x', 'a', 'j'], ['x', 'm', 'i']] ['a', 'm', 'i', 'j'] [c 'a' 'v' 'o', c 'a' 'o' 'o'])),  -- 170-173
  (['v', 'o', 'o', 'v'], subTensor
      (einsum [['x', 'a', 'i'], ['x', 'm', 'e']] ['a', 'm', 'i', 'e'] [c 'a' 'v' 'o', c 'a' 'o' 'v'])
      (einsum [['x', 'a', 'e'], ['x', 'm', 'i']] ['a', 'm', 'i', 'e'] [c 'a' 'v' 'v', c 'a' 'o' 'o'])),  -- 174-177
  (['o', 'o', 'v', 'v'], subTensor
      (einsum [['x', 'm', 'e'], ['x', 'n', 'f']] ['m', 'n', 'e', 'f'] [c 'a' 'o' 'v', c 'a' 'o' 'v'])
      (einsum [['x', 'm', 'f'], ['x', 'n', 'e']] ['m', 'n', 'e', 'f'] [c 'a' 'o' 'v', c 'a' 'o' 'v'])),  -- 178-181
  (['v', 'v', 'o', 'o'], subTensor
      (einsum [['x', 'a', 'i'], ['x', 'b', 'j']] ['a', 'b', 'i', 'j'] [c 'a' 'v' 'o', c 'a' 'v' 'o'])
      (einsum [['x', 'a', 'j'], ['x', 'b', 'i']] ['a', 'b', 'i', 'j'] [c 'a' 'v' 'o', c 'a' 'v' 'o']))]  -- 182-185

/-- The assigned `bb` blocks, `/repo/ccpy/models/integrals.py:201-224`. -/
def cholBlocksBb [Field K] (c : Char → Char → Char → Tensor K) :
    List (Name × Option (Tensor K)) := [
  (['o', 'o', 'o', 'o'], subTensor
      (einsum [['x', 'm', 'i'], ['x', 'n', 'j']] ['m', 'n', 'i', 'j'] [c 'b' 'o' 'o', c 'b' 'o' 'o'])
      (einsum [['x', 'm', 'j'], ['x', 'n', 'i']] ['m', 'n', 'i', 'j'] [c 'b' 'o' 'o', c 'b' 'o' 'o'])),  -- 201-204
  (['o', 'o', 'o', 'v'], subTensor
      (einsum [['x', 'm', 'i'], ['x', 'n', 'e']] ['m', 'n', 'i', 'e'] [c 'b' 'o' 'o', c 'b' 'o' 'v'])
      (einsum [['x', 'n', 'i'], ['x', 'm', 'e']] ['m', 'n', 'i', 'e'] [c 'b' 'o' 'o', c 'b' 'o' 'v'])),  -- 205-208
  (['v', 'o', 'o', 'o'], subTensor
      (einsum [['x', 'a', 'i'], ['x', 'm', 'j']] ['a', 'm', 'i', 'j'] [c 'b' 'v' 'o', c 'b' 'o' 'o'])
      (einsum [['x', 'a', 'j'], ['x', 'm', 'i']] ['a', 'm', 'i', 'j'] [c 'b' 'v' 'o', c 'b' 'o' 'o'])),  -- 209-212
  (['v', 'o', 'o', 'v'], subTensor
      (einsum [['x', 'a', 'i'], ['x', 'm', 'e']] ['a', 'm', 'i', 'e'] [c 'b' 'v' 'o', c 'b' 'o' 'v'])
      (einsum [['x', 'a', 'e'], ['x', 'm', 'i']] ['a', 'm', 'i', 'e'] [c 'b' 'v' 'v', c 'b' 'o' 'o'])),  -- 213-216
  (['o', 'o', 'v', 'v'], subTensor
      (einsum [['x', 'm', 'e'], ['x', 'n', 'f']] ['m', 'n', 'e', 'f'] [c 'b' 'o' 'v', c 'b' 'o' 'v'])
      (einsum [['x', 'm', 'f'], ['x', 'n', 'e']] ['m', 'n', 'e', 'f'] [c 'b' 'o' 'v', c 'b' 'o' 'v'])),  -- 217-220
  (['v', 'v', 'o', 'o'], subTensor
      (einsum [['x', 'a', 'i'], ['x', 'b', 'j']] ['a', 'b', 'i', 'j'] [c 'b' 'v' 'o', c 'b' 'v' 'o'])
      (einsum [['x', 'a', 'j'], ['x', 'b', 'i']] ['a', 'b', 'i', 'j'] [c 'b' 'v' 'o', c 'b' 'v' 'o']))]  -- 221-224

/-- The assigned `ab` blocks, `/repo/ccpy/models/integrals.py:240-272`. -/
def cholBlocksAb [Field K] (c : Char → Char → Char → Tensor K) :
    List (Name × Option (Tensor K)) := [
  (['o', 'o', 'o', 'o'],
      einsum [['x', 'm', 'i'], ['x', 'n', 'j']] ['m', 'n', 'i', 'j'] [c 'a' 'o' 'o', c 'b' 'o' 'o']),  -- 240-242
  (['o', 'o', 'o', 'v'],
      einsum [['x', 'm', 'i'], ['x', 'n', 'e']] ['m', 'n', 'i', 'e'] [c 'a' 'o' 'o', c 'b' 'o' 'v']),  -- 243-245
  (['o', 'o', 'v', 'o'],
      einsum [['x', 'm', 'e'], ['x', 'n', 'i']] ['m', 'n', 'e', 'i'] [c 'a' 'o' 'v', c 'b' 'o' 'o']),  -- 246-248
  (['v', 'o', 'o', 'o'],
      einsum [['x', 'a', 'i'], ['x', 'm', 'j']] ['a', 'm', 'i', 'j'] [c 'a' 'v' 'o', c 'b' 'o' 'o']),  -- 249-251
  (['o', 'v', 'o', 'o'],
      einsum [['x', 'm', 'j'], ['x', 'a', 'i']] ['m', 'a', 'j', 'i'] [c 'a' 'o' 'o', c 'b' 'v' 'o']),  -- 252-254
  (['v', 'o', 'o', 'v'],
      einsum [['x', 'a', 'i'], ['x', 'm', 'e']] ['a', 'm', 'i', 'e'] [c 'a' 'v' 'o', c 'b' 'o' 'v']),  -- 255-257
  (['o', 'v', 'v', 'o'],
      einsum [['x', 'm', 'e'], ['x', 'a', 'i']] ['m', 'a', 'e', 'i'] [c 'a' 'o' 'v', c 'b' 'v' 'o']),  -- 258-260
  (['v', 'o', 'v', 'o'],
      einsum [['x', 'a', 'e'], ['x', 'm', 'i']] ['a', 'm', 'e', 'i'] [c 'a' 'v' 'v', c 'b' 'o' 'o']),  -- 261-263
  (['o', 'v', 'o', 'v'],
      einsum [['x', 'm', 'j'], ['x', 'b', 'e']] ['m', 'b', 'j', 'e'] [c 'a' 'o' 'o', c 'b' 'v' 'v']),  -- 264-266
  (['o', 'o', 'v', 'v'],
      einsum [['x', 'm', 'e'], ['x', 'n', 'f']] ['m', 'n', 'e', 'f'] [c 'a' 'o' 'v', c 'b' 'o' 'v']),  -- 267-269
  (['v', 'v', 'o', 'o'],
      einsum [['x', 'a', 'i'], ['x', 'b', 'j']] ['a', 'b', 'i', 'j'] [c 'a' 'v' 'o', c 'b' 'v' 'o'])]  -- 270-272

/-- `getCholeskyHamiltonian`, `/repo/ccpy/models/integrals.py:113-288`; the blocks that are not listed keep
the value `None`. -/
def getCholeskyHamiltonian [Field K] (s : Orbitals) (normalOrdered : Bool) (nx : ℕ) (e1int : ℕ → ℕ → K)
    (R : ℕ → ℕ → ℕ → K) : Integral K :=
  let onebody : OneBody K := if normalOrdered then buildFChol s nx e1int R else ⟨e1int, e1int⟩
  let c := cholSlice s nx R
  [(['a'], cholOneBody s onebody.a 'a'), (['b'], cholOneBody s onebody.b 'b'),
   (['a', 'a'], cholBlocksAa c), (['b', 'b'], cholBlocksBb c), (['a', 'b'], cholBlocksAb c)]

/-- `calc_hf_energy_chol`, `/repo/ccpy/energy/hf_energy.py:131-152`. -/
def calcHfEnergyChol [Field K] (s : Orbitals) (nx : ℕ) (e1int : ℕ → ℕ → K) (R : ℕ → ℕ → ℕ → K) : K :=
  let oa := s.nfrozen + s.noa
  let ob := s.nfrozen + s.nob
  let gaa := fun m n i j => ∑ x ∈ Finset.range nx, R x m i * R x n j - ∑ x ∈ Finset.range nx, R x m j * R x n i
  let gab := fun m n i j => ∑ x ∈ Finset.range nx, R x m i * R x n j
  let e1a := ∑ i ∈ Finset.range oa, e1int i i
  let e1b := ∑ i ∈ Finset.range ob, e1int i i
  let e2a := (1 / 2) * ∑ i ∈ Finset.range oa, ∑ j ∈ Finset.range oa, gaa i j i j
  let e2b := 1 * ∑ i ∈ Finset.range oa, ∑ j ∈ Finset.range ob, gab i j i j
  let e2c := (1 / 2) * ∑ i ∈ Finset.range ob, ∑ j ∈ Finset.range ob, gaa i j i j
  e1a + e1b + e2a + e2b + e2c

/-- `R[:, a, :]`. -/
def takeRow (t : Tensor K) (a : ℕ) : Tensor K :=
  ⟨[t.shape.getD 0 0, t.shape.getD 2 0], fun idx => t.entry [idx.getD 0 0, a, idx.getD 1 0]⟩

/-- `R[:, :, a]`. -/
def takeCol (t : Tensor K) (a : ℕ) : Tensor K :=
  ⟨[t.shape.getD 0 0, t.shape.getD 1 0], fun idx => t.entry [idx.getD 0 0, idx.getD 1 0, a]⟩

/-- `t.T` of a two-dimensional array. -/
def transposeTensor (t : Option (Tensor K)) : Option (Tensor K) :=
  t.map fun t => ⟨t.shape.reverse, fun idx => t.entry idx.reverse⟩

/-- `build_2index_batch_vvvv_aa` and `_bb`, `/repo/ccpy/cholesky/cholesky_builders.py:3-17`; `vv` is
`H.chol.a.vv` or `H.chol.b.vv`. -/
def batch2Same [Field K] (vv : Tensor K) (a b : ℕ) : Option (Tensor K) :=
  let batch := einsum [['x', 'e'], ['x', 'f']] ['e', 'f'] [takeRow vv a, takeRow vv b]
  subTensor batch (transposeTensor batch)

/-- `build_2index_batch_vvvv_ab`, `/repo/ccpy/cholesky/cholesky_builders.py:19-23`. -/
def batch2Ab [Field K] (vva vvb : Tensor K) (a b : ℕ) : Option (Tensor K) :=
  einsum [['x', 'e'], ['x', 'f']] ['e', 'f'] [takeRow vva a, takeRow vvb b]

/-- `build_3index_batch_vvvv_ab`, `/repo/ccpy/cholesky/cholesky_builders.py:25-29`. -/
def batch3Ab [Field K] (vva vvb : Tensor K) (a : ℕ) : Option (Tensor K) :=
  einsum [['x', 'e'], ['x', 'b', 'f']] ['b', 'e', 'f'] [takeRow vva a, vvb]

/-- `build_2index_batch_vvvv_aa_herm` and `_bb_herm`, `/repo/ccpy/cholesky/cholesky_builders.py:31-43`. -/
def batch2SameHerm [Field K] (vv : Tensor K) (a b : ℕ) : Option (Tensor K) :=
  let batch := einsum [['x', 'e'], ['x', 'f']] ['e', 'f'] [takeCol vv a, takeCol vv b]
  subTensor batch (transposeTensor batch)

/-- `build_3index_batch_vvvv_ab_herm`, `/repo/ccpy/cholesky/cholesky_builders.py:45-49`. -/
def batch3AbHerm [Field K] (vva vvb : Tensor K) (a : ℕ) : Option (Tensor K) :=
  einsum [['x', 'e'], ['x', 'f', 'b']] ['b', 'e', 'f'] [takeCol vva a, vvb]

/-- `build_2index_batch_vvvv_ab_herm`, `/repo/ccpy/cholesky/cholesky_builders.py:51-55`. -/
def batch2AbHerm [Field K] (vva vvb : Tensor K) (a b : ℕ) : Option (Tensor K) :=
  einsum [['x', 'e'], ['x', 'f']] ['e', 'f'] [takeCol vva a, takeCol vvb b]

end Ccpy.Integrals
