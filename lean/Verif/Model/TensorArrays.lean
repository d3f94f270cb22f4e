import Verif.Model.TensorProgram
import Verif.Model.Integrals

/-! The arrays the many-body programs of `/repo/ccpy` work on: blocks of the Hamiltonian and cluster amplitudes. -/

namespace Ccpy.Tensor

/-- `c * x` for `c = n / d`. -/
def scale (n d : ℕ) (x : Ex) : Ex := .smul false n d x

/-- `np.transpose(x, perm)`: axis `k` of the result is axis `perm[k]` of `x`. -/
def transpose (perm : List ℕ) (x : Ex) : Ex := .es perm (.cons (List.range perm.length) x .nil)

/-- The blocks of a one-body array, `SortedIntegral`, `/repo/ccpy/models/integrals.py:5-35`. -/
structure One where
  (oo ov vo vv : Ex)

/-- The blocks of a two-body array, `SortedIntegral`, `/repo/ccpy/models/integrals.py:5-35`. -/
structure Two where
  (oooo ooov oovo oovv ovoo ovov ovvo ovvv vooo voov vovo vovv vvoo vvov vvvo vvvv : Ex)

/-- An `Integral` object of order 2, `/repo/ccpy/models/integrals.py:37-48`. -/
structure Ints where
  (a b : One)
  (aa ab bb : Two)

/-- A `ClusterOperator` of order 2, `/repo/ccpy/models/operators.py`. -/
structure Amps where
  (a b aa ab bb : Ex)

/-- The stored Hamiltonian: arrays 1 to 5 are the Fock matrices of the two spins and the antisymmetrised integrals of the
three spin cases. -/
def stored : Ints where
  a := ⟨.arr 1 [0, 0], .arr 1 [0, 1], .arr 1 [1, 0], .arr 1 [1, 1]⟩
  b := ⟨.arr 2 [2, 2], .arr 2 [2, 3], .arr 2 [3, 2], .arr 2 [3, 3]⟩
  aa := ⟨.arr 3 [0, 0, 0, 0], .arr 3 [0, 0, 0, 1], .arr 3 [0, 0, 1, 0], .arr 3 [0, 0, 1, 1],
    .arr 3 [0, 1, 0, 0], .arr 3 [0, 1, 0, 1], .arr 3 [0, 1, 1, 0], .arr 3 [0, 1, 1, 1],
    .arr 3 [1, 0, 0, 0], .arr 3 [1, 0, 0, 1], .arr 3 [1, 0, 1, 0], .arr 3 [1, 0, 1, 1],
    .arr 3 [1, 1, 0, 0], .arr 3 [1, 1, 0, 1], .arr 3 [1, 1, 1, 0], .arr 3 [1, 1, 1, 1]⟩
  ab := ⟨.arr 4 [0, 2, 0, 2], .arr 4 [0, 2, 0, 3], .arr 4 [0, 2, 1, 2], .arr 4 [0, 2, 1, 3],
    .arr 4 [0, 3, 0, 2], .arr 4 [0, 3, 0, 3], .arr 4 [0, 3, 1, 2], .arr 4 [0, 3, 1, 3],
    .arr 4 [1, 2, 0, 2], .arr 4 [1, 2, 0, 3], .arr 4 [1, 2, 1, 2], .arr 4 [1, 2, 1, 3],
    .arr 4 [1, 3, 0, 2], .arr 4 [1, 3, 0, 3], .arr 4 [1, 3, 1, 2], .arr 4 [1, 3, 1, 3]⟩
  bb := ⟨.arr 5 [2, 2, 2, 2], .arr 5 [2, 2, 2, 3], .arr 5 [2, 2, 3, 2], .arr 5 [2, 2, 3, 3],
    .arr 5 [2, 3, 2, 2], .arr 5 [2, 3, 2, 3], .arr 5 [2, 3, 3, 2], .arr 5 [2, 3, 3, 3],
    .arr 5 [3, 2, 2, 2], .arr 5 [3, 2, 2, 3], .arr 5 [3, 2, 3, 2], .arr 5 [3, 2, 3, 3],
    .arr 5 [3, 3, 2, 2], .arr 5 [3, 3, 2, 3], .arr 5 [3, 3, 3, 2], .arr 5 [3, 3, 3, 3]⟩

/-- The stored amplitudes: arrays 6 to 10. -/
def amplitudes : Amps where
  a := .arr 6 [1, 0]
  b := .arr 7 [3, 2]
  aa := .arr 8 [1, 1, 0, 0]
  ab := .arr 9 [1, 3, 0, 2]
  bb := .arr 10 [3, 3, 2, 2]

/-- Orbital number of an index of one of the four spaces, `slice_table`, `/repo/ccpy/models/integrals.py:10-19`. -/
def position (na nb : ℕ) (x : ℕ × ℕ) : ℕ :=
  match x.1 with
  | 1 => na + x.2
  | 3 => nb + x.2
  | _ => x.2

/-- The lengths of the four spaces for `n` orbitals of which the lowest `na` (spin up) and `nb` (spin down) are occupied. -/
def dims (n na nb : ℕ) (s : ℕ) : ℕ :=
  match s with
  | 0 => na
  | 1 => n - na
  | 2 => nb
  | _ => n - nb

/-- The elements of the stored arrays.  `f` and `v` are the one- and two-body arrays over all correlated orbitals, from
which the blocks are sliced; the other arrays are given by `amp`. -/
def elements (na nb : ℕ) (f : Integrals.OneBody ℚ) (v : Integrals.TwoBody ℚ) (amp : ℕ → List ℕ → ℚ)
    (name : ℕ) (idx : List (ℕ × ℕ)) : ℚ :=
  match name, idx with
  | 0, [x, y] => if x = y then 1 else 0
  | 1, [x, y] => f.a (position na nb x) (position na nb y)
  | 2, [x, y] => f.b (position na nb x) (position na nb y)
  | 3, [x, y, z, w] => v.aa (position na nb x) (position na nb y) (position na nb z) (position na nb w)
  | 4, [x, y, z, w] => v.ab (position na nb x) (position na nb y) (position na nb z) (position na nb w)
  | 5, [x, y, z, w] => v.bb (position na nb x) (position na nb y) (position na nb z) (position na nb w)
  | n + 6, l => amp (n + 6) (l.map Prod.snd)
  | _, _ => 0

end Ccpy.Tensor
