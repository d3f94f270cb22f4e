import Mathlib.Algebra.BigOperators.Group.Finset.Basic
import Mathlib.Algebra.Field.Defs

/-! Cluster amplitudes as arrays, one function per spin case; every `np.einsum` call in `/repo/ccpy` is
written as the explicit sum it stands for.  Sums run over the occupied (`oa`, `ob`) and virtual (`va`,
`vb`) orbitals of the two spins; the lengths of the axes are those proved for the containers in C10. -/

namespace Ccpy.Amplitudes

/-- Numbers of occupied and virtual orbitals. -/
structure Dims where
  noa : ℕ
  nob : ℕ
  nua : ℕ
  nub : ℕ

abbrev Dims.oa (d : Dims) : Finset ℕ := Finset.range d.noa
abbrev Dims.ob (d : Dims) : Finset ℕ := Finset.range d.nob
abbrev Dims.va (d : Dims) : Finset ℕ := Finset.range d.nua
abbrev Dims.vb (d : Dims) : Finset ℕ := Finset.range d.nub

/-- The arrays of a `ClusterOperator` of order 3, `/repo/ccpy/models/operators.py`; for order 2 the last
four are not used. Indices are virtual orbitals first, then occupied ones. -/
structure Amplitudes (K : Type*) where
  a : ℕ → ℕ → K
  b : ℕ → ℕ → K
  aa : ℕ → ℕ → ℕ → ℕ → K
  ab : ℕ → ℕ → ℕ → ℕ → K
  bb : ℕ → ℕ → ℕ → ℕ → K
  aaa : ℕ → ℕ → ℕ → ℕ → ℕ → ℕ → K
  aab : ℕ → ℕ → ℕ → ℕ → ℕ → ℕ → K
  abb : ℕ → ℕ → ℕ → ℕ → ℕ → ℕ → K
  bbb : ℕ → ℕ → ℕ → ℕ → ℕ → ℕ → K

end Ccpy.Amplitudes
