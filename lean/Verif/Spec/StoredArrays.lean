import Verif.Spec.CoupledCluster
import Verif.Model.TensorArrays

/-! The arrays the programs work on, for a given Hamiltonian and given amplitudes: the link between the model of the programs
and the operators of `Spec/CoupledCluster.lean`. -/

namespace Ccpy.Fock
open Ccpy.Tensor

variable {ι : Type*}

/-- The contents of the arrays `6, …, 10`. -/
def Cluster.amp (T : Cluster) (name : ℕ) (l : List ℕ) : ℚ :=
  match name, l with
  | 6, [a, i] => T.tA a i
  | 7, [a, i] => T.tB a i
  | 8, [a, b, i, j] => T.tAA a b i j
  | 9, [a, b, i, j] => T.tAB a b i j
  | 10, [a, b, i, j] => T.tBB a b i j
  | _, _ => 0

/-- The element at `idx` of the array a program computes, for the Fock matrices and integrals of a Hamiltonian and the
amplitude arrays `amp`. -/
def value (S : Orbitals ι) (Z : Integrals) (amp : ℕ → List ℕ → ℚ) (x : Ex) (idx : List ℕ) : ℚ :=
  x.denote (dims S.n S.na S.nb)
    (elements S.na S.nb ⟨fockA S Z, fockB S Z⟩ ⟨Z.vAA, Z.vAB, Z.vBB⟩ amp) idx

/-- The integrals between equal spins are antisymmetric. -/
structure Integrals.Antisym (Z : Integrals) : Prop where
  aa : Antisymmetric Z.vAA
  bb : Antisymmetric Z.vBB

/-- The amplitudes of equal spins are antisymmetric. -/
structure Cluster.Antisym (T : Cluster) : Prop where
  aa : Antisymmetric T.tAA
  bb : Antisymmetric T.tBB

end Ccpy.Fock
