import Verif.Spec.Triples

/-! Specification: closed shells.  Both spins have the same orbitals, integrals and numbers of electrons, and the amplitudes
do not change when all spins are reversed. -/

namespace Ccpy.Fock

variable {ι : Type*}

/-- As many electrons of both spins, and integrals that do not depend on the spins. -/
structure ClosedShell (S : Orbitals ι) (Z : Integrals) : Prop where
  electrons : S.nb = S.na
  z : Z.zB = Z.zA
  same : Z.vBB = Z.vAA
  mixed : ∀ p q r s, Z.vAB q p s r = Z.vAB p q r s

/-- Amplitudes that do not change when all spins are reversed. -/
structure Cluster.Symmetric (T : Cluster) : Prop where
  a : T.tB = T.tA
  aa : T.tBB = T.tAA
  ab : ∀ a b i j, T.tAB b a j i = T.tAB a b i j

structure Triples.Symmetric (T : Triples) : Prop where
  aaa : T.tBBB = T.tAAA
  aab : ∀ a b c i j k, T.tABB a b c i j k = T.tAAB b c a j k i

end Ccpy.Fock
