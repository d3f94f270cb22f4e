import Verif.Spec.Attachment

/-! Specification: amplitudes of two added or removed electrons with the total spin of the reference.  Reversing all spins changes
the sign of the operator: the pair in the orbitals `a` and `b` with spins up and down becomes the pair in `b` and `a`, with the
two creation operators exchanged. -/

namespace Ccpy.Fock

structure DoubleAttachment.Singlet (R : DoubleAttachment) : Prop where
  ab : ∀ a b, R.ab a b = R.ab b a
  abb : ∀ a b c k, R.abb a b c k = R.aba b a c k

structure DoubleIonisation.Singlet (R : DoubleIonisation) : Prop where
  ab : ∀ i j, R.ab i j = R.ab j i
  abb : ∀ i j c k, R.abb i j c k = R.aba j i c k

end Ccpy.Fock
