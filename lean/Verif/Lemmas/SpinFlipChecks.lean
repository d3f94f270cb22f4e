import Verif.Lemmas.Attachment
import Verif.Model.DoubleAttachEom

/-! Kernel checks for C76. -/

namespace Ccpy.SfEom
open Ccpy.Fock Ccpy.Tensor Ccpy.Engine Ccpy.HbarCcsd

/-- The arrays with the amplitudes. -/
def arrays : Flipped := ⟨.arr 11 [3, 0], .arr 12 [1, 3, 0, 0], .arr 13 [3, 3, 2, 0]⟩

/-- The program `HR` after `build_hbar_ccsd`. -/
def right : Flipped :=
  HR arrays amplitudes (buildHbarCcsd amplitudes stored false)

def right_table : List (ℕ × List ℕ) := [(3, [2, 2]), (5, [2, 2]), (8, [2, 2]), (10, [2, 2]), (11, [1, 1]), (12, [1, 1, 2]), (13, [2, 1, 1])]

section
set_option maxRecDepth 100000
theorem right_table_eq : right_table = tableP SpinFlip.parts := by decide +kernel
theorem right_parts : SpinFlip.parts.all partOk = true := by decide +kernel
theorem right_check_b : dcheck (groups right_table) (listC 0) listH right.b [3, 4] []
    false (commP false SpinFlip.parts [(true, 4), (false, 3)]) = true := by decide +kernel
theorem right_check_ab : dcheck (groups right_table) (listC 0) listH right.ab [1, 7, 8, 12] []
    false (commP false SpinFlip.parts [(true, 8), (true, 12), (false, 7), (false, 1)]) = true := by decide +kernel
theorem right_check_bb : dcheck (groups right_table) (listC 0) listH right.bb [3, 7, 10, 12] []
    false (commP false SpinFlip.parts [(true, 10), (true, 12), (false, 7), (false, 3)]) = true := by decide +kernel
end

end Ccpy.SfEom
