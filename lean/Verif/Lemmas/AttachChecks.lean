import Verif.Lemmas.Attachment
import Verif.Model.AttachEom

/-! Kernel checks for C73. -/

namespace Ccpy.EaEom
open Ccpy.Fock Ccpy.Tensor Ccpy.Engine Ccpy.HbarCcsd

/-- The arrays with the amplitudes. -/
def arrays : Attached := ⟨.arr 11 [1], .arr 12 [1, 1, 0], .arr 13 [1, 3, 2]⟩

/-- The program `HR` after `build_hbar_ccsd`. -/
def right : Attached :=
  HR arrays amplitudes (buildHbarCcsd amplitudes stored false)

def right_table : List (ℕ × List ℕ) := [(3, [2, 2]), (5, [2, 2]), (8, [2, 2]), (10, [2, 2]), (11, [1]), (12, [2, 1]), (13, [1, 1, 1])]

section
set_option maxRecDepth 100000
theorem right_table_eq : right_table = tableP Attachment.parts := by decide +kernel
theorem right_parts : Attachment.parts.all partOk = true := by decide +kernel
theorem right_check_a : dcheck (groups right_table) (listC 0) listH right.a [1] []
    false (commP true Attachment.parts [(false, 1)]) = true := by decide +kernel
theorem right_check_aa : dcheck (groups right_table) (listC 0) listH right.aa [1, 5, 8] []
    false (commP true Attachment.parts [(true, 8), (false, 5), (false, 1)]) = true := by decide +kernel
theorem right_check_ab : dcheck (groups right_table) (listC 0) listH right.ab [1, 7, 10] []
    false (commP true Attachment.parts [(true, 10), (false, 7), (false, 1)]) = true := by decide +kernel
end

end Ccpy.EaEom

namespace Ccpy.IpEom
open Ccpy.Fock Ccpy.Tensor Ccpy.Engine Ccpy.HbarCcsd

/-- The arrays with the amplitudes. -/
def arrays : Attached := ⟨.arr 11 [0], transpose [1, 0, 2] (.arr 12 [1, 0, 0]), .arr 13 [0, 3, 2]⟩

/-- The program `HR` after `build_hbar_ccsd`. -/
def right : Attached :=
  HR arrays amplitudes (buildHbarCcsd amplitudes stored false)

def right_table : List (ℕ × List ℕ) := [(3, [2, 2]), (5, [2, 2]), (8, [2, 2]), (10, [2, 2]), (11, [1]), (12, [1, 2]), (13, [1, 1, 1])]

section
set_option maxRecDepth 100000
theorem right_table_eq : right_table = tableP Ionisation.parts := by decide +kernel
theorem right_parts : Ionisation.parts.all partOk = true := by decide +kernel
theorem right_check_a : dcheck (groups right_table) (listC 0) listH right.a [0] []
    false (commP true Ionisation.parts [(true, 0)]) = true := by decide +kernel
theorem right_check_aa : dcheck (groups right_table) (listC 0) listH right.aa [0, 5, 8] []
    false (commP true Ionisation.parts [(true, 0), (true, 8), (false, 5)]) = true := by decide +kernel
theorem right_check_ab : dcheck (groups right_table) (listC 0) listH right.ab [0, 7, 10] []
    false (commP true Ionisation.parts [(true, 0), (true, 10), (false, 7)]) = true := by decide +kernel
end

end Ccpy.IpEom
