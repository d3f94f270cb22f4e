import Verif.Lemmas.Attachment
import Verif.Model.DoubleAttachEom

/-! Kernel checks for C75. -/

namespace Ccpy.DeaEom2
open Ccpy.Fock Ccpy.Tensor Ccpy.Engine Ccpy.HbarCcsd

/-- The arrays with the amplitudes. -/
def array : Ex := .arr 11 [1, 3]

/-- The program `HR` after `build_hbar_ccsd`. -/
def right : Ex :=
  buildHR2B array amplitudes (buildHbarCcsd amplitudes stored false)

def right_table : List (ℕ × List ℕ) := [(3, [2, 2]), (5, [2, 2]), (8, [2, 2]), (10, [2, 2]), (11, [1, 1])]

section
set_option maxRecDepth 100000
theorem right_table_eq : right_table = tableP PairAttachment.parts := by decide +kernel
theorem right_parts : PairAttachment.parts.all partOk = true := by decide +kernel
theorem right_check_ab : dcheck (groups right_table) (listC 0) listH right [1, 7] []
    false (commP false PairAttachment.parts [(false, 7), (false, 1)]) = true := by decide +kernel
end

end Ccpy.DeaEom2

namespace Ccpy.DeaEom
open Ccpy.Fock Ccpy.Tensor Ccpy.Engine Ccpy.HbarCcsd

/-- The arrays with the amplitudes. -/
def arrays : DoublyAttached := ⟨.arr 11 [1, 3], transpose [0, 2, 1, 3] (.arr 12 [1, 1, 3, 0]), .arr 13 [1, 3, 3, 2]⟩

/-- The program `HR` after `build_hbar_ccsd`. -/
def right : DoublyAttached :=
  HR arrays amplitudes (buildHbarCcsd amplitudes stored false) false

def right_table : List (ℕ × List ℕ) := [(3, [2, 2]), (5, [2, 2]), (8, [2, 2]), (10, [2, 2]), (11, [1, 1]), (12, [2, 1, 1]), (13, [1, 2, 1])]

section
set_option maxRecDepth 100000
theorem right_table_eq : right_table = tableP DoubleAttachment.parts := by decide +kernel
theorem right_parts : DoubleAttachment.parts.all partOk = true := by decide +kernel
theorem right_check_ab : dcheck (groups right_table) (listC 0) listH right.ab [1, 7] []
    false (commP false DoubleAttachment.parts [(false, 7), (false, 1)]) = true := by decide +kernel
theorem right_check_aba : dcheck (groups right_table) (listC 0) listH right.aba [1, 7, 9, 12] []
    false (commP false DoubleAttachment.parts [(true, 12), (false, 9), (false, 7), (false, 1)]) = true := by decide +kernel
theorem right_check_abb : dcheck (groups right_table) (listC 0) listH right.abb [1, 7, 11, 14] []
    false (commP false DoubleAttachment.parts [(true, 14), (false, 11), (false, 7), (false, 1)]) = true := by decide +kernel
end

end Ccpy.DeaEom

namespace Ccpy.DipEom
open Ccpy.Fock Ccpy.Tensor Ccpy.Engine Ccpy.HbarCcsd

/-- The arrays with the amplitudes. -/
def arrays : DoublyAttached := ⟨.arr 11 [0, 2], transpose [2, 1, 0, 3] (.arr 12 [1, 2, 0, 0]), transpose [0, 2, 1, 3] (.arr 13 [0, 3, 2, 2])⟩

/-- The program `HR` after `build_hbar_ccsd`. -/
def right : DoublyAttached :=
  HR arrays amplitudes (buildHbarCcsd amplitudes stored false) false

def right_table : List (ℕ × List ℕ) := [(3, [2, 2]), (5, [2, 2]), (8, [2, 2]), (10, [2, 2]), (11, [1, 1]), (12, [1, 1, 2]), (13, [1, 1, 2])]

section
set_option maxRecDepth 100000
theorem right_table_eq : right_table = tableP DoubleIonisation.parts := by decide +kernel
theorem right_parts : DoubleIonisation.parts.all partOk = true := by decide +kernel
theorem right_check_ab : dcheck (groups right_table) (listC 0) listH right.ab [0, 6] []
    false (commP false DoubleIonisation.parts [(true, 0), (true, 6)]) = true := by decide +kernel
theorem right_check_aba : dcheck (groups right_table) (listC 0) listH right.aba [0, 6, 9, 12] []
    false (commP false DoubleIonisation.parts [(true, 0), (true, 6), (true, 12), (false, 9)]) = true := by decide +kernel
theorem right_check_abb : dcheck (groups right_table) (listC 0) listH right.abb [0, 6, 11, 14] []
    false (commP false DoubleIonisation.parts [(true, 0), (true, 6), (true, 14), (false, 11)]) = true := by decide +kernel
end

end Ccpy.DipEom
