import Verif.Lemmas.Attachment
import Verif.Model.AttachEom

/-! Kernel checks for C74. -/

namespace Ccpy.EaEom
open Ccpy.Fock Ccpy.Tensor Ccpy.Engine Ccpy.HbarCcsd

/-- The arrays with the amplitudes. -/
def leftArrays : Attached := ⟨.arr 11 [1], .arr 12 [1, 1, 0], .arr 13 [1, 3, 2]⟩

/-- The program `LH_fun` after `build_hbar_ccsd`. -/
def left : Attached :=
  LHFun leftArrays leftArrays amplitudes (buildHbarCcsd amplitudes stored false)

def left_table : List (ℕ × List ℕ) := [(3, [2, 2]), (5, [2, 2]), (8, [2, 2]), (10, [2, 2]), (11, [1]), (12, [2, 1]), (13, [1, 1, 1])]

section
set_option maxRecDepth 100000
theorem left_table_eq : left_table = tableP Attachment.parts := by decide +kernel
theorem left_parts : Attachment.parts.all partOk = true := by decide +kernel
/-- The parts of the adjoint operator. -/
def left_undo : List Part :=
  [⟨11, [1], 1, [1], [(false, 0)]⟩,
   ⟨12, [1, 1, 0], 2, [2, 1], [(true, 2), (false, 1), (false, 0)]⟩,
   ⟨13, [1, 3, 2], 1, [1, 1, 1], [(true, 2), (false, 1), (false, 0)]⟩]

theorem left_undo_eq : left_undo = Attachment.parts.map Part.undo := rfl
theorem left_check_a : dcheck (groups left_table) (listC 0) listH left.a [1] []
    true (leftP true left_undo [(true, 1)]) = true := by decide +kernel
theorem left_check_aa : dcheck (groups left_table) (listC 0) listH left.aa [1, 5, 8] []
    true (leftP true left_undo [(true, 1), (true, 5), (false, 8)]) = true := by decide +kernel
theorem left_check_ab : dcheck (groups left_table) (listC 0) listH left.ab [1, 7, 10] []
    true (leftP true left_undo [(true, 1), (true, 7), (false, 10)]) = true := by decide +kernel
end

end Ccpy.EaEom

namespace Ccpy.IpEom
open Ccpy.Fock Ccpy.Tensor Ccpy.Engine Ccpy.HbarCcsd

/-- The arrays with the amplitudes. -/
def leftArrays : Attached := ⟨.arr 11 [0], transpose [1, 0, 2] (.arr 12 [1, 0, 0]), .arr 13 [0, 3, 2]⟩

/-- The program `LH_fun` after `build_hbar_ccsd`. -/
def left : Attached :=
  LHFun leftArrays leftArrays amplitudes (buildHbarCcsd amplitudes stored false)

def left_table : List (ℕ × List ℕ) := [(3, [2, 2]), (5, [2, 2]), (8, [2, 2]), (10, [2, 2]), (11, [1]), (12, [1, 2]), (13, [1, 1, 1])]

section
set_option maxRecDepth 100000
theorem left_table_eq : left_table = tableP Ionisation.parts := by decide +kernel
theorem left_parts : Ionisation.parts.all partOk = true := by decide +kernel
/-- The parts of the adjoint operator. -/
def left_undo : List Part :=
  [⟨11, [0], 1, [1], [(true, 0)]⟩,
   ⟨12, [1, 0, 0], 2, [1, 2], [(true, 1), (true, 2), (false, 0)]⟩,
   ⟨13, [0, 3, 2], 1, [1, 1, 1], [(true, 0), (true, 2), (false, 1)]⟩]

theorem left_undo_eq : left_undo = Ionisation.parts.map Part.undo := rfl
theorem left_check_a : dcheck (groups left_table) (listC 0) listH left.a [0] []
    true (leftP true left_undo [(false, 0)]) = true := by decide +kernel
theorem left_check_aa : dcheck (groups left_table) (listC 0) listH left.aa [0, 5, 8] []
    true (leftP true left_undo [(true, 5), (false, 8), (false, 0)]) = true := by decide +kernel
theorem left_check_ab : dcheck (groups left_table) (listC 0) listH left.ab [0, 7, 10] []
    true (leftP true left_undo [(true, 7), (false, 10), (false, 0)]) = true := by decide +kernel
end

end Ccpy.IpEom
