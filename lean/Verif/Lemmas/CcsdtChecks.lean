import Verif.Lemmas.OpenEquations
import Verif.Model.Ccsdt
import Verif.Model.HbarCcs

/-! The comparisons for the CCSDT equations. -/

namespace Ccpy.Ccsdt
open Ccpy.Fock Ccpy.Tensor Ccpy.Engine Ccpy.HbarCcs Ccpy.UpdateKernels Ccpy.Spec Ccpy.Writes

/-- The intermediates, without update of the amplitudes in between. -/
def pre : Ints := getPreCcsIntermediates stored amplitudes3.toAmps stored false
def hbar1 : Ints := getCcsIntermediatesOpt pre amplitudes3.toAmps stored false
def hbar2 : Ints := HbarCcsd.getCcsdIntermediates amplitudes3.toAmps hbar1 stored false

section
set_option maxRecDepth 100000
theorem check_t1a : ocheck (groups table3) hatT3 goodH listH (residualT1a amplitudes3 pre stored) [1, 4] [1, 4]
    [(true, 28), (false, 25)] = true := by decide +kernel
theorem collapse_t1a : collapses pat1 ![25] ![28] [1, 4] [1, 4]
    [(true, 28), (false, 25)] = true := by decide +kernel
theorem check_t1b : ocheck (groups table3) hatT3 goodH listH (residualT1b amplitudes3 pre stored) [3, 6] [3, 6]
    [(true, 30), (false, 27)] = true := by decide +kernel
theorem collapse_t1b : collapses pat1 ![27] ![30] [3, 6] [3, 6]
    [(true, 30), (false, 27)] = true := by decide +kernel
theorem check_t2a : ocheck (groups table3) hatT3 goodH listH (residualT2a amplitudes3 hbar1 stored) [1, 5, 8, 12] [1, 5, 12, 8]
    [(true, 32), (true, 36), (false, 29), (false, 25)] = true := by decide +kernel
theorem collapse_t2a : collapses pattern4 ![25, 29] ![32, 36] [1, 5, 8, 12] [1, 5, 12, 8]
    [(true, 32), (true, 36), (false, 29), (false, 25)] = true := by decide +kernel
theorem check_t2b : ocheck (groups table3) hatT3 goodH listH (residualT2b amplitudes3 hbar1 stored) [1, 7, 8, 14] [1, 7, 14, 8]
    [(true, 32), (true, 38), (false, 31), (false, 25)] = true := by decide +kernel
theorem collapse_t2b : collapses pat2b ![25, 31] ![32, 38] [1, 7, 8, 14] [1, 7, 14, 8]
    [(true, 32), (true, 38), (false, 31), (false, 25)] = true := by decide +kernel
theorem check_t2c : ocheck (groups table3) hatT3 goodH listH (residualT2c amplitudes3 hbar1 stored) [3, 7, 10, 14] [3, 7, 14, 10]
    [(true, 34), (true, 38), (false, 31), (false, 27)] = true := by decide +kernel
theorem collapse_t2c : collapses pattern4 ![27, 31] ![34, 38] [3, 7, 10, 14] [3, 7, 14, 10]
    [(true, 34), (true, 38), (false, 31), (false, 27)] = true := by decide +kernel
theorem check_t3a : ocheck (groups table3) hatT3 goodH listH (residualT3a amplitudes3 hbar2 stored) [1, 5, 9, 12, 16, 20] [1, 5, 9, 20, 16, 12]
    [(true, 36), (true, 40), (true, 44), (false, 33), (false, 29), (false, 25)] = true := by decide +kernel
theorem collapse_t3a : collapses patTerms3 ![25, 29, 33] ![36, 40, 44] [1, 5, 9, 12, 16, 20] [1, 5, 9, 20, 16, 12]
    [(true, 36), (true, 40), (true, 44), (false, 33), (false, 29), (false, 25)] = true := by decide +kernel
theorem check_t3b : ocheck (groups table3) hatT3 goodH listH (residualT3b amplitudes3 hbar2 stored) [1, 5, 11, 12, 16, 22] [1, 5, 11, 22, 16, 12]
    [(true, 36), (true, 40), (true, 46), (false, 35), (false, 29), (false, 25)] = true := by decide +kernel
theorem collapse_t3b : collapses patternAab ![25, 29, 35] ![36, 40, 46] [1, 5, 11, 12, 16, 22] [1, 5, 11, 22, 16, 12]
    [(true, 36), (true, 40), (true, 46), (false, 35), (false, 29), (false, 25)] = true := by decide +kernel
theorem check_t3c : ocheck (groups table3) hatT3 goodH listH (residualT3c amplitudes3 hbar2 stored) [1, 7, 11, 12, 18, 22] [1, 7, 11, 22, 18, 12]
    [(true, 36), (true, 42), (true, 46), (false, 35), (false, 31), (false, 25)] = true := by decide +kernel
theorem collapse_t3c : collapses patternAbb ![25, 31, 35] ![36, 42, 46] [1, 7, 11, 12, 18, 22] [1, 7, 11, 22, 18, 12]
    [(true, 36), (true, 42), (true, 46), (false, 35), (false, 31), (false, 25)] = true := by decide +kernel
theorem check_t3d : ocheck (groups table3) hatT3 goodH listH (residualT3d amplitudes3 hbar2 stored) [3, 7, 11, 14, 18, 22] [3, 7, 11, 22, 18, 14]
    [(true, 38), (true, 42), (true, 46), (false, 35), (false, 31), (false, 27)] = true := by decide +kernel
theorem collapse_t3d : collapses patTerms3 ![27, 31, 35] ![38, 42, 46] [3, 7, 11, 14, 18, 22] [3, 7, 11, 22, 18, 14]
    [(true, 38), (true, 42), (true, 46), (false, 35), (false, 31), (false, 27)] = true := by decide +kernel
end

end Ccpy.Ccsdt
