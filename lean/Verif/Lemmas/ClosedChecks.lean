import Verif.Engine.ClosedShell
import Verif.Lemmas.Ccsd
import Verif.Lemmas.CcsdtChecks

/-! The comparisons of the restricted with the general programs for closed shells. -/

namespace Ccpy.Ccsd
open Ccpy.Fock Ccpy.Tensor Ccpy.Engine Ccpy.HbarCcs

/-- The restricted intermediates, without update of the amplitudes in between. -/
def preR : Ints := getPreCcsIntermediates stored amplitudes stored true
def hbarR : Ints := getCcsIntermediatesOpt preR amplitudes stored true

section
set_option maxRecDepth 100000
theorem equal_t1a : equalC (residualT1a amplitudes preR stored) [1, 4] (residualT1a amplitudes pre stored) [1, 4] = true := by
  decide +kernel
theorem equal_t2a : equalC (residualT2a amplitudes hbarR stored) [1, 5, 8, 12] (residualT2a amplitudes hbar stored) [1, 5, 8, 12]
    = true := by decide +kernel
theorem equal_t2b : equalC (residualT2b amplitudes hbarR stored) [1, 5, 8, 12] (residualT2b amplitudes hbar stored) [1, 5, 8, 12]
    = true := by decide +kernel
end

end Ccpy.Ccsd

namespace Ccpy.Ccsdt
open Ccpy.Fock Ccpy.Tensor Ccpy.Engine Ccpy.HbarCcs Ccpy.HbarCcsd
open Ccpy.Ccsd (anti)

/-- The restricted intermediates, without update of the amplitudes in between. -/
def preR : Ints := getPreCcsIntermediates stored amplitudes3.toAmps stored true
def hbar1R : Ints := getCcsIntermediatesOpt preR amplitudes3.toAmps stored true
def hbar2R : Ints := getCcsdIntermediates amplitudes3.toAmps hbar1R stored true

section
set_option maxRecDepth 100000
theorem equal_t1a : equalC (residualT1a amplitudes3 preR stored) [1, 4] (residualT1a amplitudes3 pre stored) [1, 4] = true := by
  decide +kernel
theorem equal_t2a : equalC (residualT2a amplitudes3 hbar1R stored) [1, 5, 8, 12] (residualT2a amplitudes3 hbar1 stored)
    [1, 5, 8, 12] = true := by decide +kernel
theorem equal_t2b : equalC (residualT2b amplitudes3 hbar1R stored) [1, 5, 8, 12] (residualT2b amplitudes3 hbar1 stored)
    [1, 5, 8, 12] = true := by decide +kernel
theorem equal_t3a : equalC (residualT3a amplitudes3 hbar2R stored) [1, 5, 9, 12, 16, 20] (residualT3a amplitudes3 hbar2 stored)
    [1, 5, 9, 12, 16, 20] = true := by decide +kernel
theorem equal_t3b : equalC (residualT3b amplitudes3 hbar2R stored) [1, 5, 9, 12, 16, 20] (residualT3b amplitudes3 hbar2 stored)
    [1, 5, 9, 12, 16, 20] = true := by decide +kernel
end

end Ccpy.Ccsdt
