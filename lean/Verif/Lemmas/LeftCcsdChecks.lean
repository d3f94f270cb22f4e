import Verif.Lemmas.CcElements
import Verif.Engine.Left
import Verif.Model.EomCcsd
import Verif.Model.LeftCcsd

/-! The comparisons for the left CCSD matrix-vector product. -/

namespace Ccpy.LeftCcsd
open Ccpy.Fock Ccpy.Tensor Ccpy.Engine Ccpy.HbarCcsd
open Ccpy.EomCcsd (excitation)

variable {ι : Type*} [LinearOrder ι]

/-- The product, from the stored Hamiltonian and amplitudes on. -/
def sigma : Amps := LHFun excitation excitation amplitudes stored (buildHbarCcsd amplitudes stored false) false
/-- The terms that the ground state adds. -/
def bare : Amps :=
  let H := buildHbarCcsd amplitudes stored false
  ⟨transpose [1, 0] H.a.ov, transpose [1, 0] H.b.ov, transpose [2, 3, 0, 1] H.aa.oovv, transpose [2, 3, 0, 1] H.ab.oovv,
    transpose [2, 3, 0, 1] H.bb.oovv⟩

section
set_option maxRecDepth 100000
theorem check_a : dcheck (groups tableC) (listC 0) listH sigma.a [1, 4] [] true
    (leftR [(true, 1), (false, 4)]) = true := by decide +kernel
theorem bare_a : dcheck (groups tableC) (listC 0) listH bare.a [1, 4] [] true
    (bareR [(true, 1), (false, 4)]) = true := by decide +kernel
theorem check_b : dcheck (groups tableC) (listC 0) listH sigma.b [3, 6] [] true
    (leftR [(true, 3), (false, 6)]) = true := by decide +kernel
theorem bare_b : dcheck (groups tableC) (listC 0) listH bare.b [3, 6] [] true
    (bareR [(true, 3), (false, 6)]) = true := by decide +kernel
theorem check_aa : dcheck (groups tableC) (listC 0) listH sigma.aa [1, 5, 8, 12] [] true
    (leftR [(true, 1), (true, 5), (false, 12), (false, 8)]) = true := by decide +kernel
theorem bare_aa : dcheck (groups tableC) (listC 0) listH bare.aa [1, 5, 8, 12] [] true
    (bareR [(true, 1), (true, 5), (false, 12), (false, 8)]) = true := by decide +kernel
theorem check_ab : dcheck (groups tableC) (listC 0) listH sigma.ab [1, 7, 8, 14] [] true
    (leftR [(true, 1), (true, 7), (false, 14), (false, 8)]) = true := by decide +kernel
theorem bare_ab : dcheck (groups tableC) (listC 0) listH bare.ab [1, 7, 8, 14] [] true
    (bareR [(true, 1), (true, 7), (false, 14), (false, 8)]) = true := by decide +kernel
theorem check_bb : dcheck (groups tableC) (listC 0) listH sigma.bb [3, 7, 10, 14] [] true
    (leftR [(true, 3), (true, 7), (false, 14), (false, 10)]) = true := by decide +kernel
theorem bare_bb : dcheck (groups tableC) (listC 0) listH bare.bb [3, 7, 10, 14] [] true
    (bareR [(true, 3), (true, 7), (false, 14), (false, 10)]) = true := by decide +kernel
end

end Ccpy.LeftCcsd
