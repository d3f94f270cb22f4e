import Verif.Engine.ClosedFirst
import Verif.Model.EomCcsd
import Verif.Model.LeftCcsd

/-! The matrix-vector products of closed shells. -/

namespace Ccpy.EomCcsd
open Ccpy.Engine Ccpy.Tensor Ccpy.Fock Ccpy.HbarCcsd Ccpy.LeftCcsd

/-- The intermediates for closed shells or in general, and the products with the flag of the product. -/
def hbarC (r : Bool) : Ints := buildHbarCcsd amplitudes stored r
def rightC (r s : Bool) : Amps := HR excitation amplitudes stored (hbarC r) s
def leftC (r s : Bool) : Amps := LHFun excitation excitation amplitudes stored (hbarC r) s

end Ccpy.EomCcsd
