import Verif.Lemmas.ClosedChecks
import Verif.Model.PSpaceSingles
import Verif.Model.PSpaceDoubles
import Verif.Model.PSpaceUpdate

/-! The comparisons of the restricted with the general arrays of CCSDT(P) for closed shells. -/

namespace Ccpy.PSpace
open Ccpy.Tensor Ccpy.Fock Ccpy.Ccsdt Ccpy.Engine Ccpy.HbarCcs

section
set_option maxRecDepth 100000

theorem closed_residT1a : equalC (residualT1a amplitudes3.toAmps preR stored) [1, 4] (residualT1a amplitudes3.toAmps Ccsdt.pre stored) [1, 4] = true := by decide +kernel
theorem closed_residT2a : equalC (residualT2a amplitudes3.toAmps hbar1R stored) [1, 5, 8, 12] (residualT2a amplitudes3.toAmps hbar1 stored) [1, 5, 8, 12] = true := by decide +kernel
theorem closed_T2a_1A_ov : equalC (hbar1R.a.ov) [0, 5] (hbar1.a.ov) [0, 5] = true := by decide +kernel
theorem closed_T2a_1B_ov : equalC (hbar1R.b.ov) [0, 5] (hbar1.b.ov) [0, 5] = true := by decide +kernel
theorem closed_T2a_2A_ooov : equalC ((stored.aa.ooov + hbar1R.aa.ooov)) [0, 4, 8, 13] ((stored.aa.ooov + hbar1.aa.ooov)) [0, 4, 8, 13] = true := by decide +kernel
theorem closed_T2a_2A_vovv : equalC ((stored.aa.vovv + hbar1R.aa.vovv)) [1, 4, 9, 13] ((stored.aa.vovv + hbar1.aa.vovv)) [1, 4, 9, 13] = true := by decide +kernel
theorem closed_T2a_2B_ooov : equalC ((stored.ab.ooov + hbar1R.ab.ooov)) [0, 4, 8, 13] ((stored.ab.ooov + hbar1.ab.ooov)) [0, 4, 8, 13] = true := by decide +kernel
theorem closed_T2a_2B_vovv : equalC ((stored.ab.vovv + hbar1R.ab.vovv)) [1, 4, 9, 13] ((stored.ab.vovv + hbar1.ab.vovv)) [1, 4, 9, 13] = true := by decide +kernel
theorem closed_residT2b : equalC (residualT2b amplitudes3.toAmps hbar1R stored) [1, 5, 8, 12] (residualT2b amplitudes3.toAmps hbar1 stored) [1, 5, 8, 12] = true := by decide +kernel
theorem closed_T2b_1A_ov : equalC (hbar1R.a.ov) [0, 5] (hbar1.a.ov) [0, 5] = true := by decide +kernel
theorem closed_T2b_1B_ov : equalC (hbar1R.b.ov) [0, 5] (hbar1.b.ov) [0, 5] = true := by decide +kernel
theorem closed_T2b_2A_ooov : equalC ((hbar1R.aa.ooov + stored.aa.ooov)) [0, 4, 8, 13] ((stored.aa.ooov + hbar1.aa.ooov)) [0, 4, 8, 13] = true := by decide +kernel
theorem closed_T2b_2A_vovv : equalC ((hbar1R.aa.vovv + stored.aa.vovv)) [1, 4, 9, 13] ((stored.aa.vovv + hbar1.aa.vovv)) [1, 4, 9, 13] = true := by decide +kernel
theorem closed_T2b_2B_ooov : equalC ((hbar1R.ab.ooov + stored.ab.ooov)) [0, 4, 8, 13] ((stored.ab.ooov + hbar1.ab.ooov)) [0, 4, 8, 13] = true := by decide +kernel
theorem closed_T2b_2B_oovo : equalC ((hbar1R.ab.oovo + stored.ab.oovo)) [0, 4, 9, 12] ((stored.ab.oovo + hbar1.ab.oovo)) [0, 4, 9, 12] = true := by decide +kernel
theorem closed_T2b_2B_vovv : equalC ((hbar1R.ab.vovv + stored.ab.vovv)) [1, 4, 9, 13] ((stored.ab.vovv + hbar1.ab.vovv)) [1, 4, 9, 13] = true := by decide +kernel
theorem closed_T2b_2B_ovvv : equalC ((hbar1R.ab.ovvv + stored.ab.ovvv)) [0, 5, 9, 13] ((stored.ab.ovvv + hbar1.ab.ovvv)) [0, 5, 9, 13] = true := by decide +kernel
theorem closed_T2b_2C_ooov : equalC ((hbar1R.bb.ooov + stored.bb.ooov)) [0, 4, 8, 13] ((stored.bb.ooov + hbar1.bb.ooov)) [0, 4, 8, 13] = true := by decide +kernel
theorem closed_T2b_2C_vovv : equalC ((hbar1R.bb.vovv + stored.bb.vovv)) [1, 4, 9, 13] ((stored.bb.vovv + hbar1.bb.vovv)) [1, 4, 9, 13] = true := by decide +kernel
theorem closedD_b_oo : equalC (hbar2R.b.oo) [0, 4] (hbar2.b.oo) [0, 4] = true := by decide +kernel
theorem closedD_b_vv : equalC (hbar2R.b.vv) [1, 5] (hbar2.b.vv) [1, 5] = true := by decide +kernel
theorem closedD_ab_vooo : equalC ((hbar2R.ab.vooo - (es% "me,aeik->amik" hbar2R.b.ov, amplitudes3.toAmps.ab))) [1, 4, 8, 12] ((hbar2.ab.vooo - (es% "me,aeik->amik" hbar2.b.ov, amplitudes3.toAmps.ab))) [1, 4, 8, 12] = true := by decide +kernel
theorem closedD_ab_vvov : equalC (hbar2R.ab.vvov) [1, 5, 8, 13] (hbar2.ab.vvov) [1, 5, 8, 13] = true := by decide +kernel
theorem closedD_bb_vooo : equalC ((hbar2R.bb.vooo - (es% "me,aeij->amij" hbar2R.b.ov, amplitudes3.toAmps.bb))) [1, 4, 8, 12] ((hbar2.bb.vooo - (es% "me,aeij->amij" hbar2.b.ov, amplitudes3.toAmps.bb))) [1, 4, 8, 12] = true := by decide +kernel
theorem closedD_bb_vvov : equalC (hbar2R.bb.vvov) [1, 5, 8, 13] (hbar2.bb.vvov) [1, 5, 8, 13] = true := by decide +kernel
theorem closedD_bb_oooo : equalC (hbar2R.bb.oooo) [0, 4, 8, 12] (hbar2.bb.oooo) [0, 4, 8, 12] = true := by decide +kernel
theorem closedD_bb_voov : equalC (hbar2R.bb.voov) [1, 4, 8, 13] (hbar2.bb.voov) [1, 4, 8, 13] = true := by decide +kernel
theorem closedD_bb_vvvv : equalC (hbar2R.bb.vvvv) [1, 5, 9, 13] (hbar2.bb.vvvv) [1, 5, 9, 13] = true := by decide +kernel
end

end Ccpy.PSpace
