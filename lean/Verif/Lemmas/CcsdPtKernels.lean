import Verif.Lemmas.CcsdPtValues

/-! The CCSD(T) kernels for a coupled-cluster state. -/

namespace Ccpy.CrCc
open Ccpy.Fock Ccpy.Tensor Ccpy.Engine Ccpy.HbarCcsd Ccpy.Ccsdt Ccpy.PSpace Ccpy.Ccsd
open Finset (range Ico)

variable {ι : Type*} [LinearOrder ι]

section
variable {S : Orbitals ι} (h : S.Proper) {Z : Fock.Integrals} (hZ : Z.Antisym) (hs : Z.Real) {T : Cluster} (hT : T.Antisym)
  (shift : ℚ)
include h hZ hs hT

theorem ptPart_a {a b c i j k : ℕ} (ha : a < S.ua) (hb : b < S.ua) (hc : c < S.ua) (hi : i < S.na) (hj : j < S.na) (hk : k < S.na) :
    (callPtA (setup S Z shift) (Cluster.store [T]) amplitudes stored).part (PSpace.dimsOf (setup S Z shift)) (i + 1) (j + 1) (k + 1) (a + 1) (b + 1) (c + 1)
      = ptTerm S Z T (hamiltonian S Z) (S.exciteAAA a b c i j k) ((gapsA S Z).aaa a b c i j k) := by
  have e₁ := (pt_moment_a (setup S Z shift) (Cluster.store [T]) a b c i j k).trans (value_m3a h hZ hT ha hb hc hi hj hk)
  have e₂ := (pt_left_a (S := S) hZ hs shift (Cluster.store [T]) a b c i j k).trans (value_pta h hZ hT ha hb hc hi hj hk)
  unfold PtA.part
  rw [e₁, e₂]
  rfl

theorem ptKernel_a :
    ccsdptA (PSpace.dimsOf (setup S Z shift)) (callPtA (setup S Z shift) (Cluster.store [T]) amplitudes stored)
      = ∑ i ∈ range S.na, ∑ j ∈ Ico (i + 1) S.na, ∑ k ∈ Ico (j + 1) S.na, ∑ a ∈ range S.ua, ∑ b ∈ Ico (a + 1) S.ua, ∑ c ∈ Ico (b + 1) S.ua, 
        ptTerm S Z T (hamiltonian S Z) (S.exciteAAA a b c i j k) ((gapsA S Z).aaa a b c i j k) := by
  rw [ccsdptA_sum]
  refine Finset.sum_congr rfl fun i mi => ?_
  refine Finset.sum_congr rfl fun j mj => ?_
  refine Finset.sum_congr rfl fun k mk => ?_
  refine Finset.sum_congr rfl fun a ma => ?_
  refine Finset.sum_congr rfl fun b mb => ?_
  refine Finset.sum_congr rfl fun c mc => ?_
  exact ptPart_a h hZ hs hT shift (Finset.mem_range.1 ma) (Finset.mem_Ico.1 mb).2 (Finset.mem_Ico.1 mc).2 (Finset.mem_range.1 mi) (Finset.mem_Ico.1 mj).2 (Finset.mem_Ico.1 mk).2

theorem ptPart_b {a b c i j k : ℕ} (ha : a < S.ua) (hb : b < S.ua) (hc : c < S.ub) (hi : i < S.na) (hj : j < S.na) (hk : k < S.nb) :
    (callPtB (setup S Z shift) (Cluster.store [T]) amplitudes stored).part (PSpace.dimsOf (setup S Z shift)) (i + 1) (j + 1) (k + 1) (a + 1) (b + 1) (c + 1)
      = ptTerm S Z T (hamiltonian S Z) (S.exciteAAB a b c i j k) ((gapsA S Z).aab a b c i j k) := by
  have e₁ := (pt_moment_b (setup S Z shift) (Cluster.store [T]) a b c i j k).trans (value_m3b h hZ hT ha hb hc hi hj hk)
  have e₂ := (pt_left_b (S := S) hZ hs shift (Cluster.store [T]) a b c i j k).trans (value_ptb h hZ hT ha hb hc hi hj hk)
  unfold PtB.part
  rw [e₁, e₂]
  rfl

theorem ptKernel_b :
    ccsdptB (PSpace.dimsOf (setup S Z shift)) (callPtB (setup S Z shift) (Cluster.store [T]) amplitudes stored)
      = ∑ i ∈ range S.na, ∑ j ∈ Ico (i + 1) S.na, ∑ k ∈ range S.nb, ∑ a ∈ range S.ua, ∑ b ∈ Ico (a + 1) S.ua, ∑ c ∈ range S.ub, 
        ptTerm S Z T (hamiltonian S Z) (S.exciteAAB a b c i j k) ((gapsA S Z).aab a b c i j k) := by
  rw [ccsdptB_sum]
  refine Finset.sum_congr rfl fun i mi => ?_
  refine Finset.sum_congr rfl fun j mj => ?_
  refine Finset.sum_congr rfl fun k mk => ?_
  refine Finset.sum_congr rfl fun a ma => ?_
  refine Finset.sum_congr rfl fun b mb => ?_
  refine Finset.sum_congr rfl fun c mc => ?_
  exact ptPart_b h hZ hs hT shift (Finset.mem_range.1 ma) (Finset.mem_Ico.1 mb).2 (Finset.mem_range.1 mc) (Finset.mem_range.1 mi) (Finset.mem_Ico.1 mj).2 (Finset.mem_range.1 mk)

theorem ptPart_c {a b c i j k : ℕ} (ha : a < S.ua) (hb : b < S.ub) (hc : c < S.ub) (hi : i < S.na) (hj : j < S.nb) (hk : k < S.nb) :
    (callPtC (setup S Z shift) (Cluster.store [T]) amplitudes stored).part (PSpace.dimsOf (setup S Z shift)) (i + 1) (j + 1) (k + 1) (a + 1) (b + 1) (c + 1)
      = ptTerm S Z T (hamiltonian S Z) (S.exciteABB a b c i j k) ((gapsA S Z).abb a b c i j k) := by
  have e₁ := (pt_moment_c (setup S Z shift) (Cluster.store [T]) a b c i j k).trans (value_m3c h hZ hT ha hb hc hi hj hk)
  have e₂ := (pt_left_c (S := S) hZ hs shift (Cluster.store [T]) a b c i j k).trans (value_ptc h hZ hT ha hb hc hi hj hk)
  unfold PtC.part
  rw [e₁, e₂]
  rfl

theorem ptKernel_c (hroom : S.nb ≤ S.na ∨ S.ub = 0) :
    ccsdptC (PSpace.dimsOf (setup S Z shift)) (callPtC (setup S Z shift) (Cluster.store [T]) amplitudes stored)
      = some (∑ i ∈ range S.na, ∑ j ∈ range S.nb, ∑ k ∈ Ico (j + 1) S.nb, ∑ a ∈ range S.ua, ∑ b ∈ range S.ub, ∑ c ∈ Ico (b + 1) S.ub, 
        ptTerm S Z T (hamiltonian S Z) (S.exciteABB a b c i j k) ((gapsA S Z).abb a b c i j k)) := by
  rw [ccsdptC_sum]
  rw [if_neg (by show ¬(S.na < S.nb ∧ 0 < S.ub); omega)]
  refine congrArg some ?_
  refine Finset.sum_congr rfl fun i mi => ?_
  refine Finset.sum_congr rfl fun j mj => ?_
  refine Finset.sum_congr rfl fun k mk => ?_
  refine Finset.sum_congr rfl fun a ma => ?_
  refine Finset.sum_congr rfl fun b mb => ?_
  refine Finset.sum_congr rfl fun c mc => ?_
  exact ptPart_c h hZ hs hT shift (Finset.mem_range.1 ma) (Finset.mem_range.1 mb) (Finset.mem_Ico.1 mc).2 (Finset.mem_range.1 mi) (Finset.mem_range.1 mj) (Finset.mem_Ico.1 mk).2

theorem ptPart_d {a b c i j k : ℕ} (ha : a < S.ub) (hb : b < S.ub) (hc : c < S.ub) (hi : i < S.nb) (hj : j < S.nb) (hk : k < S.nb) :
    (callPtD (setup S Z shift) (Cluster.store [T]) amplitudes stored).part (PSpace.dimsOf (setup S Z shift)) (i + 1) (j + 1) (k + 1) (a + 1) (b + 1) (c + 1)
      = ptTerm S Z T (hamiltonian S Z) (S.exciteBBB a b c i j k) ((gapsA S Z).bbb a b c i j k) := by
  have e₁ := (pt_moment_d (setup S Z shift) (Cluster.store [T]) a b c i j k).trans (value_m3d h hZ hT ha hb hc hi hj hk)
  have e₂ := (pt_left_d (S := S) hZ hs shift (Cluster.store [T]) a b c i j k).trans (value_ptd h hZ hT ha hb hc hi hj hk)
  unfold PtD.part
  rw [e₁, e₂]
  rfl

theorem ptKernel_d :
    ccsdptD (PSpace.dimsOf (setup S Z shift)) (callPtD (setup S Z shift) (Cluster.store [T]) amplitudes stored)
      = ∑ i ∈ range S.nb, ∑ j ∈ Ico (i + 1) S.nb, ∑ k ∈ Ico (j + 1) S.nb, ∑ a ∈ range S.ub, ∑ b ∈ Ico (a + 1) S.ub, ∑ c ∈ Ico (b + 1) S.ub, 
        ptTerm S Z T (hamiltonian S Z) (S.exciteBBB a b c i j k) ((gapsA S Z).bbb a b c i j k) := by
  rw [ccsdptD_sum]
  refine Finset.sum_congr rfl fun i mi => ?_
  refine Finset.sum_congr rfl fun j mj => ?_
  refine Finset.sum_congr rfl fun k mk => ?_
  refine Finset.sum_congr rfl fun a ma => ?_
  refine Finset.sum_congr rfl fun b mb => ?_
  refine Finset.sum_congr rfl fun c mc => ?_
  exact ptPart_d h hZ hs hT shift (Finset.mem_range.1 ma) (Finset.mem_Ico.1 mb).2 (Finset.mem_Ico.1 mc).2 (Finset.mem_range.1 mi) (Finset.mem_Ico.1 mj).2 (Finset.mem_Ico.1 mk).2

end

end Ccpy.CrCc
