import Verif.Lemmas.CrCcDenominators

/-! The CR-CC(2,3) kernels for a coupled-cluster state. -/

set_option linter.unusedSimpArgs false

namespace Ccpy.CrCc
open Ccpy.Fock Ccpy.Tensor Ccpy.Engine Ccpy.HbarCcsd Ccpy.Ccsdt Ccpy.PSpace Ccpy.Ccsd
open Ccpy.EomCcsd (excitation)
open Finset (range Ico)

variable {ι : Type*} [LinearOrder ι]

section
variable {S : Orbitals ι} (h : S.Proper) {Z : Fock.Integrals} (hZ : Z.Antisym) {T L : Cluster} (hT : T.Antisym) (hL : L.Antisym) (shift : ℚ)
  {DB DC : ℕ → ℕ → ℕ → ℕ → ℕ → ℕ → ℚ}
include h hZ hT hL

theorem part_a {a b c i j k : ℕ} (ha : a < S.ua) (hb : b < S.ua) (hc : c < S.ua) (hab : a < b) (hbc : b < c) (hi : i < S.na) (hj : j < S.na) (hk : k < S.na) (hij : i < j) (hjk : j < k) :
    (argsA (setup S Z shift) (Cluster.store [T, L]) amplitudes excitation hbar stored).part (PSpace.dimsOf (setup S Z shift)) (i + 1) (j + 1) (k + 1) (a + 1) (b + 1) (c + 1)
      = (crccTerm S Z T L (S.exciteAAA a b c i j k) ((gapsA S Z).aaa a b c i j k),
        crccTerm S Z T L (S.exciteAAA a b c i j k) ((argsA (setup S Z shift) (Cluster.store [T, L]) amplitudes excitation hbar stored).denomB (i + 1) (j + 1) (k + 1) (a + 1) (b + 1) (c + 1)),
        crccTerm S Z T L (S.exciteAAA a b c i j k) ((argsA (setup S Z shift) (Cluster.store [T, L]) amplitudes excitation hbar stored).denomC (i + 1) (j + 1) (k + 1) (a + 1) (b + 1) (c + 1)),
        crccTerm S Z T L (S.exciteAAA a b c i j k) ((gapsD S Z T).aaa a b c i j k)) := by
  have e₁ := moment_a (setup S Z shift) (Cluster.store [T, L]) (dressed_hbar (S := S) hZ hT zero_antisym L shift) (dressed_anti (S := S) hZ hT zero_antisym shift) a b c i j k
  rw [element_a h hZ hT shift zero_antisym ha hb hc hi hj hk, transformed3_zero] at e₁
  have e₂ := (left_a (setup S Z shift) (Cluster.store [T, L]) a b c i j k).trans (value_l3a h hZ hT hL ha hb hc hi hj hk)
  have e₃ := denom_a (setup S Z shift) (Cluster.store [T, L]) (dressed_hbar (S := S) hZ hT zero_antisym L shift) (i := i) (j := j) (k := k) (a := a) (b := b) (c := c) (dressed_anti (S := S) hZ hT zero_antisym shift) hab (by omega) hbc
  have e₄ := (gap_a h hZ hT shift ha hb hc hab hbc hi hj hk hij hjk)
  unfold ArgsA.part
  rw [e₁, e₂, e₃, ← e₄]
  rfl

theorem kernel_a (hB : ∀ a b c i j k, a < S.ua → b < S.ua → c < S.ua → a < b → b < c → i < S.na → j < S.na → k < S.na → i < j → j < k → (argsA (setup S Z shift) (Cluster.store [T, L]) amplitudes excitation hbar stored).denomB (i + 1) (j + 1) (k + 1) (a + 1) (b + 1) (c + 1) = DB a b c i j k)
    (hC : ∀ a b c i j k, a < S.ua → b < S.ua → c < S.ua → a < b → b < c → i < S.na → j < S.na → k < S.na → i < j → j < k → (argsA (setup S Z shift) (Cluster.store [T, L]) amplitudes excitation hbar stored).denomC (i + 1) (j + 1) (k + 1) (a + 1) (b + 1) (c + 1) = DC a b c i j k) :
    crcc23A (PSpace.dimsOf (setup S Z shift)) (argsA (setup S Z shift) (Cluster.store [T, L]) amplitudes excitation hbar stored)
      = (crccAAA S Z T L (gapsA S Z).aaa, crccAAA S Z T L DB, crccAAA S Z T L DC, crccAAA S Z T L (gapsD S Z T).aaa) := by
  rw [crcc23A_sum]
  trans ∑ i ∈ range S.na, ∑ j ∈ Ico (i + 1) S.na, ∑ k ∈ Ico (j + 1) S.na, ∑ a ∈ range S.ua, ∑ b ∈ Ico (a + 1) S.ua, ∑ c ∈ Ico (b + 1) S.ua, (crccTerm S Z T L (S.exciteAAA a b c i j k) ((gapsA S Z).aaa a b c i j k), crccTerm S Z T L (S.exciteAAA a b c i j k) (DB a b c i j k), crccTerm S Z T L (S.exciteAAA a b c i j k) (DC a b c i j k), crccTerm S Z T L (S.exciteAAA a b c i j k) ((gapsD S Z T).aaa a b c i j k))
  · refine Finset.sum_congr rfl fun i mi => ?_
    refine Finset.sum_congr rfl fun j mj => ?_
    refine Finset.sum_congr rfl fun k mk => ?_
    refine Finset.sum_congr rfl fun a ma => ?_
    refine Finset.sum_congr rfl fun b mb => ?_
    refine Finset.sum_congr rfl fun c mc => ?_
    have hi := Finset.mem_range.1 mi
    have hj := (Finset.mem_Ico.1 mj).2
    have hk := (Finset.mem_Ico.1 mk).2
    have ha := Finset.mem_range.1 ma
    have hb := (Finset.mem_Ico.1 mb).2
    have hc := (Finset.mem_Ico.1 mc).2
    have hab : a < b := (Finset.mem_Ico.1 mb).1
    have hij : i < j := (Finset.mem_Ico.1 mj).1
    have hbc : b < c := (Finset.mem_Ico.1 mc).1
    have hjk : j < k := (Finset.mem_Ico.1 mk).1
    rw [part_a h hZ hT hL shift ha hb hc hab hbc hi hj hk hij hjk, hB a b c i j k ha hb hc hab hbc hi hj hk hij hjk, hC a b c i j k ha hb hc hab hbc hi hj hk hij hjk]
  · refine Prod.ext ?_ (Prod.ext ?_ (Prod.ext ?_ ?_)) <;> simp only [Prod.fst_sum, Prod.snd_sum] <;> rfl

theorem part_b {a b c i j k : ℕ} (ha : a < S.ua) (hb : b < S.ua) (hc : c < S.ub) (hab : a < b) (hi : i < S.na) (hj : j < S.na) (hk : k < S.nb) (hij : i < j) :
    (argsB (setup S Z shift) (Cluster.store [T, L]) amplitudes excitation hbar stored).part (PSpace.dimsOf (setup S Z shift)) (i + 1) (j + 1) (k + 1) (a + 1) (b + 1) (c + 1)
      = (crccTerm S Z T L (S.exciteAAB a b c i j k) ((gapsA S Z).aab a b c i j k),
        crccTerm S Z T L (S.exciteAAB a b c i j k) ((argsB (setup S Z shift) (Cluster.store [T, L]) amplitudes excitation hbar stored).denomB (i + 1) (j + 1) (k + 1) (a + 1) (b + 1) (c + 1)),
        crccTerm S Z T L (S.exciteAAB a b c i j k) ((argsB (setup S Z shift) (Cluster.store [T, L]) amplitudes excitation hbar stored).denomC (i + 1) (j + 1) (k + 1) (a + 1) (b + 1) (c + 1)),
        crccTerm S Z T L (S.exciteAAB a b c i j k) ((gapsD S Z T).aab a b c i j k)) := by
  have e₁ := moment_b (setup S Z shift) (Cluster.store [T, L]) (dressed_hbar (S := S) hZ hT zero_antisym L shift) (dressed_anti (S := S) hZ hT zero_antisym shift) a b c i j k
  rw [element_b h hZ hT shift zero_antisym ha hb hc hi hj hk, transformed3_zero] at e₁
  have e₂ := (left_b (setup S Z shift) (Cluster.store [T, L]) a b c i j k).trans (value_l3b h hZ hT hL ha hb hc hi hj hk)
  have e₃ := denom_b (setup S Z shift) (Cluster.store [T, L]) (dressed_hbar (S := S) hZ hT zero_antisym L shift) (i := i) (j := j) (k := k) (a := a) (b := b) (c := c) (dressed_anti (S := S) hZ hT zero_antisym shift) hab
  have e₄ := (gap_b h hZ hT shift ha hb hc hab hi hj hk hij)
  unfold ArgsB.part
  rw [e₁, e₂, e₃, ← e₄]
  rfl

theorem kernel_b (hB : ∀ a b c i j k, a < S.ua → b < S.ua → c < S.ub → a < b → i < S.na → j < S.na → k < S.nb → i < j → (argsB (setup S Z shift) (Cluster.store [T, L]) amplitudes excitation hbar stored).denomB (i + 1) (j + 1) (k + 1) (a + 1) (b + 1) (c + 1) = DB a b c i j k)
    (hC : ∀ a b c i j k, a < S.ua → b < S.ua → c < S.ub → a < b → i < S.na → j < S.na → k < S.nb → i < j → (argsB (setup S Z shift) (Cluster.store [T, L]) amplitudes excitation hbar stored).denomC (i + 1) (j + 1) (k + 1) (a + 1) (b + 1) (c + 1) = DC a b c i j k) :
    crcc23B (PSpace.dimsOf (setup S Z shift)) (argsB (setup S Z shift) (Cluster.store [T, L]) amplitudes excitation hbar stored)
      = (crccAAB S Z T L (gapsA S Z).aab, crccAAB S Z T L DB, crccAAB S Z T L DC, crccAAB S Z T L (gapsD S Z T).aab) := by
  rw [crcc23B_sum]
  trans ∑ i ∈ range S.na, ∑ j ∈ Ico (i + 1) S.na, ∑ k ∈ range S.nb, ∑ a ∈ range S.ua, ∑ b ∈ Ico (a + 1) S.ua, ∑ c ∈ range S.ub, (crccTerm S Z T L (S.exciteAAB a b c i j k) ((gapsA S Z).aab a b c i j k), crccTerm S Z T L (S.exciteAAB a b c i j k) (DB a b c i j k), crccTerm S Z T L (S.exciteAAB a b c i j k) (DC a b c i j k), crccTerm S Z T L (S.exciteAAB a b c i j k) ((gapsD S Z T).aab a b c i j k))
  · refine Finset.sum_congr rfl fun i mi => ?_
    refine Finset.sum_congr rfl fun j mj => ?_
    refine Finset.sum_congr rfl fun k mk => ?_
    refine Finset.sum_congr rfl fun a ma => ?_
    refine Finset.sum_congr rfl fun b mb => ?_
    refine Finset.sum_congr rfl fun c mc => ?_
    have hi := Finset.mem_range.1 mi
    have hj := (Finset.mem_Ico.1 mj).2
    have hk := Finset.mem_range.1 mk
    have ha := Finset.mem_range.1 ma
    have hb := (Finset.mem_Ico.1 mb).2
    have hc := Finset.mem_range.1 mc
    have hab : a < b := (Finset.mem_Ico.1 mb).1
    have hij : i < j := (Finset.mem_Ico.1 mj).1
    rw [part_b h hZ hT hL shift ha hb hc hab hi hj hk hij, hB a b c i j k ha hb hc hab hi hj hk hij, hC a b c i j k ha hb hc hab hi hj hk hij]
  · refine Prod.ext ?_ (Prod.ext ?_ (Prod.ext ?_ ?_)) <;> simp only [Prod.fst_sum, Prod.snd_sum] <;> rfl

theorem part_c {a b c i j k : ℕ} (ha : a < S.ua) (hb : b < S.ub) (hc : c < S.ub) (hbc : b < c) (hi : i < S.na) (hj : j < S.nb) (hk : k < S.nb) (hjk : j < k) :
    (argsC (setup S Z shift) (Cluster.store [T, L]) amplitudes excitation hbar stored).part (PSpace.dimsOf (setup S Z shift)) (i + 1) (j + 1) (k + 1) (a + 1) (b + 1) (c + 1)
      = (crccTerm S Z T L (S.exciteABB a b c i j k) ((gapsA S Z).abb a b c i j k),
        crccTerm S Z T L (S.exciteABB a b c i j k) ((argsC (setup S Z shift) (Cluster.store [T, L]) amplitudes excitation hbar stored).denomB (i + 1) (j + 1) (k + 1) (a + 1) (b + 1) (c + 1)),
        crccTerm S Z T L (S.exciteABB a b c i j k) ((argsC (setup S Z shift) (Cluster.store [T, L]) amplitudes excitation hbar stored).denomC (i + 1) (j + 1) (k + 1) (a + 1) (b + 1) (c + 1)),
        crccTerm S Z T L (S.exciteABB a b c i j k) ((gapsD S Z T).abb a b c i j k)) := by
  have e₁ := moment_c (setup S Z shift) (Cluster.store [T, L]) (dressed_hbar (S := S) hZ hT zero_antisym L shift) (dressed_anti (S := S) hZ hT zero_antisym shift) a b c i j k
  rw [element_c h hZ hT shift zero_antisym ha hb hc hi hj hk, transformed3_zero] at e₁
  have e₂ := (left_c (setup S Z shift) (Cluster.store [T, L]) a b c i j k).trans (value_l3c h hZ hT hL ha hb hc hi hj hk)
  have e₃ := denom_c (setup S Z shift) (Cluster.store [T, L]) (dressed_hbar (S := S) hZ hT zero_antisym L shift) (i := i) (j := j) (k := k) (a := a) (b := b) (c := c) (dressed_anti (S := S) hZ hT zero_antisym shift) hbc
  have e₄ := (gap_c h hZ hT shift ha hb hc hbc hi hj hk hjk)
  unfold ArgsC.part
  rw [e₁, e₂, e₃, ← e₄]
  rfl

theorem kernel_c (hroom : S.nb ≤ S.na ∨ S.ub = 0) (hB : ∀ a b c i j k, a < S.ua → b < S.ub → c < S.ub → b < c → i < S.na → j < S.nb → k < S.nb → j < k → (argsC (setup S Z shift) (Cluster.store [T, L]) amplitudes excitation hbar stored).denomB (i + 1) (j + 1) (k + 1) (a + 1) (b + 1) (c + 1) = DB a b c i j k)
    (hC : ∀ a b c i j k, a < S.ua → b < S.ub → c < S.ub → b < c → i < S.na → j < S.nb → k < S.nb → j < k → (argsC (setup S Z shift) (Cluster.store [T, L]) amplitudes excitation hbar stored).denomC (i + 1) (j + 1) (k + 1) (a + 1) (b + 1) (c + 1) = DC a b c i j k) :
    crcc23C (PSpace.dimsOf (setup S Z shift)) (argsC (setup S Z shift) (Cluster.store [T, L]) amplitudes excitation hbar stored)
      = some (crccABB S Z T L (gapsA S Z).abb, crccABB S Z T L DB, crccABB S Z T L DC, crccABB S Z T L (gapsD S Z T).abb) := by
  rw [crcc23C_sum]
  rw [if_neg (by show ¬(S.na < S.nb ∧ 0 < S.ub); omega)]
  refine congrArg some ?_
  trans ∑ i ∈ range S.na, ∑ j ∈ range S.nb, ∑ k ∈ Ico (j + 1) S.nb, ∑ a ∈ range S.ua, ∑ b ∈ range S.ub, ∑ c ∈ Ico (b + 1) S.ub, (crccTerm S Z T L (S.exciteABB a b c i j k) ((gapsA S Z).abb a b c i j k), crccTerm S Z T L (S.exciteABB a b c i j k) (DB a b c i j k), crccTerm S Z T L (S.exciteABB a b c i j k) (DC a b c i j k), crccTerm S Z T L (S.exciteABB a b c i j k) ((gapsD S Z T).abb a b c i j k))
  · refine Finset.sum_congr rfl fun i mi => ?_
    refine Finset.sum_congr rfl fun j mj => ?_
    refine Finset.sum_congr rfl fun k mk => ?_
    refine Finset.sum_congr rfl fun a ma => ?_
    refine Finset.sum_congr rfl fun b mb => ?_
    refine Finset.sum_congr rfl fun c mc => ?_
    have hi := Finset.mem_range.1 mi
    have hj := Finset.mem_range.1 mj
    have hk := (Finset.mem_Ico.1 mk).2
    have ha := Finset.mem_range.1 ma
    have hb := Finset.mem_range.1 mb
    have hc := (Finset.mem_Ico.1 mc).2
    have hbc : b < c := (Finset.mem_Ico.1 mc).1
    have hjk : j < k := (Finset.mem_Ico.1 mk).1
    rw [part_c h hZ hT hL shift ha hb hc hbc hi hj hk hjk, hB a b c i j k ha hb hc hbc hi hj hk hjk, hC a b c i j k ha hb hc hbc hi hj hk hjk]
  · refine Prod.ext ?_ (Prod.ext ?_ (Prod.ext ?_ ?_)) <;> simp only [Prod.fst_sum, Prod.snd_sum] <;> rfl

theorem part_d {a b c i j k : ℕ} (ha : a < S.ub) (hb : b < S.ub) (hc : c < S.ub) (hab : a < b) (hbc : b < c) (hi : i < S.nb) (hj : j < S.nb) (hk : k < S.nb) (hij : i < j) (hjk : j < k) :
    (argsD (setup S Z shift) (Cluster.store [T, L]) amplitudes excitation hbar stored).part (PSpace.dimsOf (setup S Z shift)) (i + 1) (j + 1) (k + 1) (a + 1) (b + 1) (c + 1)
      = (crccTerm S Z T L (S.exciteBBB a b c i j k) ((gapsA S Z).bbb a b c i j k),
        crccTerm S Z T L (S.exciteBBB a b c i j k) ((argsD (setup S Z shift) (Cluster.store [T, L]) amplitudes excitation hbar stored).denomB (i + 1) (j + 1) (k + 1) (a + 1) (b + 1) (c + 1)),
        crccTerm S Z T L (S.exciteBBB a b c i j k) ((argsD (setup S Z shift) (Cluster.store [T, L]) amplitudes excitation hbar stored).denomC (i + 1) (j + 1) (k + 1) (a + 1) (b + 1) (c + 1)),
        crccTerm S Z T L (S.exciteBBB a b c i j k) ((gapsD S Z T).bbb a b c i j k)) := by
  have e₁ := moment_d (setup S Z shift) (Cluster.store [T, L]) (dressed_hbar (S := S) hZ hT zero_antisym L shift) (dressed_anti (S := S) hZ hT zero_antisym shift) a b c i j k
  rw [element_d h hZ hT shift zero_antisym ha hb hc hi hj hk, transformed3_zero] at e₁
  have e₂ := (left_d (setup S Z shift) (Cluster.store [T, L]) a b c i j k).trans (value_l3d h hZ hT hL ha hb hc hi hj hk)
  have e₃ := denom_d (setup S Z shift) (Cluster.store [T, L]) (dressed_hbar (S := S) hZ hT zero_antisym L shift) (i := i) (j := j) (k := k) (a := a) (b := b) (c := c) (dressed_anti (S := S) hZ hT zero_antisym shift) hab (by omega) hbc
  have e₄ := (gap_d h hZ hT shift ha hb hc hab hbc hi hj hk hij hjk)
  unfold ArgsD.part
  rw [e₁, e₂, e₃, ← e₄]
  rfl

theorem kernel_d (hB : ∀ a b c i j k, a < S.ub → b < S.ub → c < S.ub → a < b → b < c → i < S.nb → j < S.nb → k < S.nb → i < j → j < k → (argsD (setup S Z shift) (Cluster.store [T, L]) amplitudes excitation hbar stored).denomB (i + 1) (j + 1) (k + 1) (a + 1) (b + 1) (c + 1) = DB a b c i j k)
    (hC : ∀ a b c i j k, a < S.ub → b < S.ub → c < S.ub → a < b → b < c → i < S.nb → j < S.nb → k < S.nb → i < j → j < k → (argsD (setup S Z shift) (Cluster.store [T, L]) amplitudes excitation hbar stored).denomC (i + 1) (j + 1) (k + 1) (a + 1) (b + 1) (c + 1) = DC a b c i j k) :
    crcc23D (PSpace.dimsOf (setup S Z shift)) (argsD (setup S Z shift) (Cluster.store [T, L]) amplitudes excitation hbar stored)
      = (crccBBB S Z T L (gapsA S Z).bbb, crccBBB S Z T L DB, crccBBB S Z T L DC, crccBBB S Z T L (gapsD S Z T).bbb) := by
  rw [crcc23D_sum]
  trans ∑ i ∈ range S.nb, ∑ j ∈ Ico (i + 1) S.nb, ∑ k ∈ Ico (j + 1) S.nb, ∑ a ∈ range S.ub, ∑ b ∈ Ico (a + 1) S.ub, ∑ c ∈ Ico (b + 1) S.ub, (crccTerm S Z T L (S.exciteBBB a b c i j k) ((gapsA S Z).bbb a b c i j k), crccTerm S Z T L (S.exciteBBB a b c i j k) (DB a b c i j k), crccTerm S Z T L (S.exciteBBB a b c i j k) (DC a b c i j k), crccTerm S Z T L (S.exciteBBB a b c i j k) ((gapsD S Z T).bbb a b c i j k))
  · refine Finset.sum_congr rfl fun i mi => ?_
    refine Finset.sum_congr rfl fun j mj => ?_
    refine Finset.sum_congr rfl fun k mk => ?_
    refine Finset.sum_congr rfl fun a ma => ?_
    refine Finset.sum_congr rfl fun b mb => ?_
    refine Finset.sum_congr rfl fun c mc => ?_
    have hi := Finset.mem_range.1 mi
    have hj := (Finset.mem_Ico.1 mj).2
    have hk := (Finset.mem_Ico.1 mk).2
    have ha := Finset.mem_range.1 ma
    have hb := (Finset.mem_Ico.1 mb).2
    have hc := (Finset.mem_Ico.1 mc).2
    have hab : a < b := (Finset.mem_Ico.1 mb).1
    have hij : i < j := (Finset.mem_Ico.1 mj).1
    have hbc : b < c := (Finset.mem_Ico.1 mc).1
    have hjk : j < k := (Finset.mem_Ico.1 mk).1
    rw [part_d h hZ hT hL shift ha hb hc hab hbc hi hj hk hij hjk, hB a b c i j k ha hb hc hab hbc hi hj hk hij hjk, hC a b c i j k ha hb hc hab hbc hi hj hk hij hjk]
  · refine Prod.ext ?_ (Prod.ext ?_ (Prod.ext ?_ ?_)) <;> simp only [Prod.fst_sum, Prod.snd_sum] <;> rfl

end

end Ccpy.CrCc
