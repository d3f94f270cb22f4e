import Verif.Model.PSpaceD
import Verif.Lemmas.PSpaceReady
import Verif.Spec.PSpace

/-! The blocks of `update_t3d_p` are large enough and hold all rows that may be listed. -/

namespace Ccpy.PSpace
open Ccpy.Fock Ccpy.Spec

variable {d : Dims} {H : Arrays} {q : List ℕ}

theorem t3dBlock1_ready : (t3dBlock1 d H).Ready := by
  exact ready_triple (n := d.ub) (m := d.ob) rfl rfl rfl (by simp [t3dBlock1]) ⟨rfl, rfl, rfl, rfl⟩ rfl
theorem t3dBlock1_holds (h : ListedAAA d.ub d.ob q) : (t3dBlock1 d H).Holds q := by
  obtain ⟨a, b, c, i, j, k, rfl, h⟩ := h
  simp [Block.Holds, t3dBlock1, InRanges, lowest, ints, column, Block.ranges]
  try omega
theorem t3dBlock1_asks (h : ListedAAA d.ub d.ob q) : (t3dBlock1 d H).Asks q := by
  obtain ⟨a, b, c, i, j, k, rfl, h⟩ := h
  simp [Block.Asks, t3dBlock1, InRanges, lowest, ints, column, Block.ranges]
  try omega

theorem t3dBlock2_ready : (t3dBlock2 d H).Ready := by
  exact ready_triple (n := d.ub) (m := d.ob) rfl rfl rfl (by simp [t3dBlock2]) ⟨rfl, rfl, rfl, rfl⟩ rfl
theorem t3dBlock2_holds (h : ListedAAA d.ub d.ob q) : (t3dBlock2 d H).Holds q := by
  obtain ⟨a, b, c, i, j, k, rfl, h⟩ := h
  simp [Block.Holds, t3dBlock2, InRanges, lowest, ints, column, Block.ranges]
  try omega
theorem t3dBlock2_asks (h : ListedAAA d.ub d.ob q) : (t3dBlock2 d H).Asks q := by
  obtain ⟨a, b, c, i, j, k, rfl, h⟩ := h
  simp [Block.Asks, t3dBlock2, InRanges, lowest, ints, column, Block.ranges]
  try omega

theorem t3dBlock3_ready : (t3dBlock3 d H).Ready := by
  exact ready_triple (n := d.ub) (m := d.ob) rfl rfl rfl (by simp [t3dBlock3]) ⟨rfl, rfl, rfl, rfl⟩ rfl
theorem t3dBlock3_holds (h : ListedAAA d.ub d.ob q) : (t3dBlock3 d H).Holds q := by
  obtain ⟨a, b, c, i, j, k, rfl, h⟩ := h
  simp [Block.Holds, t3dBlock3, InRanges, lowest, ints, column, Block.ranges]
  try omega
theorem t3dBlock3_asks (h : ListedAAA d.ub d.ob q) : (t3dBlock3 d H).Asks q := by
  obtain ⟨a, b, c, i, j, k, rfl, h⟩ := h
  simp [Block.Asks, t3dBlock3, InRanges, lowest, ints, column, Block.ranges]
  try omega

theorem t3dBlock4_ready : (t3dBlock4 d H).Ready := by
  exact ready_triple (n := d.ob) (m := d.ub) rfl rfl rfl (by simp [t3dBlock4]) ⟨rfl, rfl, rfl, rfl⟩ rfl
theorem t3dBlock4_holds (h : ListedAAA d.ub d.ob q) : (t3dBlock4 d H).Holds q := by
  obtain ⟨a, b, c, i, j, k, rfl, h⟩ := h
  simp [Block.Holds, t3dBlock4, InRanges, lowest, ints, column, Block.ranges]
  try omega
theorem t3dBlock4_asks (h : ListedAAA d.ub d.ob q) : (t3dBlock4 d H).Asks q := by
  obtain ⟨a, b, c, i, j, k, rfl, h⟩ := h
  simp [Block.Asks, t3dBlock4, InRanges, lowest, ints, column, Block.ranges]
  try omega

theorem t3dBlock5_ready : (t3dBlock5 d H).Ready := by
  exact ready_triple (n := d.ob) (m := d.ub) rfl rfl rfl (by simp [t3dBlock5]) ⟨rfl, rfl, rfl, rfl⟩ rfl
theorem t3dBlock5_holds (h : ListedAAA d.ub d.ob q) : (t3dBlock5 d H).Holds q := by
  obtain ⟨a, b, c, i, j, k, rfl, h⟩ := h
  simp [Block.Holds, t3dBlock5, InRanges, lowest, ints, column, Block.ranges]
  try omega
theorem t3dBlock5_asks (h : ListedAAA d.ub d.ob q) : (t3dBlock5 d H).Asks q := by
  obtain ⟨a, b, c, i, j, k, rfl, h⟩ := h
  simp [Block.Asks, t3dBlock5, InRanges, lowest, ints, column, Block.ranges]
  try omega

theorem t3dBlock6_ready : (t3dBlock6 d H).Ready := by
  exact ready_triple (n := d.ob) (m := d.ub) rfl rfl rfl (by simp [t3dBlock6]) ⟨rfl, rfl, rfl, rfl⟩ rfl
theorem t3dBlock6_holds (h : ListedAAA d.ub d.ob q) : (t3dBlock6 d H).Holds q := by
  obtain ⟨a, b, c, i, j, k, rfl, h⟩ := h
  simp [Block.Holds, t3dBlock6, InRanges, lowest, ints, column, Block.ranges]
  try omega
theorem t3dBlock6_asks (h : ListedAAA d.ub d.ob q) : (t3dBlock6 d H).Asks q := by
  obtain ⟨a, b, c, i, j, k, rfl, h⟩ := h
  simp [Block.Asks, t3dBlock6, InRanges, lowest, ints, column, Block.ranges]
  try omega

theorem t3dBlock7_ready : (t3dBlock7 d H).Ready := by
  exact ready_pairs (n := d.ub) (m := d.ob) (Or.inr (Or.inl ⟨rfl, rfl, rfl⟩)) (Or.inr (Or.inl ⟨rfl, rfl, rfl⟩)) ⟨rfl, rfl, rfl, rfl⟩
    (by simp only [t3dBlock7, mul_pred_half, mul_pred_pred_half]; try ring)
theorem t3dBlock7_holds (h : ListedAAA d.ub d.ob q) : (t3dBlock7 d H).Holds q := by
  obtain ⟨a, b, c, i, j, k, rfl, h⟩ := h
  simp [Block.Holds, t3dBlock7, InRanges, lowest, ints, column, Block.ranges]
  try omega
theorem t3dBlock7_asks (h : ListedAAA d.ub d.ob q) : (t3dBlock7 d H).Asks q := by
  simp [Block.Asks, t3dBlock7, InRanges, lowest, ints, column, Block.ranges]
  try omega

theorem t3dBlock8_ready : (t3dBlock8 d H).Ready := by
  exact ready_pairs (n := d.ub) (m := d.ob) (Or.inr (Or.inr (Or.inl ⟨rfl, rfl, rfl⟩))) (Or.inr (Or.inl ⟨rfl, rfl, rfl⟩)) ⟨rfl, rfl, rfl, rfl⟩
    (by simp only [t3dBlock8, mul_pred_half, mul_pred_pred_half]; try ring)
theorem t3dBlock8_holds (h : ListedAAA d.ub d.ob q) : (t3dBlock8 d H).Holds q := by
  obtain ⟨a, b, c, i, j, k, rfl, h⟩ := h
  simp [Block.Holds, t3dBlock8, InRanges, lowest, ints, column, Block.ranges]
  try omega
theorem t3dBlock8_asks (h : ListedAAA d.ub d.ob q) : (t3dBlock8 d H).Asks q := by
  simp [Block.Asks, t3dBlock8, InRanges, lowest, ints, column, Block.ranges]
  try omega

theorem t3dBlock9_ready : (t3dBlock9 d H).Ready := by
  exact ready_pairs (n := d.ub) (m := d.ob) (Or.inr (Or.inr (Or.inr ⟨rfl, rfl, rfl⟩))) (Or.inr (Or.inl ⟨rfl, rfl, rfl⟩)) ⟨rfl, rfl, rfl, rfl⟩
    (by simp only [t3dBlock9, mul_pred_half, mul_pred_pred_half]; try ring)
theorem t3dBlock9_holds (h : ListedAAA d.ub d.ob q) : (t3dBlock9 d H).Holds q := by
  obtain ⟨a, b, c, i, j, k, rfl, h⟩ := h
  simp [Block.Holds, t3dBlock9, InRanges, lowest, ints, column, Block.ranges]
  try omega
theorem t3dBlock9_asks (h : ListedAAA d.ub d.ob q) : (t3dBlock9 d H).Asks q := by
  simp [Block.Asks, t3dBlock9, InRanges, lowest, ints, column, Block.ranges]
  try omega

theorem t3dBlock10_ready : (t3dBlock10 d H).Ready := by
  exact ready_pairs (n := d.ub) (m := d.ob) (Or.inr (Or.inl ⟨rfl, rfl, rfl⟩)) (Or.inr (Or.inr (Or.inl ⟨rfl, rfl, rfl⟩))) ⟨rfl, rfl, rfl, rfl⟩
    (by simp only [t3dBlock10, mul_pred_half, mul_pred_pred_half]; try ring)
theorem t3dBlock10_holds (h : ListedAAA d.ub d.ob q) : (t3dBlock10 d H).Holds q := by
  obtain ⟨a, b, c, i, j, k, rfl, h⟩ := h
  simp [Block.Holds, t3dBlock10, InRanges, lowest, ints, column, Block.ranges]
  try omega
theorem t3dBlock10_asks (h : ListedAAA d.ub d.ob q) : (t3dBlock10 d H).Asks q := by
  simp [Block.Asks, t3dBlock10, InRanges, lowest, ints, column, Block.ranges]
  try omega

theorem t3dBlock11_ready : (t3dBlock11 d H).Ready := by
  exact ready_pairs (n := d.ub) (m := d.ob) (Or.inr (Or.inr (Or.inl ⟨rfl, rfl, rfl⟩))) (Or.inr (Or.inr (Or.inl ⟨rfl, rfl, rfl⟩))) ⟨rfl, rfl, rfl, rfl⟩
    (by simp only [t3dBlock11, mul_pred_half, mul_pred_pred_half]; try ring)
theorem t3dBlock11_holds (h : ListedAAA d.ub d.ob q) : (t3dBlock11 d H).Holds q := by
  obtain ⟨a, b, c, i, j, k, rfl, h⟩ := h
  simp [Block.Holds, t3dBlock11, InRanges, lowest, ints, column, Block.ranges]
  try omega
theorem t3dBlock11_asks (h : ListedAAA d.ub d.ob q) : (t3dBlock11 d H).Asks q := by
  simp [Block.Asks, t3dBlock11, InRanges, lowest, ints, column, Block.ranges]
  try omega

theorem t3dBlock12_ready : (t3dBlock12 d H).Ready := by
  exact ready_pairs (n := d.ub) (m := d.ob) (Or.inr (Or.inr (Or.inr ⟨rfl, rfl, rfl⟩))) (Or.inr (Or.inr (Or.inl ⟨rfl, rfl, rfl⟩))) ⟨rfl, rfl, rfl, rfl⟩
    (by simp only [t3dBlock12, mul_pred_half, mul_pred_pred_half]; try ring)
theorem t3dBlock12_holds (h : ListedAAA d.ub d.ob q) : (t3dBlock12 d H).Holds q := by
  obtain ⟨a, b, c, i, j, k, rfl, h⟩ := h
  simp [Block.Holds, t3dBlock12, InRanges, lowest, ints, column, Block.ranges]
  try omega
theorem t3dBlock12_asks (h : ListedAAA d.ub d.ob q) : (t3dBlock12 d H).Asks q := by
  simp [Block.Asks, t3dBlock12, InRanges, lowest, ints, column, Block.ranges]
  try omega

theorem t3dBlock13_ready : (t3dBlock13 d H).Ready := by
  exact ready_pairs (n := d.ub) (m := d.ob) (Or.inr (Or.inl ⟨rfl, rfl, rfl⟩)) (Or.inr (Or.inr (Or.inr ⟨rfl, rfl, rfl⟩))) ⟨rfl, rfl, rfl, rfl⟩
    (by simp only [t3dBlock13, mul_pred_half, mul_pred_pred_half]; try ring)
theorem t3dBlock13_holds (h : ListedAAA d.ub d.ob q) : (t3dBlock13 d H).Holds q := by
  obtain ⟨a, b, c, i, j, k, rfl, h⟩ := h
  simp [Block.Holds, t3dBlock13, InRanges, lowest, ints, column, Block.ranges]
  try omega
theorem t3dBlock13_asks (h : ListedAAA d.ub d.ob q) : (t3dBlock13 d H).Asks q := by
  simp [Block.Asks, t3dBlock13, InRanges, lowest, ints, column, Block.ranges]
  try omega

theorem t3dBlock14_ready : (t3dBlock14 d H).Ready := by
  exact ready_pairs (n := d.ub) (m := d.ob) (Or.inr (Or.inr (Or.inl ⟨rfl, rfl, rfl⟩))) (Or.inr (Or.inr (Or.inr ⟨rfl, rfl, rfl⟩))) ⟨rfl, rfl, rfl, rfl⟩
    (by simp only [t3dBlock14, mul_pred_half, mul_pred_pred_half]; try ring)
theorem t3dBlock14_holds (h : ListedAAA d.ub d.ob q) : (t3dBlock14 d H).Holds q := by
  obtain ⟨a, b, c, i, j, k, rfl, h⟩ := h
  simp [Block.Holds, t3dBlock14, InRanges, lowest, ints, column, Block.ranges]
  try omega
theorem t3dBlock14_asks (h : ListedAAA d.ub d.ob q) : (t3dBlock14 d H).Asks q := by
  simp [Block.Asks, t3dBlock14, InRanges, lowest, ints, column, Block.ranges]
  try omega

theorem t3dBlock15_ready : (t3dBlock15 d H).Ready := by
  exact ready_pairs (n := d.ub) (m := d.ob) (Or.inr (Or.inr (Or.inr ⟨rfl, rfl, rfl⟩))) (Or.inr (Or.inr (Or.inr ⟨rfl, rfl, rfl⟩))) ⟨rfl, rfl, rfl, rfl⟩
    (by simp only [t3dBlock15, mul_pred_half, mul_pred_pred_half]; try ring)
theorem t3dBlock15_holds (h : ListedAAA d.ub d.ob q) : (t3dBlock15 d H).Holds q := by
  obtain ⟨a, b, c, i, j, k, rfl, h⟩ := h
  simp [Block.Holds, t3dBlock15, InRanges, lowest, ints, column, Block.ranges]
  try omega
theorem t3dBlock15_asks (h : ListedAAA d.ub d.ob q) : (t3dBlock15 d H).Asks q := by
  simp [Block.Asks, t3dBlock15, InRanges, lowest, ints, column, Block.ranges]
  try omega

theorem t3dBlock16_ready : (t3dBlock16 d H).Ready := by
  exact ready_pairs (n := d.ub) (m := d.ob) (Or.inl ⟨rfl, rfl, rfl⟩) (Or.inl ⟨rfl, rfl, rfl⟩) ⟨rfl, rfl, rfl, rfl⟩
    (by simp only [t3dBlock16, mul_pred_half, mul_pred_pred_half]; try ring)
theorem t3dBlock16_holds (h : ListedABB d.ua d.ub d.oa d.ob q) : (t3dBlock16 d H).Holds q := by
  obtain ⟨a, b, c, i, j, k, rfl, h⟩ := h
  simp [Block.Holds, t3dBlock16, InRanges, lowest, ints, column, Block.ranges]
  try omega
theorem t3dBlock16_asks (h : ListedAAA d.ub d.ob q) : (t3dBlock16 d H).Asks q := by
  simp [Block.Asks, t3dBlock16, InRanges, lowest, ints, column, Block.ranges]
  try omega

theorem t3dBlocks_ready : ∀ b ∈ t3dBlocks d H, b.Ready := by
  simp only [t3dBlocks, List.mem_cons, List.not_mem_nil, or_false]
  rintro b (rfl | rfl | rfl | rfl | rfl | rfl | rfl | rfl | rfl | rfl | rfl | rfl | rfl | rfl | rfl)
  · exact t3dBlock1_ready
  · exact t3dBlock2_ready
  · exact t3dBlock3_ready
  · exact t3dBlock4_ready
  · exact t3dBlock5_ready
  · exact t3dBlock6_ready
  · exact t3dBlock7_ready
  · exact t3dBlock8_ready
  · exact t3dBlock9_ready
  · exact t3dBlock10_ready
  · exact t3dBlock11_ready
  · exact t3dBlock12_ready
  · exact t3dBlock13_ready
  · exact t3dBlock14_ready
  · exact t3dBlock15_ready
theorem t3dBlocks_holds (h : ListedAAA d.ub d.ob q) : ∀ b ∈ t3dBlocks d H, b.Holds q := by
  simp only [t3dBlocks, List.mem_cons, List.not_mem_nil, or_false]
  rintro b (rfl | rfl | rfl | rfl | rfl | rfl | rfl | rfl | rfl | rfl | rfl | rfl | rfl | rfl | rfl)
  · exact t3dBlock1_holds h
  · exact t3dBlock2_holds h
  · exact t3dBlock3_holds h
  · exact t3dBlock4_holds h
  · exact t3dBlock5_holds h
  · exact t3dBlock6_holds h
  · exact t3dBlock7_holds h
  · exact t3dBlock8_holds h
  · exact t3dBlock9_holds h
  · exact t3dBlock10_holds h
  · exact t3dBlock11_holds h
  · exact t3dBlock12_holds h
  · exact t3dBlock13_holds h
  · exact t3dBlock14_holds h
  · exact t3dBlock15_holds h
theorem t3dBlocks_asks (h : ListedAAA d.ub d.ob q) : ∀ b ∈ t3dBlocks d H, b.Asks q := by
  simp only [t3dBlocks, List.mem_cons, List.not_mem_nil, or_false]
  rintro b (rfl | rfl | rfl | rfl | rfl | rfl | rfl | rfl | rfl | rfl | rfl | rfl | rfl | rfl | rfl)
  · exact t3dBlock1_asks h
  · exact t3dBlock2_asks h
  · exact t3dBlock3_asks h
  · exact t3dBlock4_asks h
  · exact t3dBlock5_asks h
  · exact t3dBlock6_asks h
  · exact t3dBlock7_asks h
  · exact t3dBlock8_asks h
  · exact t3dBlock9_asks h
  · exact t3dBlock10_asks h
  · exact t3dBlock11_asks h
  · exact t3dBlock12_asks h
  · exact t3dBlock13_asks h
  · exact t3dBlock14_asks h
  · exact t3dBlock15_asks h

theorem t3dBlocksT3c_ready : ∀ b ∈ t3dBlocksT3c d H, b.Ready := by
  simp only [t3dBlocksT3c, List.mem_cons, List.not_mem_nil, or_false]
  rintro b rfl
  · exact t3dBlock16_ready
theorem t3dBlocksT3c_holds (h : ListedABB d.ua d.ub d.oa d.ob q) : ∀ b ∈ t3dBlocksT3c d H, b.Holds q := by
  simp only [t3dBlocksT3c, List.mem_cons, List.not_mem_nil, or_false]
  rintro b rfl
  · exact t3dBlock16_holds h
theorem t3dBlocksT3c_asks (h : ListedAAA d.ub d.ob q) : ∀ b ∈ t3dBlocksT3c d H, b.Asks q := by
  simp only [t3dBlocksT3c, List.mem_cons, List.not_mem_nil, or_false]
  rintro b rfl
  · exact t3dBlock16_asks h

end Ccpy.PSpace
