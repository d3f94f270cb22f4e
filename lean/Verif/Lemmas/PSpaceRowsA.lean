import Verif.Model.PSpaceA
import Verif.Lemmas.PSpaceReady
import Verif.Spec.PSpace

/-! The blocks of `update_t3a_p` are large enough and hold all rows that may be listed. -/

namespace Ccpy.PSpace
open Ccpy.Fock Ccpy.Spec

variable {d : Dims} {H : Arrays} {q : List ℕ}

theorem t3aBlock1_ready : (t3aBlock1 d H).Ready := by
  exact ready_triple (n := d.ua) (m := d.oa) rfl rfl rfl (by simp [t3aBlock1]) ⟨rfl, rfl, rfl, rfl⟩ rfl
theorem t3aBlock1_holds (h : ListedAAA d.ua d.oa q) : (t3aBlock1 d H).Holds q := by
  obtain ⟨a, b, c, i, j, k, rfl, h⟩ := h
  simp [Block.Holds, t3aBlock1, InRanges, lowest, ints, column, Block.ranges]
  try omega
theorem t3aBlock1_asks (h : ListedAAA d.ua d.oa q) : (t3aBlock1 d H).Asks q := by
  obtain ⟨a, b, c, i, j, k, rfl, h⟩ := h
  simp [Block.Asks, t3aBlock1, InRanges, lowest, ints, column, Block.ranges]
  try omega

theorem t3aBlock2_ready : (t3aBlock2 d H).Ready := by
  exact ready_triple (n := d.ua) (m := d.oa) rfl rfl rfl (by simp [t3aBlock2]) ⟨rfl, rfl, rfl, rfl⟩ rfl
theorem t3aBlock2_holds (h : ListedAAA d.ua d.oa q) : (t3aBlock2 d H).Holds q := by
  obtain ⟨a, b, c, i, j, k, rfl, h⟩ := h
  simp [Block.Holds, t3aBlock2, InRanges, lowest, ints, column, Block.ranges]
  try omega
theorem t3aBlock2_asks (h : ListedAAA d.ua d.oa q) : (t3aBlock2 d H).Asks q := by
  obtain ⟨a, b, c, i, j, k, rfl, h⟩ := h
  simp [Block.Asks, t3aBlock2, InRanges, lowest, ints, column, Block.ranges]
  try omega

theorem t3aBlock3_ready : (t3aBlock3 d H).Ready := by
  exact ready_triple (n := d.ua) (m := d.oa) rfl rfl rfl (by simp [t3aBlock3]) ⟨rfl, rfl, rfl, rfl⟩ rfl
theorem t3aBlock3_holds (h : ListedAAA d.ua d.oa q) : (t3aBlock3 d H).Holds q := by
  obtain ⟨a, b, c, i, j, k, rfl, h⟩ := h
  simp [Block.Holds, t3aBlock3, InRanges, lowest, ints, column, Block.ranges]
  try omega
theorem t3aBlock3_asks (h : ListedAAA d.ua d.oa q) : (t3aBlock3 d H).Asks q := by
  obtain ⟨a, b, c, i, j, k, rfl, h⟩ := h
  simp [Block.Asks, t3aBlock3, InRanges, lowest, ints, column, Block.ranges]
  try omega

theorem t3aBlock4_ready : (t3aBlock4 d H).Ready := by
  exact ready_triple (n := d.oa) (m := d.ua) rfl rfl rfl (by simp [t3aBlock4]) ⟨rfl, rfl, rfl, rfl⟩ rfl
theorem t3aBlock4_holds (h : ListedAAA d.ua d.oa q) : (t3aBlock4 d H).Holds q := by
  obtain ⟨a, b, c, i, j, k, rfl, h⟩ := h
  simp [Block.Holds, t3aBlock4, InRanges, lowest, ints, column, Block.ranges]
  try omega
theorem t3aBlock4_asks (h : ListedAAA d.ua d.oa q) : (t3aBlock4 d H).Asks q := by
  obtain ⟨a, b, c, i, j, k, rfl, h⟩ := h
  simp [Block.Asks, t3aBlock4, InRanges, lowest, ints, column, Block.ranges]
  try omega

theorem t3aBlock5_ready : (t3aBlock5 d H).Ready := by
  exact ready_triple (n := d.oa) (m := d.ua) rfl rfl rfl (by simp [t3aBlock5]) ⟨rfl, rfl, rfl, rfl⟩ rfl
theorem t3aBlock5_holds (h : ListedAAA d.ua d.oa q) : (t3aBlock5 d H).Holds q := by
  obtain ⟨a, b, c, i, j, k, rfl, h⟩ := h
  simp [Block.Holds, t3aBlock5, InRanges, lowest, ints, column, Block.ranges]
  try omega
theorem t3aBlock5_asks (h : ListedAAA d.ua d.oa q) : (t3aBlock5 d H).Asks q := by
  obtain ⟨a, b, c, i, j, k, rfl, h⟩ := h
  simp [Block.Asks, t3aBlock5, InRanges, lowest, ints, column, Block.ranges]
  try omega

theorem t3aBlock6_ready : (t3aBlock6 d H).Ready := by
  exact ready_triple (n := d.oa) (m := d.ua) rfl rfl rfl (by simp [t3aBlock6]) ⟨rfl, rfl, rfl, rfl⟩ rfl
theorem t3aBlock6_holds (h : ListedAAA d.ua d.oa q) : (t3aBlock6 d H).Holds q := by
  obtain ⟨a, b, c, i, j, k, rfl, h⟩ := h
  simp [Block.Holds, t3aBlock6, InRanges, lowest, ints, column, Block.ranges]
  try omega
theorem t3aBlock6_asks (h : ListedAAA d.ua d.oa q) : (t3aBlock6 d H).Asks q := by
  obtain ⟨a, b, c, i, j, k, rfl, h⟩ := h
  simp [Block.Asks, t3aBlock6, InRanges, lowest, ints, column, Block.ranges]
  try omega

theorem t3aBlock7_ready : (t3aBlock7 d H).Ready := by
  exact ready_pairs (n := d.ua) (m := d.oa) (Or.inr (Or.inl ⟨rfl, rfl, rfl⟩)) (Or.inr (Or.inl ⟨rfl, rfl, rfl⟩)) ⟨rfl, rfl, rfl, rfl⟩
    (by simp only [t3aBlock7, mul_pred_half, mul_pred_pred_half]; try ring)
theorem t3aBlock7_holds (h : ListedAAA d.ua d.oa q) : (t3aBlock7 d H).Holds q := by
  obtain ⟨a, b, c, i, j, k, rfl, h⟩ := h
  simp [Block.Holds, t3aBlock7, InRanges, lowest, ints, column, Block.ranges]
  try omega
theorem t3aBlock7_asks (h : ListedAAA d.ua d.oa q) : (t3aBlock7 d H).Asks q := by
  simp [Block.Asks, t3aBlock7, InRanges, lowest, ints, column, Block.ranges]
  try omega

theorem t3aBlock8_ready : (t3aBlock8 d H).Ready := by
  exact ready_pairs (n := d.ua) (m := d.oa) (Or.inr (Or.inr (Or.inl ⟨rfl, rfl, rfl⟩))) (Or.inr (Or.inl ⟨rfl, rfl, rfl⟩)) ⟨rfl, rfl, rfl, rfl⟩
    (by simp only [t3aBlock8, mul_pred_half, mul_pred_pred_half]; try ring)
theorem t3aBlock8_holds (h : ListedAAA d.ua d.oa q) : (t3aBlock8 d H).Holds q := by
  obtain ⟨a, b, c, i, j, k, rfl, h⟩ := h
  simp [Block.Holds, t3aBlock8, InRanges, lowest, ints, column, Block.ranges]
  try omega
theorem t3aBlock8_asks (h : ListedAAA d.ua d.oa q) : (t3aBlock8 d H).Asks q := by
  simp [Block.Asks, t3aBlock8, InRanges, lowest, ints, column, Block.ranges]
  try omega

theorem t3aBlock9_ready : (t3aBlock9 d H).Ready := by
  exact ready_pairs (n := d.ua) (m := d.oa) (Or.inr (Or.inr (Or.inr ⟨rfl, rfl, rfl⟩))) (Or.inr (Or.inl ⟨rfl, rfl, rfl⟩)) ⟨rfl, rfl, rfl, rfl⟩
    (by simp only [t3aBlock9, mul_pred_half, mul_pred_pred_half]; try ring)
theorem t3aBlock9_holds (h : ListedAAA d.ua d.oa q) : (t3aBlock9 d H).Holds q := by
  obtain ⟨a, b, c, i, j, k, rfl, h⟩ := h
  simp [Block.Holds, t3aBlock9, InRanges, lowest, ints, column, Block.ranges]
  try omega
theorem t3aBlock9_asks (h : ListedAAA d.ua d.oa q) : (t3aBlock9 d H).Asks q := by
  simp [Block.Asks, t3aBlock9, InRanges, lowest, ints, column, Block.ranges]
  try omega

theorem t3aBlock10_ready : (t3aBlock10 d H).Ready := by
  exact ready_pairs (n := d.ua) (m := d.oa) (Or.inr (Or.inl ⟨rfl, rfl, rfl⟩)) (Or.inr (Or.inr (Or.inl ⟨rfl, rfl, rfl⟩))) ⟨rfl, rfl, rfl, rfl⟩
    (by simp only [t3aBlock10, mul_pred_half, mul_pred_pred_half]; try ring)
theorem t3aBlock10_holds (h : ListedAAA d.ua d.oa q) : (t3aBlock10 d H).Holds q := by
  obtain ⟨a, b, c, i, j, k, rfl, h⟩ := h
  simp [Block.Holds, t3aBlock10, InRanges, lowest, ints, column, Block.ranges]
  try omega
theorem t3aBlock10_asks (h : ListedAAA d.ua d.oa q) : (t3aBlock10 d H).Asks q := by
  simp [Block.Asks, t3aBlock10, InRanges, lowest, ints, column, Block.ranges]
  try omega

theorem t3aBlock11_ready : (t3aBlock11 d H).Ready := by
  exact ready_pairs (n := d.ua) (m := d.oa) (Or.inr (Or.inr (Or.inl ⟨rfl, rfl, rfl⟩))) (Or.inr (Or.inr (Or.inl ⟨rfl, rfl, rfl⟩))) ⟨rfl, rfl, rfl, rfl⟩
    (by simp only [t3aBlock11, mul_pred_half, mul_pred_pred_half]; try ring)
theorem t3aBlock11_holds (h : ListedAAA d.ua d.oa q) : (t3aBlock11 d H).Holds q := by
  obtain ⟨a, b, c, i, j, k, rfl, h⟩ := h
  simp [Block.Holds, t3aBlock11, InRanges, lowest, ints, column, Block.ranges]
  try omega
theorem t3aBlock11_asks (h : ListedAAA d.ua d.oa q) : (t3aBlock11 d H).Asks q := by
  simp [Block.Asks, t3aBlock11, InRanges, lowest, ints, column, Block.ranges]
  try omega

theorem t3aBlock12_ready : (t3aBlock12 d H).Ready := by
  exact ready_pairs (n := d.ua) (m := d.oa) (Or.inr (Or.inr (Or.inr ⟨rfl, rfl, rfl⟩))) (Or.inr (Or.inr (Or.inl ⟨rfl, rfl, rfl⟩))) ⟨rfl, rfl, rfl, rfl⟩
    (by simp only [t3aBlock12, mul_pred_half, mul_pred_pred_half]; try ring)
theorem t3aBlock12_holds (h : ListedAAA d.ua d.oa q) : (t3aBlock12 d H).Holds q := by
  obtain ⟨a, b, c, i, j, k, rfl, h⟩ := h
  simp [Block.Holds, t3aBlock12, InRanges, lowest, ints, column, Block.ranges]
  try omega
theorem t3aBlock12_asks (h : ListedAAA d.ua d.oa q) : (t3aBlock12 d H).Asks q := by
  simp [Block.Asks, t3aBlock12, InRanges, lowest, ints, column, Block.ranges]
  try omega

theorem t3aBlock13_ready : (t3aBlock13 d H).Ready := by
  exact ready_pairs (n := d.ua) (m := d.oa) (Or.inr (Or.inl ⟨rfl, rfl, rfl⟩)) (Or.inr (Or.inr (Or.inr ⟨rfl, rfl, rfl⟩))) ⟨rfl, rfl, rfl, rfl⟩
    (by simp only [t3aBlock13, mul_pred_half, mul_pred_pred_half]; try ring)
theorem t3aBlock13_holds (h : ListedAAA d.ua d.oa q) : (t3aBlock13 d H).Holds q := by
  obtain ⟨a, b, c, i, j, k, rfl, h⟩ := h
  simp [Block.Holds, t3aBlock13, InRanges, lowest, ints, column, Block.ranges]
  try omega
theorem t3aBlock13_asks (h : ListedAAA d.ua d.oa q) : (t3aBlock13 d H).Asks q := by
  simp [Block.Asks, t3aBlock13, InRanges, lowest, ints, column, Block.ranges]
  try omega

theorem t3aBlock14_ready : (t3aBlock14 d H).Ready := by
  exact ready_pairs (n := d.ua) (m := d.oa) (Or.inr (Or.inr (Or.inl ⟨rfl, rfl, rfl⟩))) (Or.inr (Or.inr (Or.inr ⟨rfl, rfl, rfl⟩))) ⟨rfl, rfl, rfl, rfl⟩
    (by simp only [t3aBlock14, mul_pred_half, mul_pred_pred_half]; try ring)
theorem t3aBlock14_holds (h : ListedAAA d.ua d.oa q) : (t3aBlock14 d H).Holds q := by
  obtain ⟨a, b, c, i, j, k, rfl, h⟩ := h
  simp [Block.Holds, t3aBlock14, InRanges, lowest, ints, column, Block.ranges]
  try omega
theorem t3aBlock14_asks (h : ListedAAA d.ua d.oa q) : (t3aBlock14 d H).Asks q := by
  simp [Block.Asks, t3aBlock14, InRanges, lowest, ints, column, Block.ranges]
  try omega

theorem t3aBlock15_ready : (t3aBlock15 d H).Ready := by
  exact ready_pairs (n := d.ua) (m := d.oa) (Or.inr (Or.inr (Or.inr ⟨rfl, rfl, rfl⟩))) (Or.inr (Or.inr (Or.inr ⟨rfl, rfl, rfl⟩))) ⟨rfl, rfl, rfl, rfl⟩
    (by simp only [t3aBlock15, mul_pred_half, mul_pred_pred_half]; try ring)
theorem t3aBlock15_holds (h : ListedAAA d.ua d.oa q) : (t3aBlock15 d H).Holds q := by
  obtain ⟨a, b, c, i, j, k, rfl, h⟩ := h
  simp [Block.Holds, t3aBlock15, InRanges, lowest, ints, column, Block.ranges]
  try omega
theorem t3aBlock15_asks (h : ListedAAA d.ua d.oa q) : (t3aBlock15 d H).Asks q := by
  simp [Block.Asks, t3aBlock15, InRanges, lowest, ints, column, Block.ranges]
  try omega

theorem t3aBlock16_ready : (t3aBlock16 d H).Ready := by
  exact ready_pairs (n := d.ua) (m := d.oa) (Or.inl ⟨rfl, rfl, rfl⟩) (Or.inl ⟨rfl, rfl, rfl⟩) ⟨rfl, rfl, rfl, rfl⟩
    (by simp only [t3aBlock16, mul_pred_half, mul_pred_pred_half]; try ring)
theorem t3aBlock16_holds (h : ListedAAB d.ua d.ub d.oa d.ob q) : (t3aBlock16 d H).Holds q := by
  obtain ⟨a, b, c, i, j, k, rfl, h⟩ := h
  simp [Block.Holds, t3aBlock16, InRanges, lowest, ints, column, Block.ranges]
  try omega
theorem t3aBlock16_asks (h : ListedAAA d.ua d.oa q) : (t3aBlock16 d H).Asks q := by
  simp [Block.Asks, t3aBlock16, InRanges, lowest, ints, column, Block.ranges]
  try omega

theorem t3aBlocks_ready : ∀ b ∈ t3aBlocks d H, b.Ready := by
  simp only [t3aBlocks, List.mem_cons, List.not_mem_nil, or_false]
  rintro b (rfl | rfl | rfl | rfl | rfl | rfl | rfl | rfl | rfl | rfl | rfl | rfl | rfl | rfl | rfl)
  · exact t3aBlock1_ready
  · exact t3aBlock2_ready
  · exact t3aBlock3_ready
  · exact t3aBlock4_ready
  · exact t3aBlock5_ready
  · exact t3aBlock6_ready
  · exact t3aBlock7_ready
  · exact t3aBlock8_ready
  · exact t3aBlock9_ready
  · exact t3aBlock10_ready
  · exact t3aBlock11_ready
  · exact t3aBlock12_ready
  · exact t3aBlock13_ready
  · exact t3aBlock14_ready
  · exact t3aBlock15_ready
theorem t3aBlocks_holds (h : ListedAAA d.ua d.oa q) : ∀ b ∈ t3aBlocks d H, b.Holds q := by
  simp only [t3aBlocks, List.mem_cons, List.not_mem_nil, or_false]
  rintro b (rfl | rfl | rfl | rfl | rfl | rfl | rfl | rfl | rfl | rfl | rfl | rfl | rfl | rfl | rfl)
  · exact t3aBlock1_holds h
  · exact t3aBlock2_holds h
  · exact t3aBlock3_holds h
  · exact t3aBlock4_holds h
  · exact t3aBlock5_holds h
  · exact t3aBlock6_holds h
  · exact t3aBlock7_holds h
  · exact t3aBlock8_holds h
  · exact t3aBlock9_holds h
  · exact t3aBlock10_holds h
  · exact t3aBlock11_holds h
  · exact t3aBlock12_holds h
  · exact t3aBlock13_holds h
  · exact t3aBlock14_holds h
  · exact t3aBlock15_holds h
theorem t3aBlocks_asks (h : ListedAAA d.ua d.oa q) : ∀ b ∈ t3aBlocks d H, b.Asks q := by
  simp only [t3aBlocks, List.mem_cons, List.not_mem_nil, or_false]
  rintro b (rfl | rfl | rfl | rfl | rfl | rfl | rfl | rfl | rfl | rfl | rfl | rfl | rfl | rfl | rfl)
  · exact t3aBlock1_asks h
  · exact t3aBlock2_asks h
  · exact t3aBlock3_asks h
  · exact t3aBlock4_asks h
  · exact t3aBlock5_asks h
  · exact t3aBlock6_asks h
  · exact t3aBlock7_asks h
  · exact t3aBlock8_asks h
  · exact t3aBlock9_asks h
  · exact t3aBlock10_asks h
  · exact t3aBlock11_asks h
  · exact t3aBlock12_asks h
  · exact t3aBlock13_asks h
  · exact t3aBlock14_asks h
  · exact t3aBlock15_asks h

theorem t3aBlocksT3b_ready : ∀ b ∈ t3aBlocksT3b d H, b.Ready := by
  simp only [t3aBlocksT3b, List.mem_cons, List.not_mem_nil, or_false]
  rintro b rfl
  · exact t3aBlock16_ready
theorem t3aBlocksT3b_holds (h : ListedAAB d.ua d.ub d.oa d.ob q) : ∀ b ∈ t3aBlocksT3b d H, b.Holds q := by
  simp only [t3aBlocksT3b, List.mem_cons, List.not_mem_nil, or_false]
  rintro b rfl
  · exact t3aBlock16_holds h
theorem t3aBlocksT3b_asks (h : ListedAAA d.ua d.oa q) : ∀ b ∈ t3aBlocksT3b d H, b.Asks q := by
  simp only [t3aBlocksT3b, List.mem_cons, List.not_mem_nil, or_false]
  rintro b rfl
  · exact t3aBlock16_asks h

end Ccpy.PSpace
