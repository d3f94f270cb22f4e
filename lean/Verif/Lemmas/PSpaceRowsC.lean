import Verif.Model.PSpaceC
import Verif.Lemmas.PSpaceReady
import Verif.Spec.PSpace

/-! The blocks of `update_t3c_p` are large enough and hold all rows that may be listed. -/

namespace Ccpy.PSpace
open Ccpy.Fock Ccpy.Spec

variable {d : Dims} {H : Arrays} {q : List ℕ}

theorem t3cBlock1_ready : (t3cBlock1 d H).Ready := by
  exact ready_pair (n := d.ub) (m := d.ua) (l := d.oa) (Or.inl ⟨rfl, rfl, rfl⟩) (by simp [t3cBlock1]) (by simp [t3cBlock1]) ⟨rfl, rfl, le_rfl, le_rfl⟩
    (by simp only [t3cBlock1, mul_pred_half, mul_pred_pred_half]; try ring)
theorem t3cBlock1_holds (h : ListedABB d.ua d.ub d.oa d.ob q) : (t3cBlock1 d H).Holds q := by
  obtain ⟨a, b, c, i, j, k, rfl, h⟩ := h
  simp [Block.Holds, t3cBlock1, InRanges, lowest, ints, column, Block.ranges]
  try omega
theorem t3cBlock1_asks (h : ListedABB d.ua d.ub d.oa d.ob q) : (t3cBlock1 d H).Asks q := by
  obtain ⟨a, b, c, i, j, k, rfl, h⟩ := h
  simp [Block.Asks, t3cBlock1, InRanges, lowest, ints, column, Block.ranges]
  try omega

theorem t3cBlock2_ready : (t3cBlock2 d H).Ready := by
  exact ready_pair (n := d.ob) (m := d.oa) (l := d.ua) (Or.inl ⟨rfl, rfl, rfl⟩) (by simp [t3cBlock2]) (by simp [t3cBlock2]) ⟨rfl, rfl, le_rfl, le_rfl⟩
    (by simp only [t3cBlock2, mul_pred_half, mul_pred_pred_half]; try ring)
theorem t3cBlock2_holds (h : ListedABB d.ua d.ub d.oa d.ob q) : (t3cBlock2 d H).Holds q := by
  obtain ⟨a, b, c, i, j, k, rfl, h⟩ := h
  simp [Block.Holds, t3cBlock2, InRanges, lowest, ints, column, Block.ranges]
  try omega
theorem t3cBlock2_asks (h : ListedABB d.ua d.ub d.oa d.ob q) : (t3cBlock2 d H).Asks q := by
  obtain ⟨a, b, c, i, j, k, rfl, h⟩ := h
  simp [Block.Asks, t3cBlock2, InRanges, lowest, ints, column, Block.ranges]
  try omega

theorem t3cBlock3_ready : (t3cBlock3 d H).Ready := by
  exact ready_pair (n := d.ub) (m := d.ua) (l := d.ob) (Or.inl ⟨rfl, rfl, rfl⟩) (by simp [t3cBlock3]) (by simp [t3cBlock3]) ⟨rfl, rfl, le_rfl, le_rfl⟩
    (by simp only [t3cBlock3, mul_pred_half, mul_pred_pred_half]; try ring)
theorem t3cBlock3_holds (h : ListedABB d.ua d.ub d.oa d.ob q) : (t3cBlock3 d H).Holds q := by
  obtain ⟨a, b, c, i, j, k, rfl, h⟩ := h
  simp [Block.Holds, t3cBlock3, InRanges, lowest, ints, column, Block.ranges]
  try omega
theorem t3cBlock3_asks (h : ListedABB d.ua d.ub d.oa d.ob q) : (t3cBlock3 d H).Asks q := by
  obtain ⟨a, b, c, i, j, k, rfl, h⟩ := h
  simp [Block.Asks, t3cBlock3, InRanges, lowest, ints, column, Block.ranges]
  try omega

theorem t3cBlock4_ready : (t3cBlock4 d H).Ready := by
  exact ready_pair (n := d.ub) (m := d.ua) (l := d.ob) (Or.inl ⟨rfl, rfl, rfl⟩) (by simp [t3cBlock4]) (by simp [t3cBlock4]) ⟨rfl, rfl, le_rfl, le_rfl⟩
    (by simp only [t3cBlock4, mul_pred_half, mul_pred_pred_half]; try ring)
theorem t3cBlock4_holds (h : ListedABB d.ua d.ub d.oa d.ob q) : (t3cBlock4 d H).Holds q := by
  obtain ⟨a, b, c, i, j, k, rfl, h⟩ := h
  simp [Block.Holds, t3cBlock4, InRanges, lowest, ints, column, Block.ranges]
  try omega
theorem t3cBlock4_asks (h : ListedABB d.ua d.ub d.oa d.ob q) : (t3cBlock4 d H).Asks q := by
  obtain ⟨a, b, c, i, j, k, rfl, h⟩ := h
  simp [Block.Asks, t3cBlock4, InRanges, lowest, ints, column, Block.ranges]
  try omega

theorem t3cBlock5_ready : (t3cBlock5 d H).Ready := by
  exact ready_pair (n := d.ob) (m := d.oa) (l := d.ub) (Or.inl ⟨rfl, rfl, rfl⟩) (by simp [t3cBlock5]) (by simp [t3cBlock5]) ⟨rfl, rfl, le_rfl, le_rfl⟩
    (by simp only [t3cBlock5, mul_pred_half, mul_pred_pred_half]; try ring)
theorem t3cBlock5_holds (h : ListedABB d.ua d.ub d.oa d.ob q) : (t3cBlock5 d H).Holds q := by
  obtain ⟨a, b, c, i, j, k, rfl, h⟩ := h
  simp [Block.Holds, t3cBlock5, InRanges, lowest, ints, column, Block.ranges]
  try omega
theorem t3cBlock5_asks (h : ListedABB d.ua d.ub d.oa d.ob q) : (t3cBlock5 d H).Asks q := by
  obtain ⟨a, b, c, i, j, k, rfl, h⟩ := h
  simp [Block.Asks, t3cBlock5, InRanges, lowest, ints, column, Block.ranges]
  try omega

theorem t3cBlock6_ready : (t3cBlock6 d H).Ready := by
  exact ready_pair (n := d.ob) (m := d.oa) (l := d.ub) (Or.inl ⟨rfl, rfl, rfl⟩) (by simp [t3cBlock6]) (by simp [t3cBlock6]) ⟨rfl, rfl, le_rfl, le_rfl⟩
    (by simp only [t3cBlock6, mul_pred_half, mul_pred_pred_half]; try ring)
theorem t3cBlock6_holds (h : ListedABB d.ua d.ub d.oa d.ob q) : (t3cBlock6 d H).Holds q := by
  obtain ⟨a, b, c, i, j, k, rfl, h⟩ := h
  simp [Block.Holds, t3cBlock6, InRanges, lowest, ints, column, Block.ranges]
  try omega
theorem t3cBlock6_asks (h : ListedABB d.ua d.ub d.oa d.ob q) : (t3cBlock6 d H).Asks q := by
  obtain ⟨a, b, c, i, j, k, rfl, h⟩ := h
  simp [Block.Asks, t3cBlock6, InRanges, lowest, ints, column, Block.ranges]
  try omega

theorem t3cBlock7_ready : (t3cBlock7 d H).Ready := by
  exact ready_free (n := d.ua) (m := d.ub) (l := d.oa) (k := d.ob) (by simp [t3cBlock7]) (by simp [t3cBlock7]) (by simp [t3cBlock7]) (by simp [t3cBlock7]) ⟨rfl, rfl, rfl, rfl⟩
    (by simp only [t3cBlock7, mul_pred_half, mul_pred_pred_half]; try ring)
theorem t3cBlock7_holds (h : ListedABB d.ua d.ub d.oa d.ob q) : (t3cBlock7 d H).Holds q := by
  obtain ⟨a, b, c, i, j, k, rfl, h⟩ := h
  simp [Block.Holds, t3cBlock7, InRanges, lowest, ints, column, Block.ranges]
  try omega
theorem t3cBlock7_asks (h : ListedABB d.ua d.ub d.oa d.ob q) : (t3cBlock7 d H).Asks q := by
  obtain ⟨a, b, c, i, j, k, rfl, h⟩ := h
  simp [Block.Asks, t3cBlock7, InRanges, lowest, ints, column, Block.ranges]
  try omega

theorem t3cBlock8_ready : (t3cBlock8 d H).Ready := by
  exact ready_free (n := d.ua) (m := d.ub) (l := d.oa) (k := d.ob) (by simp [t3cBlock8]) (by simp [t3cBlock8]) (by simp [t3cBlock8]) (by simp [t3cBlock8]) ⟨rfl, rfl, rfl, rfl⟩
    (by simp only [t3cBlock8, mul_pred_half, mul_pred_pred_half]; try ring)
theorem t3cBlock8_holds (h : ListedABB d.ua d.ub d.oa d.ob q) : (t3cBlock8 d H).Holds q := by
  obtain ⟨a, b, c, i, j, k, rfl, h⟩ := h
  simp [Block.Holds, t3cBlock8, InRanges, lowest, ints, column, Block.ranges]
  try omega
theorem t3cBlock8_asks (h : ListedABB d.ua d.ub d.oa d.ob q) : (t3cBlock8 d H).Asks q := by
  obtain ⟨a, b, c, i, j, k, rfl, h⟩ := h
  simp [Block.Asks, t3cBlock8, InRanges, lowest, ints, column, Block.ranges]
  try omega

theorem t3cBlock9_ready : (t3cBlock9 d H).Ready := by
  exact ready_free (n := d.ua) (m := d.ub) (l := d.oa) (k := d.ob) (by simp [t3cBlock9]) (by simp [t3cBlock9]) (by simp [t3cBlock9]) (by simp [t3cBlock9]) ⟨rfl, rfl, rfl, rfl⟩
    (by simp only [t3cBlock9, mul_pred_half, mul_pred_pred_half]; try ring)
theorem t3cBlock9_holds (h : ListedABB d.ua d.ub d.oa d.ob q) : (t3cBlock9 d H).Holds q := by
  obtain ⟨a, b, c, i, j, k, rfl, h⟩ := h
  simp [Block.Holds, t3cBlock9, InRanges, lowest, ints, column, Block.ranges]
  try omega
theorem t3cBlock9_asks (h : ListedABB d.ua d.ub d.oa d.ob q) : (t3cBlock9 d H).Asks q := by
  obtain ⟨a, b, c, i, j, k, rfl, h⟩ := h
  simp [Block.Asks, t3cBlock9, InRanges, lowest, ints, column, Block.ranges]
  try omega

theorem t3cBlock10_ready : (t3cBlock10 d H).Ready := by
  exact ready_free (n := d.ua) (m := d.ub) (l := d.oa) (k := d.ob) (by simp [t3cBlock10]) (by simp [t3cBlock10]) (by simp [t3cBlock10]) (by simp [t3cBlock10]) ⟨rfl, rfl, rfl, rfl⟩
    (by simp only [t3cBlock10, mul_pred_half, mul_pred_pred_half]; try ring)
theorem t3cBlock10_holds (h : ListedABB d.ua d.ub d.oa d.ob q) : (t3cBlock10 d H).Holds q := by
  obtain ⟨a, b, c, i, j, k, rfl, h⟩ := h
  simp [Block.Holds, t3cBlock10, InRanges, lowest, ints, column, Block.ranges]
  try omega
theorem t3cBlock10_asks (h : ListedABB d.ua d.ub d.oa d.ob q) : (t3cBlock10 d H).Asks q := by
  obtain ⟨a, b, c, i, j, k, rfl, h⟩ := h
  simp [Block.Asks, t3cBlock10, InRanges, lowest, ints, column, Block.ranges]
  try omega

theorem t3cBlock11_ready : (t3cBlock11 d H).Ready := by
  exact ready_pairs (n := d.ub) (m := d.ob) (Or.inl ⟨rfl, rfl, rfl⟩) (Or.inl ⟨rfl, rfl, rfl⟩) ⟨rfl, rfl, rfl, rfl⟩
    (by simp only [t3cBlock11, mul_pred_half, mul_pred_pred_half]; try ring)
theorem t3cBlock11_holds (h : ListedABB d.ua d.ub d.oa d.ob q) : (t3cBlock11 d H).Holds q := by
  obtain ⟨a, b, c, i, j, k, rfl, h⟩ := h
  simp [Block.Holds, t3cBlock11, InRanges, lowest, ints, column, Block.ranges]
  try omega
theorem t3cBlock11_asks (h : ListedABB d.ua d.ub d.oa d.ob q) : (t3cBlock11 d H).Asks q := by
  obtain ⟨a, b, c, i, j, k, rfl, h⟩ := h
  simp [Block.Asks, t3cBlock11, InRanges, lowest, ints, column, Block.ranges]
  try omega

theorem t3cBlock12_ready : (t3cBlock12 d H).Ready := by
  exact ready_pair (n := d.ob) (m := d.ua) (l := d.ub) (Or.inl ⟨rfl, rfl, rfl⟩) (by simp [t3cBlock12]) (by simp [t3cBlock12]) ⟨rfl, rfl, le_rfl, le_rfl⟩
    (by simp only [t3cBlock12, mul_pred_half, mul_pred_pred_half]; try ring)
theorem t3cBlock12_holds (h : ListedABB d.ua d.ub d.oa d.ob q) : (t3cBlock12 d H).Holds q := by
  obtain ⟨a, b, c, i, j, k, rfl, h⟩ := h
  simp [Block.Holds, t3cBlock12, InRanges, lowest, ints, column, Block.ranges]
  try omega
theorem t3cBlock12_asks (h : ListedABB d.ua d.ub d.oa d.ob q) : (t3cBlock12 d H).Asks q := by
  obtain ⟨a, b, c, i, j, k, rfl, h⟩ := h
  simp [Block.Asks, t3cBlock12, InRanges, lowest, ints, column, Block.ranges]
  try omega

theorem t3cBlock13_ready : (t3cBlock13 d H).Ready := by
  exact ready_pair (n := d.ob) (m := d.ua) (l := d.ub) (Or.inl ⟨rfl, rfl, rfl⟩) (by simp [t3cBlock13]) (by simp [t3cBlock13]) ⟨rfl, rfl, le_rfl, le_rfl⟩
    (by simp only [t3cBlock13, mul_pred_half, mul_pred_pred_half]; try ring)
theorem t3cBlock13_holds (h : ListedABB d.ua d.ub d.oa d.ob q) : (t3cBlock13 d H).Holds q := by
  obtain ⟨a, b, c, i, j, k, rfl, h⟩ := h
  simp [Block.Holds, t3cBlock13, InRanges, lowest, ints, column, Block.ranges]
  try omega
theorem t3cBlock13_asks (h : ListedABB d.ua d.ub d.oa d.ob q) : (t3cBlock13 d H).Asks q := by
  obtain ⟨a, b, c, i, j, k, rfl, h⟩ := h
  simp [Block.Asks, t3cBlock13, InRanges, lowest, ints, column, Block.ranges]
  try omega

theorem t3cBlock14_ready : (t3cBlock14 d H).Ready := by
  exact ready_pair (n := d.ub) (m := d.oa) (l := d.ob) (Or.inl ⟨rfl, rfl, rfl⟩) (by simp [t3cBlock14]) (by simp [t3cBlock14]) ⟨rfl, rfl, le_rfl, le_rfl⟩
    (by simp only [t3cBlock14, mul_pred_half, mul_pred_pred_half]; try ring)
theorem t3cBlock14_holds (h : ListedABB d.ua d.ub d.oa d.ob q) : (t3cBlock14 d H).Holds q := by
  obtain ⟨a, b, c, i, j, k, rfl, h⟩ := h
  simp [Block.Holds, t3cBlock14, InRanges, lowest, ints, column, Block.ranges]
  try omega
theorem t3cBlock14_asks (h : ListedABB d.ua d.ub d.oa d.ob q) : (t3cBlock14 d H).Asks q := by
  obtain ⟨a, b, c, i, j, k, rfl, h⟩ := h
  simp [Block.Asks, t3cBlock14, InRanges, lowest, ints, column, Block.ranges]
  try omega

theorem t3cBlock15_ready : (t3cBlock15 d H).Ready := by
  exact ready_pair (n := d.ub) (m := d.oa) (l := d.ob) (Or.inl ⟨rfl, rfl, rfl⟩) (by simp [t3cBlock15]) (by simp [t3cBlock15]) ⟨rfl, rfl, le_rfl, le_rfl⟩
    (by simp only [t3cBlock15, mul_pred_half, mul_pred_pred_half]; try ring)
theorem t3cBlock15_holds (h : ListedABB d.ua d.ub d.oa d.ob q) : (t3cBlock15 d H).Holds q := by
  obtain ⟨a, b, c, i, j, k, rfl, h⟩ := h
  simp [Block.Holds, t3cBlock15, InRanges, lowest, ints, column, Block.ranges]
  try omega
theorem t3cBlock15_asks (h : ListedABB d.ua d.ub d.oa d.ob q) : (t3cBlock15 d H).Asks q := by
  obtain ⟨a, b, c, i, j, k, rfl, h⟩ := h
  simp [Block.Asks, t3cBlock15, InRanges, lowest, ints, column, Block.ranges]
  try omega

theorem t3cBlock16_ready : (t3cBlock16 d H).Ready := by
  exact ready_pairs (n := d.ub) (m := d.ob) (Or.inr (Or.inr (Or.inr ⟨rfl, rfl, rfl⟩))) (Or.inr (Or.inr (Or.inr ⟨rfl, rfl, rfl⟩))) ⟨rfl, rfl, rfl, rfl⟩
    (by simp only [t3cBlock16, mul_pred_half, mul_pred_pred_half]; try ring)
theorem t3cBlock16_holds (h : ListedAAA d.ub d.ob q) : (t3cBlock16 d H).Holds q := by
  obtain ⟨a, b, c, i, j, k, rfl, h⟩ := h
  simp [Block.Holds, t3cBlock16, InRanges, lowest, ints, column, Block.ranges]
  try omega
theorem t3cBlock16_asks (h : ListedABB d.ua d.ub d.oa d.ob q) : (t3cBlock16 d H).Asks q := by
  simp [Block.Asks, t3cBlock16, InRanges, lowest, ints, column, Block.ranges]
  try omega

theorem t3cBlock17_ready : (t3cBlock17 d H).Ready := by
  exact ready_pairs (n := d.ub) (m := d.ob) (Or.inr (Or.inr (Or.inr ⟨rfl, rfl, rfl⟩))) (Or.inr (Or.inr (Or.inl ⟨rfl, rfl, rfl⟩))) ⟨rfl, rfl, rfl, rfl⟩
    (by simp only [t3cBlock17, mul_pred_half, mul_pred_pred_half]; try ring)
theorem t3cBlock17_holds (h : ListedAAA d.ub d.ob q) : (t3cBlock17 d H).Holds q := by
  obtain ⟨a, b, c, i, j, k, rfl, h⟩ := h
  simp [Block.Holds, t3cBlock17, InRanges, lowest, ints, column, Block.ranges]
  try omega
theorem t3cBlock17_asks (h : ListedABB d.ua d.ub d.oa d.ob q) : (t3cBlock17 d H).Asks q := by
  simp [Block.Asks, t3cBlock17, InRanges, lowest, ints, column, Block.ranges]
  try omega

theorem t3cBlock18_ready : (t3cBlock18 d H).Ready := by
  exact ready_pairs (n := d.ub) (m := d.ob) (Or.inr (Or.inr (Or.inr ⟨rfl, rfl, rfl⟩))) (Or.inr (Or.inl ⟨rfl, rfl, rfl⟩)) ⟨rfl, rfl, rfl, rfl⟩
    (by simp only [t3cBlock18, mul_pred_half, mul_pred_pred_half]; try ring)
theorem t3cBlock18_holds (h : ListedAAA d.ub d.ob q) : (t3cBlock18 d H).Holds q := by
  obtain ⟨a, b, c, i, j, k, rfl, h⟩ := h
  simp [Block.Holds, t3cBlock18, InRanges, lowest, ints, column, Block.ranges]
  try omega
theorem t3cBlock18_asks (h : ListedABB d.ua d.ub d.oa d.ob q) : (t3cBlock18 d H).Asks q := by
  simp [Block.Asks, t3cBlock18, InRanges, lowest, ints, column, Block.ranges]
  try omega

theorem t3cBlock19_ready : (t3cBlock19 d H).Ready := by
  exact ready_pairs (n := d.ub) (m := d.ob) (Or.inr (Or.inr (Or.inl ⟨rfl, rfl, rfl⟩))) (Or.inr (Or.inr (Or.inr ⟨rfl, rfl, rfl⟩))) ⟨rfl, rfl, rfl, rfl⟩
    (by simp only [t3cBlock19, mul_pred_half, mul_pred_pred_half]; try ring)
theorem t3cBlock19_holds (h : ListedAAA d.ub d.ob q) : (t3cBlock19 d H).Holds q := by
  obtain ⟨a, b, c, i, j, k, rfl, h⟩ := h
  simp [Block.Holds, t3cBlock19, InRanges, lowest, ints, column, Block.ranges]
  try omega
theorem t3cBlock19_asks (h : ListedABB d.ua d.ub d.oa d.ob q) : (t3cBlock19 d H).Asks q := by
  simp [Block.Asks, t3cBlock19, InRanges, lowest, ints, column, Block.ranges]
  try omega

theorem t3cBlock20_ready : (t3cBlock20 d H).Ready := by
  exact ready_pairs (n := d.ub) (m := d.ob) (Or.inr (Or.inr (Or.inl ⟨rfl, rfl, rfl⟩))) (Or.inr (Or.inr (Or.inl ⟨rfl, rfl, rfl⟩))) ⟨rfl, rfl, rfl, rfl⟩
    (by simp only [t3cBlock20, mul_pred_half, mul_pred_pred_half]; try ring)
theorem t3cBlock20_holds (h : ListedAAA d.ub d.ob q) : (t3cBlock20 d H).Holds q := by
  obtain ⟨a, b, c, i, j, k, rfl, h⟩ := h
  simp [Block.Holds, t3cBlock20, InRanges, lowest, ints, column, Block.ranges]
  try omega
theorem t3cBlock20_asks (h : ListedABB d.ua d.ub d.oa d.ob q) : (t3cBlock20 d H).Asks q := by
  simp [Block.Asks, t3cBlock20, InRanges, lowest, ints, column, Block.ranges]
  try omega

theorem t3cBlock21_ready : (t3cBlock21 d H).Ready := by
  exact ready_pairs (n := d.ub) (m := d.ob) (Or.inr (Or.inr (Or.inl ⟨rfl, rfl, rfl⟩))) (Or.inr (Or.inl ⟨rfl, rfl, rfl⟩)) ⟨rfl, rfl, rfl, rfl⟩
    (by simp only [t3cBlock21, mul_pred_half, mul_pred_pred_half]; try ring)
theorem t3cBlock21_holds (h : ListedAAA d.ub d.ob q) : (t3cBlock21 d H).Holds q := by
  obtain ⟨a, b, c, i, j, k, rfl, h⟩ := h
  simp [Block.Holds, t3cBlock21, InRanges, lowest, ints, column, Block.ranges]
  try omega
theorem t3cBlock21_asks (h : ListedABB d.ua d.ub d.oa d.ob q) : (t3cBlock21 d H).Asks q := by
  simp [Block.Asks, t3cBlock21, InRanges, lowest, ints, column, Block.ranges]
  try omega

theorem t3cBlock22_ready : (t3cBlock22 d H).Ready := by
  exact ready_pairs (n := d.ub) (m := d.ob) (Or.inr (Or.inl ⟨rfl, rfl, rfl⟩)) (Or.inr (Or.inr (Or.inr ⟨rfl, rfl, rfl⟩))) ⟨rfl, rfl, rfl, rfl⟩
    (by simp only [t3cBlock22, mul_pred_half, mul_pred_pred_half]; try ring)
theorem t3cBlock22_holds (h : ListedAAA d.ub d.ob q) : (t3cBlock22 d H).Holds q := by
  obtain ⟨a, b, c, i, j, k, rfl, h⟩ := h
  simp [Block.Holds, t3cBlock22, InRanges, lowest, ints, column, Block.ranges]
  try omega
theorem t3cBlock22_asks (h : ListedABB d.ua d.ub d.oa d.ob q) : (t3cBlock22 d H).Asks q := by
  simp [Block.Asks, t3cBlock22, InRanges, lowest, ints, column, Block.ranges]
  try omega

theorem t3cBlock23_ready : (t3cBlock23 d H).Ready := by
  exact ready_pairs (n := d.ub) (m := d.ob) (Or.inr (Or.inl ⟨rfl, rfl, rfl⟩)) (Or.inr (Or.inr (Or.inl ⟨rfl, rfl, rfl⟩))) ⟨rfl, rfl, rfl, rfl⟩
    (by simp only [t3cBlock23, mul_pred_half, mul_pred_pred_half]; try ring)
theorem t3cBlock23_holds (h : ListedAAA d.ub d.ob q) : (t3cBlock23 d H).Holds q := by
  obtain ⟨a, b, c, i, j, k, rfl, h⟩ := h
  simp [Block.Holds, t3cBlock23, InRanges, lowest, ints, column, Block.ranges]
  try omega
theorem t3cBlock23_asks (h : ListedABB d.ua d.ub d.oa d.ob q) : (t3cBlock23 d H).Asks q := by
  simp [Block.Asks, t3cBlock23, InRanges, lowest, ints, column, Block.ranges]
  try omega

theorem t3cBlock24_ready : (t3cBlock24 d H).Ready := by
  exact ready_pairs (n := d.ub) (m := d.ob) (Or.inr (Or.inl ⟨rfl, rfl, rfl⟩)) (Or.inr (Or.inl ⟨rfl, rfl, rfl⟩)) ⟨rfl, rfl, rfl, rfl⟩
    (by simp only [t3cBlock24, mul_pred_half, mul_pred_pred_half]; try ring)
theorem t3cBlock24_holds (h : ListedAAA d.ub d.ob q) : (t3cBlock24 d H).Holds q := by
  obtain ⟨a, b, c, i, j, k, rfl, h⟩ := h
  simp [Block.Holds, t3cBlock24, InRanges, lowest, ints, column, Block.ranges]
  try omega
theorem t3cBlock24_asks (h : ListedABB d.ua d.ub d.oa d.ob q) : (t3cBlock24 d H).Asks q := by
  simp [Block.Asks, t3cBlock24, InRanges, lowest, ints, column, Block.ranges]
  try omega

theorem t3cBlock25_ready : (t3cBlock25 d H).Ready := by
  exact ready_free (n := d.ua) (m := d.ub) (l := d.oa) (k := d.ob) (by simp [t3cBlock25]) (by simp [t3cBlock25]) (by simp [t3cBlock25]) (by simp [t3cBlock25]) ⟨rfl, rfl, rfl, rfl⟩
    (by simp only [t3cBlock25, mul_pred_half, mul_pred_pred_half]; try ring)
theorem t3cBlock25_holds (h : ListedAAB d.ua d.ub d.oa d.ob q) : (t3cBlock25 d H).Holds q := by
  obtain ⟨a, b, c, i, j, k, rfl, h⟩ := h
  simp [Block.Holds, t3cBlock25, InRanges, lowest, ints, column, Block.ranges]
  try omega
theorem t3cBlock25_asks (h : ListedABB d.ua d.ub d.oa d.ob q) : (t3cBlock25 d H).Asks q := by
  simp [Block.Asks, t3cBlock25, InRanges, lowest, ints, column, Block.ranges]
  try omega

theorem t3cBlock26_ready : (t3cBlock26 d H).Ready := by
  exact ready_free (n := d.ua) (m := d.ub) (l := d.oa) (k := d.ob) (by simp [t3cBlock26]) (by simp [t3cBlock26]) (by simp [t3cBlock26]) (by simp [t3cBlock26]) ⟨rfl, rfl, rfl, rfl⟩
    (by simp only [t3cBlock26, mul_pred_half, mul_pred_pred_half]; try ring)
theorem t3cBlock26_holds (h : ListedAAB d.ua d.ub d.oa d.ob q) : (t3cBlock26 d H).Holds q := by
  obtain ⟨a, b, c, i, j, k, rfl, h⟩ := h
  simp [Block.Holds, t3cBlock26, InRanges, lowest, ints, column, Block.ranges]
  try omega
theorem t3cBlock26_asks (h : ListedABB d.ua d.ub d.oa d.ob q) : (t3cBlock26 d H).Asks q := by
  simp [Block.Asks, t3cBlock26, InRanges, lowest, ints, column, Block.ranges]
  try omega

theorem t3cBlock27_ready : (t3cBlock27 d H).Ready := by
  exact ready_free (n := d.ua) (m := d.ub) (l := d.oa) (k := d.ob) (by simp [t3cBlock27]) (by simp [t3cBlock27]) (by simp [t3cBlock27]) (by simp [t3cBlock27]) ⟨rfl, rfl, rfl, rfl⟩
    (by simp only [t3cBlock27, mul_pred_half, mul_pred_pred_half]; try ring)
theorem t3cBlock27_holds (h : ListedAAB d.ua d.ub d.oa d.ob q) : (t3cBlock27 d H).Holds q := by
  obtain ⟨a, b, c, i, j, k, rfl, h⟩ := h
  simp [Block.Holds, t3cBlock27, InRanges, lowest, ints, column, Block.ranges]
  try omega
theorem t3cBlock27_asks (h : ListedABB d.ua d.ub d.oa d.ob q) : (t3cBlock27 d H).Asks q := by
  simp [Block.Asks, t3cBlock27, InRanges, lowest, ints, column, Block.ranges]
  try omega

theorem t3cBlock28_ready : (t3cBlock28 d H).Ready := by
  exact ready_free (n := d.ua) (m := d.ub) (l := d.oa) (k := d.ob) (by simp [t3cBlock28]) (by simp [t3cBlock28]) (by simp [t3cBlock28]) (by simp [t3cBlock28]) ⟨rfl, rfl, rfl, rfl⟩
    (by simp only [t3cBlock28, mul_pred_half, mul_pred_pred_half]; try ring)
theorem t3cBlock28_holds (h : ListedAAB d.ua d.ub d.oa d.ob q) : (t3cBlock28 d H).Holds q := by
  obtain ⟨a, b, c, i, j, k, rfl, h⟩ := h
  simp [Block.Holds, t3cBlock28, InRanges, lowest, ints, column, Block.ranges]
  try omega
theorem t3cBlock28_asks (h : ListedABB d.ua d.ub d.oa d.ob q) : (t3cBlock28 d H).Asks q := by
  simp [Block.Asks, t3cBlock28, InRanges, lowest, ints, column, Block.ranges]
  try omega

theorem t3cBlocks_ready : ∀ b ∈ t3cBlocks d H, b.Ready := by
  simp only [t3cBlocks, List.mem_cons, List.not_mem_nil, or_false]
  rintro b (rfl | rfl | rfl | rfl | rfl | rfl | rfl | rfl | rfl | rfl | rfl | rfl | rfl | rfl | rfl)
  · exact t3cBlock1_ready
  · exact t3cBlock2_ready
  · exact t3cBlock3_ready
  · exact t3cBlock4_ready
  · exact t3cBlock5_ready
  · exact t3cBlock6_ready
  · exact t3cBlock7_ready
  · exact t3cBlock8_ready
  · exact t3cBlock9_ready
  · exact t3cBlock10_ready
  · exact t3cBlock11_ready
  · exact t3cBlock12_ready
  · exact t3cBlock13_ready
  · exact t3cBlock14_ready
  · exact t3cBlock15_ready
theorem t3cBlocks_holds (h : ListedABB d.ua d.ub d.oa d.ob q) : ∀ b ∈ t3cBlocks d H, b.Holds q := by
  simp only [t3cBlocks, List.mem_cons, List.not_mem_nil, or_false]
  rintro b (rfl | rfl | rfl | rfl | rfl | rfl | rfl | rfl | rfl | rfl | rfl | rfl | rfl | rfl | rfl)
  · exact t3cBlock1_holds h
  · exact t3cBlock2_holds h
  · exact t3cBlock3_holds h
  · exact t3cBlock4_holds h
  · exact t3cBlock5_holds h
  · exact t3cBlock6_holds h
  · exact t3cBlock7_holds h
  · exact t3cBlock8_holds h
  · exact t3cBlock9_holds h
  · exact t3cBlock10_holds h
  · exact t3cBlock11_holds h
  · exact t3cBlock12_holds h
  · exact t3cBlock13_holds h
  · exact t3cBlock14_holds h
  · exact t3cBlock15_holds h
theorem t3cBlocks_asks (h : ListedABB d.ua d.ub d.oa d.ob q) : ∀ b ∈ t3cBlocks d H, b.Asks q := by
  simp only [t3cBlocks, List.mem_cons, List.not_mem_nil, or_false]
  rintro b (rfl | rfl | rfl | rfl | rfl | rfl | rfl | rfl | rfl | rfl | rfl | rfl | rfl | rfl | rfl)
  · exact t3cBlock1_asks h
  · exact t3cBlock2_asks h
  · exact t3cBlock3_asks h
  · exact t3cBlock4_asks h
  · exact t3cBlock5_asks h
  · exact t3cBlock6_asks h
  · exact t3cBlock7_asks h
  · exact t3cBlock8_asks h
  · exact t3cBlock9_asks h
  · exact t3cBlock10_asks h
  · exact t3cBlock11_asks h
  · exact t3cBlock12_asks h
  · exact t3cBlock13_asks h
  · exact t3cBlock14_asks h
  · exact t3cBlock15_asks h

theorem t3cBlocksT3d_ready : ∀ b ∈ t3cBlocksT3d d H, b.Ready := by
  simp only [t3cBlocksT3d, List.mem_cons, List.not_mem_nil, or_false]
  rintro b (rfl | rfl | rfl | rfl | rfl | rfl | rfl | rfl | rfl)
  · exact t3cBlock16_ready
  · exact t3cBlock17_ready
  · exact t3cBlock18_ready
  · exact t3cBlock19_ready
  · exact t3cBlock20_ready
  · exact t3cBlock21_ready
  · exact t3cBlock22_ready
  · exact t3cBlock23_ready
  · exact t3cBlock24_ready
theorem t3cBlocksT3d_holds (h : ListedAAA d.ub d.ob q) : ∀ b ∈ t3cBlocksT3d d H, b.Holds q := by
  simp only [t3cBlocksT3d, List.mem_cons, List.not_mem_nil, or_false]
  rintro b (rfl | rfl | rfl | rfl | rfl | rfl | rfl | rfl | rfl)
  · exact t3cBlock16_holds h
  · exact t3cBlock17_holds h
  · exact t3cBlock18_holds h
  · exact t3cBlock19_holds h
  · exact t3cBlock20_holds h
  · exact t3cBlock21_holds h
  · exact t3cBlock22_holds h
  · exact t3cBlock23_holds h
  · exact t3cBlock24_holds h
theorem t3cBlocksT3d_asks (h : ListedABB d.ua d.ub d.oa d.ob q) : ∀ b ∈ t3cBlocksT3d d H, b.Asks q := by
  simp only [t3cBlocksT3d, List.mem_cons, List.not_mem_nil, or_false]
  rintro b (rfl | rfl | rfl | rfl | rfl | rfl | rfl | rfl | rfl)
  · exact t3cBlock16_asks h
  · exact t3cBlock17_asks h
  · exact t3cBlock18_asks h
  · exact t3cBlock19_asks h
  · exact t3cBlock20_asks h
  · exact t3cBlock21_asks h
  · exact t3cBlock22_asks h
  · exact t3cBlock23_asks h
  · exact t3cBlock24_asks h

theorem t3cBlocksT3b_ready : ∀ b ∈ t3cBlocksT3b d H, b.Ready := by
  simp only [t3cBlocksT3b, List.mem_cons, List.not_mem_nil, or_false]
  rintro b (rfl | rfl | rfl | rfl)
  · exact t3cBlock25_ready
  · exact t3cBlock26_ready
  · exact t3cBlock27_ready
  · exact t3cBlock28_ready
theorem t3cBlocksT3b_holds (h : ListedAAB d.ua d.ub d.oa d.ob q) : ∀ b ∈ t3cBlocksT3b d H, b.Holds q := by
  simp only [t3cBlocksT3b, List.mem_cons, List.not_mem_nil, or_false]
  rintro b (rfl | rfl | rfl | rfl)
  · exact t3cBlock25_holds h
  · exact t3cBlock26_holds h
  · exact t3cBlock27_holds h
  · exact t3cBlock28_holds h
theorem t3cBlocksT3b_asks (h : ListedABB d.ua d.ub d.oa d.ob q) : ∀ b ∈ t3cBlocksT3b d H, b.Asks q := by
  simp only [t3cBlocksT3b, List.mem_cons, List.not_mem_nil, or_false]
  rintro b (rfl | rfl | rfl | rfl)
  · exact t3cBlock25_asks h
  · exact t3cBlock26_asks h
  · exact t3cBlock27_asks h
  · exact t3cBlock28_asks h

end Ccpy.PSpace
