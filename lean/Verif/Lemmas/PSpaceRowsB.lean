import Verif.Model.PSpaceB
import Verif.Lemmas.PSpaceReady
import Verif.Spec.PSpace

/-! The blocks of `update_t3b_p` are large enough and hold all rows that may be listed. -/

namespace Ccpy.PSpace
open Ccpy.Fock Ccpy.Spec

variable {d : Dims} {H : Arrays} {q : List ℕ}

theorem t3bBlock1_ready (hd : d.ob ≤ d.oa) : (t3bBlock1 d H).Ready := by
  exact ready_pair (n := d.ua) (m := d.ub) (l := d.ob) (Or.inl ⟨rfl, rfl, rfl⟩) (by simp [t3bBlock1]) (by simp [t3bBlock1]) ⟨rfl, rfl, le_rfl, hd⟩
    (by simp only [t3bBlock1, mul_pred_half, mul_pred_pred_half]; try ring)
theorem t3bBlock1_holds (h : ListedAAB d.ua d.ub d.oa d.ob q) : (t3bBlock1 d H).Holds q := by
  obtain ⟨a, b, c, i, j, k, rfl, h⟩ := h
  simp [Block.Holds, t3bBlock1, InRanges, lowest, ints, column, Block.ranges]
  try omega
theorem t3bBlock1_asks (h : ListedAAB d.ua d.ub d.oa d.ob q) : (t3bBlock1 d H).Asks q := by
  obtain ⟨a, b, c, i, j, k, rfl, h⟩ := h
  simp [Block.Asks, t3bBlock1, InRanges, lowest, ints, column, Block.ranges]
  try omega

theorem t3bBlock2_ready : (t3bBlock2 d H).Ready := by
  exact ready_pair (n := d.oa) (m := d.ob) (l := d.ub) (Or.inl ⟨rfl, rfl, rfl⟩) (by simp [t3bBlock2]) (by simp [t3bBlock2]) ⟨rfl, rfl, le_rfl, le_rfl⟩
    (by simp only [t3bBlock2, mul_pred_half, mul_pred_pred_half]; try ring)
theorem t3bBlock2_holds (h : ListedAAB d.ua d.ub d.oa d.ob q) : (t3bBlock2 d H).Holds q := by
  obtain ⟨a, b, c, i, j, k, rfl, h⟩ := h
  simp [Block.Holds, t3bBlock2, InRanges, lowest, ints, column, Block.ranges]
  try omega
theorem t3bBlock2_asks (h : ListedAAB d.ua d.ub d.oa d.ob q) : (t3bBlock2 d H).Asks q := by
  obtain ⟨a, b, c, i, j, k, rfl, h⟩ := h
  simp [Block.Asks, t3bBlock2, InRanges, lowest, ints, column, Block.ranges]
  try omega

theorem t3bBlock3_ready : (t3bBlock3 d H).Ready := by
  exact ready_pair (n := d.ua) (m := d.ub) (l := d.oa) (Or.inl ⟨rfl, rfl, rfl⟩) (by simp [t3bBlock3]) (by simp [t3bBlock3]) ⟨rfl, rfl, le_rfl, le_rfl⟩
    (by simp only [t3bBlock3, mul_pred_half, mul_pred_pred_half]; try ring)
theorem t3bBlock3_holds (h : ListedAAB d.ua d.ub d.oa d.ob q) : (t3bBlock3 d H).Holds q := by
  obtain ⟨a, b, c, i, j, k, rfl, h⟩ := h
  simp [Block.Holds, t3bBlock3, InRanges, lowest, ints, column, Block.ranges]
  try omega
theorem t3bBlock3_asks (h : ListedAAB d.ua d.ub d.oa d.ob q) : (t3bBlock3 d H).Asks q := by
  obtain ⟨a, b, c, i, j, k, rfl, h⟩ := h
  simp [Block.Asks, t3bBlock3, InRanges, lowest, ints, column, Block.ranges]
  try omega

theorem t3bBlock4_ready : (t3bBlock4 d H).Ready := by
  exact ready_pair (n := d.ua) (m := d.ub) (l := d.oa) (Or.inl ⟨rfl, rfl, rfl⟩) (by simp [t3bBlock4]) (by simp [t3bBlock4]) ⟨rfl, rfl, le_rfl, le_rfl⟩
    (by simp only [t3bBlock4, mul_pred_half, mul_pred_pred_half]; try ring)
theorem t3bBlock4_holds (h : ListedAAB d.ua d.ub d.oa d.ob q) : (t3bBlock4 d H).Holds q := by
  obtain ⟨a, b, c, i, j, k, rfl, h⟩ := h
  simp [Block.Holds, t3bBlock4, InRanges, lowest, ints, column, Block.ranges]
  try omega
theorem t3bBlock4_asks (h : ListedAAB d.ua d.ub d.oa d.ob q) : (t3bBlock4 d H).Asks q := by
  obtain ⟨a, b, c, i, j, k, rfl, h⟩ := h
  simp [Block.Asks, t3bBlock4, InRanges, lowest, ints, column, Block.ranges]
  try omega

theorem t3bBlock5_ready : (t3bBlock5 d H).Ready := by
  exact ready_pair (n := d.oa) (m := d.ob) (l := d.ua) (Or.inl ⟨rfl, rfl, rfl⟩) (by simp [t3bBlock5]) (by simp [t3bBlock5]) ⟨rfl, rfl, le_rfl, le_rfl⟩
    (by simp only [t3bBlock5, mul_pred_half, mul_pred_pred_half]; try ring)
theorem t3bBlock5_holds (h : ListedAAB d.ua d.ub d.oa d.ob q) : (t3bBlock5 d H).Holds q := by
  obtain ⟨a, b, c, i, j, k, rfl, h⟩ := h
  simp [Block.Holds, t3bBlock5, InRanges, lowest, ints, column, Block.ranges]
  try omega
theorem t3bBlock5_asks (h : ListedAAB d.ua d.ub d.oa d.ob q) : (t3bBlock5 d H).Asks q := by
  obtain ⟨a, b, c, i, j, k, rfl, h⟩ := h
  simp [Block.Asks, t3bBlock5, InRanges, lowest, ints, column, Block.ranges]
  try omega

theorem t3bBlock6_ready : (t3bBlock6 d H).Ready := by
  exact ready_pair (n := d.oa) (m := d.ob) (l := d.ua) (Or.inl ⟨rfl, rfl, rfl⟩) (by simp [t3bBlock6]) (by simp [t3bBlock6]) ⟨rfl, rfl, le_rfl, le_rfl⟩
    (by simp only [t3bBlock6, mul_pred_half, mul_pred_pred_half]; try ring)
theorem t3bBlock6_holds (h : ListedAAB d.ua d.ub d.oa d.ob q) : (t3bBlock6 d H).Holds q := by
  obtain ⟨a, b, c, i, j, k, rfl, h⟩ := h
  simp [Block.Holds, t3bBlock6, InRanges, lowest, ints, column, Block.ranges]
  try omega
theorem t3bBlock6_asks (h : ListedAAB d.ua d.ub d.oa d.ob q) : (t3bBlock6 d H).Asks q := by
  obtain ⟨a, b, c, i, j, k, rfl, h⟩ := h
  simp [Block.Asks, t3bBlock6, InRanges, lowest, ints, column, Block.ranges]
  try omega

theorem t3bBlock7_ready : (t3bBlock7 d H).Ready := by
  exact ready_free (n := d.ua) (m := d.ub) (l := d.oa) (k := d.ob) (by simp [t3bBlock7]) (by simp [t3bBlock7]) (by simp [t3bBlock7]) (by simp [t3bBlock7]) ⟨rfl, rfl, rfl, rfl⟩
    (by simp only [t3bBlock7, mul_pred_half, mul_pred_pred_half]; try ring)
theorem t3bBlock7_holds (h : ListedAAB d.ua d.ub d.oa d.ob q) : (t3bBlock7 d H).Holds q := by
  obtain ⟨a, b, c, i, j, k, rfl, h⟩ := h
  simp [Block.Holds, t3bBlock7, InRanges, lowest, ints, column, Block.ranges]
  try omega
theorem t3bBlock7_asks (h : ListedAAB d.ua d.ub d.oa d.ob q) : (t3bBlock7 d H).Asks q := by
  obtain ⟨a, b, c, i, j, k, rfl, h⟩ := h
  simp [Block.Asks, t3bBlock7, InRanges, lowest, ints, column, Block.ranges]
  try omega

theorem t3bBlock8_ready : (t3bBlock8 d H).Ready := by
  exact ready_free (n := d.ua) (m := d.ub) (l := d.oa) (k := d.ob) (by simp [t3bBlock8]) (by simp [t3bBlock8]) (by simp [t3bBlock8]) (by simp [t3bBlock8]) ⟨rfl, rfl, rfl, rfl⟩
    (by simp only [t3bBlock8, mul_pred_half, mul_pred_pred_half]; try ring)
theorem t3bBlock8_holds (h : ListedAAB d.ua d.ub d.oa d.ob q) : (t3bBlock8 d H).Holds q := by
  obtain ⟨a, b, c, i, j, k, rfl, h⟩ := h
  simp [Block.Holds, t3bBlock8, InRanges, lowest, ints, column, Block.ranges]
  try omega
theorem t3bBlock8_asks (h : ListedAAB d.ua d.ub d.oa d.ob q) : (t3bBlock8 d H).Asks q := by
  obtain ⟨a, b, c, i, j, k, rfl, h⟩ := h
  simp [Block.Asks, t3bBlock8, InRanges, lowest, ints, column, Block.ranges]
  try omega

theorem t3bBlock9_ready : (t3bBlock9 d H).Ready := by
  exact ready_free (n := d.ua) (m := d.ub) (l := d.oa) (k := d.ob) (by simp [t3bBlock9]) (by simp [t3bBlock9]) (by simp [t3bBlock9]) (by simp [t3bBlock9]) ⟨rfl, rfl, rfl, rfl⟩
    (by simp only [t3bBlock9, mul_pred_half, mul_pred_pred_half]; try ring)
theorem t3bBlock9_holds (h : ListedAAB d.ua d.ub d.oa d.ob q) : (t3bBlock9 d H).Holds q := by
  obtain ⟨a, b, c, i, j, k, rfl, h⟩ := h
  simp [Block.Holds, t3bBlock9, InRanges, lowest, ints, column, Block.ranges]
  try omega
theorem t3bBlock9_asks (h : ListedAAB d.ua d.ub d.oa d.ob q) : (t3bBlock9 d H).Asks q := by
  obtain ⟨a, b, c, i, j, k, rfl, h⟩ := h
  simp [Block.Asks, t3bBlock9, InRanges, lowest, ints, column, Block.ranges]
  try omega

theorem t3bBlock10_ready : (t3bBlock10 d H).Ready := by
  exact ready_free (n := d.ua) (m := d.ub) (l := d.oa) (k := d.ob) (by simp [t3bBlock10]) (by simp [t3bBlock10]) (by simp [t3bBlock10]) (by simp [t3bBlock10]) ⟨rfl, rfl, rfl, rfl⟩
    (by simp only [t3bBlock10, mul_pred_half, mul_pred_pred_half]; try ring)
theorem t3bBlock10_holds (h : ListedAAB d.ua d.ub d.oa d.ob q) : (t3bBlock10 d H).Holds q := by
  obtain ⟨a, b, c, i, j, k, rfl, h⟩ := h
  simp [Block.Holds, t3bBlock10, InRanges, lowest, ints, column, Block.ranges]
  try omega
theorem t3bBlock10_asks (h : ListedAAB d.ua d.ub d.oa d.ob q) : (t3bBlock10 d H).Asks q := by
  obtain ⟨a, b, c, i, j, k, rfl, h⟩ := h
  simp [Block.Asks, t3bBlock10, InRanges, lowest, ints, column, Block.ranges]
  try omega

theorem t3bBlock11_ready : (t3bBlock11 d H).Ready := by
  exact ready_pairs (n := d.ua) (m := d.oa) (Or.inl ⟨rfl, rfl, rfl⟩) (Or.inl ⟨rfl, rfl, rfl⟩) ⟨rfl, rfl, rfl, rfl⟩
    (by simp only [t3bBlock11, mul_pred_half, mul_pred_pred_half]; try ring)
theorem t3bBlock11_holds (h : ListedAAB d.ua d.ub d.oa d.ob q) : (t3bBlock11 d H).Holds q := by
  obtain ⟨a, b, c, i, j, k, rfl, h⟩ := h
  simp [Block.Holds, t3bBlock11, InRanges, lowest, ints, column, Block.ranges]
  try omega
theorem t3bBlock11_asks (h : ListedAAB d.ua d.ub d.oa d.ob q) : (t3bBlock11 d H).Asks q := by
  obtain ⟨a, b, c, i, j, k, rfl, h⟩ := h
  simp [Block.Asks, t3bBlock11, InRanges, lowest, ints, column, Block.ranges]
  try omega

theorem t3bBlock12_ready : (t3bBlock12 d H).Ready := by
  exact ready_pair (n := d.ua) (m := d.oa) (l := d.ob) (Or.inl ⟨rfl, rfl, rfl⟩) (by simp [t3bBlock12]) (by simp [t3bBlock12]) ⟨rfl, rfl, le_rfl, le_rfl⟩
    (by simp only [t3bBlock12, mul_pred_half, mul_pred_pred_half]; try ring)
theorem t3bBlock12_holds (h : ListedAAB d.ua d.ub d.oa d.ob q) : (t3bBlock12 d H).Holds q := by
  obtain ⟨a, b, c, i, j, k, rfl, h⟩ := h
  simp [Block.Holds, t3bBlock12, InRanges, lowest, ints, column, Block.ranges]
  try omega
theorem t3bBlock12_asks (h : ListedAAB d.ua d.ub d.oa d.ob q) : (t3bBlock12 d H).Asks q := by
  obtain ⟨a, b, c, i, j, k, rfl, h⟩ := h
  simp [Block.Asks, t3bBlock12, InRanges, lowest, ints, column, Block.ranges]
  try omega

theorem t3bBlock13_ready : (t3bBlock13 d H).Ready := by
  exact ready_pair (n := d.ua) (m := d.oa) (l := d.ob) (Or.inl ⟨rfl, rfl, rfl⟩) (by simp [t3bBlock13]) (by simp [t3bBlock13]) ⟨rfl, rfl, le_rfl, le_rfl⟩
    (by simp only [t3bBlock13, mul_pred_half, mul_pred_pred_half]; try ring)
theorem t3bBlock13_holds (h : ListedAAB d.ua d.ub d.oa d.ob q) : (t3bBlock13 d H).Holds q := by
  obtain ⟨a, b, c, i, j, k, rfl, h⟩ := h
  simp [Block.Holds, t3bBlock13, InRanges, lowest, ints, column, Block.ranges]
  try omega
theorem t3bBlock13_asks (h : ListedAAB d.ua d.ub d.oa d.ob q) : (t3bBlock13 d H).Asks q := by
  obtain ⟨a, b, c, i, j, k, rfl, h⟩ := h
  simp [Block.Asks, t3bBlock13, InRanges, lowest, ints, column, Block.ranges]
  try omega

theorem t3bBlock14_ready : (t3bBlock14 d H).Ready := by
  exact ready_pair (n := d.oa) (m := d.ua) (l := d.ub) (Or.inl ⟨rfl, rfl, rfl⟩) (by simp [t3bBlock14]) (by simp [t3bBlock14]) ⟨rfl, rfl, le_rfl, le_rfl⟩
    (by simp only [t3bBlock14, mul_pred_half, mul_pred_pred_half]; try ring)
theorem t3bBlock14_holds (h : ListedAAB d.ua d.ub d.oa d.ob q) : (t3bBlock14 d H).Holds q := by
  obtain ⟨a, b, c, i, j, k, rfl, h⟩ := h
  simp [Block.Holds, t3bBlock14, InRanges, lowest, ints, column, Block.ranges]
  try omega
theorem t3bBlock14_asks (h : ListedAAB d.ua d.ub d.oa d.ob q) : (t3bBlock14 d H).Asks q := by
  obtain ⟨a, b, c, i, j, k, rfl, h⟩ := h
  simp [Block.Asks, t3bBlock14, InRanges, lowest, ints, column, Block.ranges]
  try omega

theorem t3bBlock15_ready : (t3bBlock15 d H).Ready := by
  exact ready_pair (n := d.oa) (m := d.ua) (l := d.ub) (Or.inl ⟨rfl, rfl, rfl⟩) (by simp [t3bBlock15]) (by simp [t3bBlock15]) ⟨rfl, rfl, le_rfl, le_rfl⟩
    (by simp only [t3bBlock15, mul_pred_half, mul_pred_pred_half]; try ring)
theorem t3bBlock15_holds (h : ListedAAB d.ua d.ub d.oa d.ob q) : (t3bBlock15 d H).Holds q := by
  obtain ⟨a, b, c, i, j, k, rfl, h⟩ := h
  simp [Block.Holds, t3bBlock15, InRanges, lowest, ints, column, Block.ranges]
  try omega
theorem t3bBlock15_asks (h : ListedAAB d.ua d.ub d.oa d.ob q) : (t3bBlock15 d H).Asks q := by
  obtain ⟨a, b, c, i, j, k, rfl, h⟩ := h
  simp [Block.Asks, t3bBlock15, InRanges, lowest, ints, column, Block.ranges]
  try omega

theorem t3bBlock16_ready : (t3bBlock16 d H).Ready := by
  exact ready_pairs (n := d.ua) (m := d.oa) (Or.inr (Or.inl ⟨rfl, rfl, rfl⟩)) (Or.inr (Or.inl ⟨rfl, rfl, rfl⟩)) ⟨rfl, rfl, rfl, rfl⟩
    (by simp only [t3bBlock16, mul_pred_half, mul_pred_pred_half]; try ring)
theorem t3bBlock16_holds (h : ListedAAA d.ua d.oa q) : (t3bBlock16 d H).Holds q := by
  obtain ⟨a, b, c, i, j, k, rfl, h⟩ := h
  simp [Block.Holds, t3bBlock16, InRanges, lowest, ints, column, Block.ranges]
  try omega
theorem t3bBlock16_asks (h : ListedAAB d.ua d.ub d.oa d.ob q) : (t3bBlock16 d H).Asks q := by
  simp [Block.Asks, t3bBlock16, InRanges, lowest, ints, column, Block.ranges]
  try omega

theorem t3bBlock17_ready : (t3bBlock17 d H).Ready := by
  exact ready_pairs (n := d.ua) (m := d.oa) (Or.inr (Or.inr (Or.inl ⟨rfl, rfl, rfl⟩))) (Or.inr (Or.inl ⟨rfl, rfl, rfl⟩)) ⟨rfl, rfl, rfl, rfl⟩
    (by simp only [t3bBlock17, mul_pred_half, mul_pred_pred_half]; try ring)
theorem t3bBlock17_holds (h : ListedAAA d.ua d.oa q) : (t3bBlock17 d H).Holds q := by
  obtain ⟨a, b, c, i, j, k, rfl, h⟩ := h
  simp [Block.Holds, t3bBlock17, InRanges, lowest, ints, column, Block.ranges]
  try omega
theorem t3bBlock17_asks (h : ListedAAB d.ua d.ub d.oa d.ob q) : (t3bBlock17 d H).Asks q := by
  simp [Block.Asks, t3bBlock17, InRanges, lowest, ints, column, Block.ranges]
  try omega

theorem t3bBlock18_ready : (t3bBlock18 d H).Ready := by
  exact ready_pairs (n := d.ua) (m := d.oa) (Or.inr (Or.inr (Or.inr ⟨rfl, rfl, rfl⟩))) (Or.inr (Or.inl ⟨rfl, rfl, rfl⟩)) ⟨rfl, rfl, rfl, rfl⟩
    (by simp only [t3bBlock18, mul_pred_half, mul_pred_pred_half]; try ring)
theorem t3bBlock18_holds (h : ListedAAA d.ua d.oa q) : (t3bBlock18 d H).Holds q := by
  obtain ⟨a, b, c, i, j, k, rfl, h⟩ := h
  simp [Block.Holds, t3bBlock18, InRanges, lowest, ints, column, Block.ranges]
  try omega
theorem t3bBlock18_asks (h : ListedAAB d.ua d.ub d.oa d.ob q) : (t3bBlock18 d H).Asks q := by
  simp [Block.Asks, t3bBlock18, InRanges, lowest, ints, column, Block.ranges]
  try omega

theorem t3bBlock19_ready : (t3bBlock19 d H).Ready := by
  exact ready_pairs (n := d.ua) (m := d.oa) (Or.inr (Or.inl ⟨rfl, rfl, rfl⟩)) (Or.inr (Or.inr (Or.inl ⟨rfl, rfl, rfl⟩))) ⟨rfl, rfl, rfl, rfl⟩
    (by simp only [t3bBlock19, mul_pred_half, mul_pred_pred_half]; try ring)
theorem t3bBlock19_holds (h : ListedAAA d.ua d.oa q) : (t3bBlock19 d H).Holds q := by
  obtain ⟨a, b, c, i, j, k, rfl, h⟩ := h
  simp [Block.Holds, t3bBlock19, InRanges, lowest, ints, column, Block.ranges]
  try omega
theorem t3bBlock19_asks (h : ListedAAB d.ua d.ub d.oa d.ob q) : (t3bBlock19 d H).Asks q := by
  simp [Block.Asks, t3bBlock19, InRanges, lowest, ints, column, Block.ranges]
  try omega

theorem t3bBlock20_ready : (t3bBlock20 d H).Ready := by
  exact ready_pairs (n := d.ua) (m := d.oa) (Or.inr (Or.inr (Or.inl ⟨rfl, rfl, rfl⟩))) (Or.inr (Or.inr (Or.inl ⟨rfl, rfl, rfl⟩))) ⟨rfl, rfl, rfl, rfl⟩
    (by simp only [t3bBlock20, mul_pred_half, mul_pred_pred_half]; try ring)
theorem t3bBlock20_holds (h : ListedAAA d.ua d.oa q) : (t3bBlock20 d H).Holds q := by
  obtain ⟨a, b, c, i, j, k, rfl, h⟩ := h
  simp [Block.Holds, t3bBlock20, InRanges, lowest, ints, column, Block.ranges]
  try omega
theorem t3bBlock20_asks (h : ListedAAB d.ua d.ub d.oa d.ob q) : (t3bBlock20 d H).Asks q := by
  simp [Block.Asks, t3bBlock20, InRanges, lowest, ints, column, Block.ranges]
  try omega

theorem t3bBlock21_ready : (t3bBlock21 d H).Ready := by
  exact ready_pairs (n := d.ua) (m := d.oa) (Or.inr (Or.inr (Or.inr ⟨rfl, rfl, rfl⟩))) (Or.inr (Or.inr (Or.inl ⟨rfl, rfl, rfl⟩))) ⟨rfl, rfl, rfl, rfl⟩
    (by simp only [t3bBlock21, mul_pred_half, mul_pred_pred_half]; try ring)
theorem t3bBlock21_holds (h : ListedAAA d.ua d.oa q) : (t3bBlock21 d H).Holds q := by
  obtain ⟨a, b, c, i, j, k, rfl, h⟩ := h
  simp [Block.Holds, t3bBlock21, InRanges, lowest, ints, column, Block.ranges]
  try omega
theorem t3bBlock21_asks (h : ListedAAB d.ua d.ub d.oa d.ob q) : (t3bBlock21 d H).Asks q := by
  simp [Block.Asks, t3bBlock21, InRanges, lowest, ints, column, Block.ranges]
  try omega

theorem t3bBlock22_ready : (t3bBlock22 d H).Ready := by
  exact ready_pairs (n := d.ua) (m := d.oa) (Or.inr (Or.inl ⟨rfl, rfl, rfl⟩)) (Or.inr (Or.inr (Or.inr ⟨rfl, rfl, rfl⟩))) ⟨rfl, rfl, rfl, rfl⟩
    (by simp only [t3bBlock22, mul_pred_half, mul_pred_pred_half]; try ring)
theorem t3bBlock22_holds (h : ListedAAA d.ua d.oa q) : (t3bBlock22 d H).Holds q := by
  obtain ⟨a, b, c, i, j, k, rfl, h⟩ := h
  simp [Block.Holds, t3bBlock22, InRanges, lowest, ints, column, Block.ranges]
  try omega
theorem t3bBlock22_asks (h : ListedAAB d.ua d.ub d.oa d.ob q) : (t3bBlock22 d H).Asks q := by
  simp [Block.Asks, t3bBlock22, InRanges, lowest, ints, column, Block.ranges]
  try omega

theorem t3bBlock23_ready : (t3bBlock23 d H).Ready := by
  exact ready_pairs (n := d.ua) (m := d.oa) (Or.inr (Or.inr (Or.inl ⟨rfl, rfl, rfl⟩))) (Or.inr (Or.inr (Or.inr ⟨rfl, rfl, rfl⟩))) ⟨rfl, rfl, rfl, rfl⟩
    (by simp only [t3bBlock23, mul_pred_half, mul_pred_pred_half]; try ring)
theorem t3bBlock23_holds (h : ListedAAA d.ua d.oa q) : (t3bBlock23 d H).Holds q := by
  obtain ⟨a, b, c, i, j, k, rfl, h⟩ := h
  simp [Block.Holds, t3bBlock23, InRanges, lowest, ints, column, Block.ranges]
  try omega
theorem t3bBlock23_asks (h : ListedAAB d.ua d.ub d.oa d.ob q) : (t3bBlock23 d H).Asks q := by
  simp [Block.Asks, t3bBlock23, InRanges, lowest, ints, column, Block.ranges]
  try omega

theorem t3bBlock24_ready : (t3bBlock24 d H).Ready := by
  exact ready_pairs (n := d.ua) (m := d.oa) (Or.inr (Or.inr (Or.inr ⟨rfl, rfl, rfl⟩))) (Or.inr (Or.inr (Or.inr ⟨rfl, rfl, rfl⟩))) ⟨rfl, rfl, rfl, rfl⟩
    (by simp only [t3bBlock24, mul_pred_half, mul_pred_pred_half]; try ring)
theorem t3bBlock24_holds (h : ListedAAA d.ua d.oa q) : (t3bBlock24 d H).Holds q := by
  obtain ⟨a, b, c, i, j, k, rfl, h⟩ := h
  simp [Block.Holds, t3bBlock24, InRanges, lowest, ints, column, Block.ranges]
  try omega
theorem t3bBlock24_asks (h : ListedAAB d.ua d.ub d.oa d.ob q) : (t3bBlock24 d H).Asks q := by
  simp [Block.Asks, t3bBlock24, InRanges, lowest, ints, column, Block.ranges]
  try omega

theorem t3bBlock25_ready : (t3bBlock25 d H).Ready := by
  exact ready_free (n := d.ua) (m := d.ub) (l := d.oa) (k := d.ob) (by simp [t3bBlock25]) (by simp [t3bBlock25]) (by simp [t3bBlock25]) (by simp [t3bBlock25]) ⟨rfl, rfl, rfl, rfl⟩
    (by simp only [t3bBlock25, mul_pred_half, mul_pred_pred_half]; try ring)
theorem t3bBlock25_holds (h : ListedABB d.ua d.ub d.oa d.ob q) : (t3bBlock25 d H).Holds q := by
  obtain ⟨a, b, c, i, j, k, rfl, h⟩ := h
  simp [Block.Holds, t3bBlock25, InRanges, lowest, ints, column, Block.ranges]
  try omega
theorem t3bBlock25_asks (h : ListedAAB d.ua d.ub d.oa d.ob q) : (t3bBlock25 d H).Asks q := by
  simp [Block.Asks, t3bBlock25, InRanges, lowest, ints, column, Block.ranges]
  try omega

theorem t3bBlock26_ready : (t3bBlock26 d H).Ready := by
  exact ready_free (n := d.ua) (m := d.ub) (l := d.oa) (k := d.ob) (by simp [t3bBlock26]) (by simp [t3bBlock26]) (by simp [t3bBlock26]) (by simp [t3bBlock26]) ⟨rfl, rfl, rfl, rfl⟩
    (by simp only [t3bBlock26, mul_pred_half, mul_pred_pred_half]; try ring)
theorem t3bBlock26_holds (h : ListedABB d.ua d.ub d.oa d.ob q) : (t3bBlock26 d H).Holds q := by
  obtain ⟨a, b, c, i, j, k, rfl, h⟩ := h
  simp [Block.Holds, t3bBlock26, InRanges, lowest, ints, column, Block.ranges]
  try omega
theorem t3bBlock26_asks (h : ListedAAB d.ua d.ub d.oa d.ob q) : (t3bBlock26 d H).Asks q := by
  simp [Block.Asks, t3bBlock26, InRanges, lowest, ints, column, Block.ranges]
  try omega

theorem t3bBlock27_ready : (t3bBlock27 d H).Ready := by
  exact ready_free (n := d.ua) (m := d.ub) (l := d.oa) (k := d.ob) (by simp [t3bBlock27]) (by simp [t3bBlock27]) (by simp [t3bBlock27]) (by simp [t3bBlock27]) ⟨rfl, rfl, rfl, rfl⟩
    (by simp only [t3bBlock27, mul_pred_half, mul_pred_pred_half]; try ring)
theorem t3bBlock27_holds (h : ListedABB d.ua d.ub d.oa d.ob q) : (t3bBlock27 d H).Holds q := by
  obtain ⟨a, b, c, i, j, k, rfl, h⟩ := h
  simp [Block.Holds, t3bBlock27, InRanges, lowest, ints, column, Block.ranges]
  try omega
theorem t3bBlock27_asks (h : ListedAAB d.ua d.ub d.oa d.ob q) : (t3bBlock27 d H).Asks q := by
  simp [Block.Asks, t3bBlock27, InRanges, lowest, ints, column, Block.ranges]
  try omega

theorem t3bBlock28_ready : (t3bBlock28 d H).Ready := by
  exact ready_free (n := d.ua) (m := d.ub) (l := d.oa) (k := d.ob) (by simp [t3bBlock28]) (by simp [t3bBlock28]) (by simp [t3bBlock28]) (by simp [t3bBlock28]) ⟨rfl, rfl, rfl, rfl⟩
    (by simp only [t3bBlock28, mul_pred_half, mul_pred_pred_half]; try ring)
theorem t3bBlock28_holds (h : ListedABB d.ua d.ub d.oa d.ob q) : (t3bBlock28 d H).Holds q := by
  obtain ⟨a, b, c, i, j, k, rfl, h⟩ := h
  simp [Block.Holds, t3bBlock28, InRanges, lowest, ints, column, Block.ranges]
  try omega
theorem t3bBlock28_asks (h : ListedAAB d.ua d.ub d.oa d.ob q) : (t3bBlock28 d H).Asks q := by
  simp [Block.Asks, t3bBlock28, InRanges, lowest, ints, column, Block.ranges]
  try omega

theorem t3bBlocks_ready (hd : d.ob ≤ d.oa) : ∀ b ∈ t3bBlocks d H, b.Ready := by
  simp only [t3bBlocks, List.mem_cons, List.not_mem_nil, or_false]
  rintro b (rfl | rfl | rfl | rfl | rfl | rfl | rfl | rfl | rfl | rfl | rfl | rfl | rfl | rfl | rfl)
  · exact t3bBlock1_ready hd
  · exact t3bBlock2_ready
  · exact t3bBlock3_ready
  · exact t3bBlock4_ready
  · exact t3bBlock5_ready
  · exact t3bBlock6_ready
  · exact t3bBlock7_ready
  · exact t3bBlock8_ready
  · exact t3bBlock9_ready
  · exact t3bBlock10_ready
  · exact t3bBlock11_ready
  · exact t3bBlock12_ready
  · exact t3bBlock13_ready
  · exact t3bBlock14_ready
  · exact t3bBlock15_ready
theorem t3bBlocks_holds (h : ListedAAB d.ua d.ub d.oa d.ob q) : ∀ b ∈ t3bBlocks d H, b.Holds q := by
  simp only [t3bBlocks, List.mem_cons, List.not_mem_nil, or_false]
  rintro b (rfl | rfl | rfl | rfl | rfl | rfl | rfl | rfl | rfl | rfl | rfl | rfl | rfl | rfl | rfl)
  · exact t3bBlock1_holds h
  · exact t3bBlock2_holds h
  · exact t3bBlock3_holds h
  · exact t3bBlock4_holds h
  · exact t3bBlock5_holds h
  · exact t3bBlock6_holds h
  · exact t3bBlock7_holds h
  · exact t3bBlock8_holds h
  · exact t3bBlock9_holds h
  · exact t3bBlock10_holds h
  · exact t3bBlock11_holds h
  · exact t3bBlock12_holds h
  · exact t3bBlock13_holds h
  · exact t3bBlock14_holds h
  · exact t3bBlock15_holds h
theorem t3bBlocks_asks (h : ListedAAB d.ua d.ub d.oa d.ob q) : ∀ b ∈ t3bBlocks d H, b.Asks q := by
  simp only [t3bBlocks, List.mem_cons, List.not_mem_nil, or_false]
  rintro b (rfl | rfl | rfl | rfl | rfl | rfl | rfl | rfl | rfl | rfl | rfl | rfl | rfl | rfl | rfl)
  · exact t3bBlock1_asks h
  · exact t3bBlock2_asks h
  · exact t3bBlock3_asks h
  · exact t3bBlock4_asks h
  · exact t3bBlock5_asks h
  · exact t3bBlock6_asks h
  · exact t3bBlock7_asks h
  · exact t3bBlock8_asks h
  · exact t3bBlock9_asks h
  · exact t3bBlock10_asks h
  · exact t3bBlock11_asks h
  · exact t3bBlock12_asks h
  · exact t3bBlock13_asks h
  · exact t3bBlock14_asks h
  · exact t3bBlock15_asks h

theorem t3bBlocksT3a_ready : ∀ b ∈ t3bBlocksT3a d H, b.Ready := by
  simp only [t3bBlocksT3a, List.mem_cons, List.not_mem_nil, or_false]
  rintro b (rfl | rfl | rfl | rfl | rfl | rfl | rfl | rfl | rfl)
  · exact t3bBlock16_ready
  · exact t3bBlock17_ready
  · exact t3bBlock18_ready
  · exact t3bBlock19_ready
  · exact t3bBlock20_ready
  · exact t3bBlock21_ready
  · exact t3bBlock22_ready
  · exact t3bBlock23_ready
  · exact t3bBlock24_ready
theorem t3bBlocksT3a_holds (h : ListedAAA d.ua d.oa q) : ∀ b ∈ t3bBlocksT3a d H, b.Holds q := by
  simp only [t3bBlocksT3a, List.mem_cons, List.not_mem_nil, or_false]
  rintro b (rfl | rfl | rfl | rfl | rfl | rfl | rfl | rfl | rfl)
  · exact t3bBlock16_holds h
  · exact t3bBlock17_holds h
  · exact t3bBlock18_holds h
  · exact t3bBlock19_holds h
  · exact t3bBlock20_holds h
  · exact t3bBlock21_holds h
  · exact t3bBlock22_holds h
  · exact t3bBlock23_holds h
  · exact t3bBlock24_holds h
theorem t3bBlocksT3a_asks (h : ListedAAB d.ua d.ub d.oa d.ob q) : ∀ b ∈ t3bBlocksT3a d H, b.Asks q := by
  simp only [t3bBlocksT3a, List.mem_cons, List.not_mem_nil, or_false]
  rintro b (rfl | rfl | rfl | rfl | rfl | rfl | rfl | rfl | rfl)
  · exact t3bBlock16_asks h
  · exact t3bBlock17_asks h
  · exact t3bBlock18_asks h
  · exact t3bBlock19_asks h
  · exact t3bBlock20_asks h
  · exact t3bBlock21_asks h
  · exact t3bBlock22_asks h
  · exact t3bBlock23_asks h
  · exact t3bBlock24_asks h

theorem t3bBlocksT3c_ready : ∀ b ∈ t3bBlocksT3c d H, b.Ready := by
  simp only [t3bBlocksT3c, List.mem_cons, List.not_mem_nil, or_false]
  rintro b (rfl | rfl | rfl | rfl)
  · exact t3bBlock25_ready
  · exact t3bBlock26_ready
  · exact t3bBlock27_ready
  · exact t3bBlock28_ready
theorem t3bBlocksT3c_holds (h : ListedABB d.ua d.ub d.oa d.ob q) : ∀ b ∈ t3bBlocksT3c d H, b.Holds q := by
  simp only [t3bBlocksT3c, List.mem_cons, List.not_mem_nil, or_false]
  rintro b (rfl | rfl | rfl | rfl)
  · exact t3bBlock25_holds h
  · exact t3bBlock26_holds h
  · exact t3bBlock27_holds h
  · exact t3bBlock28_holds h
theorem t3bBlocksT3c_asks (h : ListedAAB d.ua d.ub d.oa d.ob q) : ∀ b ∈ t3bBlocksT3c d H, b.Asks q := by
  simp only [t3bBlocksT3c, List.mem_cons, List.not_mem_nil, or_false]
  rintro b (rfl | rfl | rfl | rfl)
  · exact t3bBlock25_asks h
  · exact t3bBlock26_asks h
  · exact t3bBlock27_asks h
  · exact t3bBlock28_asks h

end Ccpy.PSpace
