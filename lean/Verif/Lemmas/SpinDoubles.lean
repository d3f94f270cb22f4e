import Verif.Lemmas.SpinMatrix

/-! Matrix elements of the total spin between single and double excitations. -/

set_option linter.unusedSimpArgs false
set_option linter.unusedTactic false
set_option linter.unreachableTactic false

namespace Ccpy.SpinMatrix
open Ccpy.Fock
variable {ι : Type*} [LinearOrder ι] {up down : ℕ → ι} {n na nb : ℕ}

theorem element_a_ab (L : Labels up down) (hab : nb ≤ na) (hn : na ≤ n) {a i B C K J : ℕ}
    (ha : na ≤ a) (ga : a < n) (hi : i < na) (hB : na ≤ B) (gB : B < n) (hC : nb ≤ C) (gC : C < n) (hK : K < nb) (hJ : J < na) :
    inner (cre (up a) (ann (up i) (reference up down na nb)))
        (spinSquared n up down (cre (up B) (cre (down C) (ann (down K) (ann (up J) (reference up down na nb)))))) =
      eqn a B * eqn i K * eqn J C := by
  rw [inner_spinSquared (((((hasSz_reference (n := n) L hn (hab.trans hn)).ann_up L (a := J) (by omega)).ann_down L (a := K) (by omega)).cre_down L (a := C) (by omega)).cre_up L (a := B) (by omega))]
  simp only [raising_cre_up L, raising_ann_up (by omega : i < n) L, raising_cre_down (by omega : C < n) L, raising_ann_down L, raising_ann_up (by omega : J < n) L, raising_reference L hab]
  have nna : ¬ a < na := by omega
  have ma : ¬ a < nb := by omega
  have nnB : ¬ B < na := by omega
  have mB : ¬ B < nb := by omega
  have nnC : ¬ C < nb := by omega
  have nnK : K < na := by omega
  by_cases bi : i < nb
  · skip
    by_cases bC : C < na
    · skip
      by_cases bJ : J < nb
      · skip
        wick L (occupiedSet up down na nb) with [nna, ma, hi, nnB, mB, nnC, hK, nnK, hJ, bi, bC, bJ]
        try simp only [ite_eqn, if_true, if_false, eqn_comm i a, eqn_comm B a, eqn_comm C a, eqn_comm K a, eqn_comm J a, eqn_comm B i, eqn_comm C i, eqn_comm K i, eqn_comm J i, eqn_comm C B, eqn_comm K B, eqn_comm J B, eqn_comm K C, eqn_comm J C, eqn_comm J K]
        try simp only [(eqn_ne (by omega) : eqn a i = 0), (eqn_ne (by omega) : eqn a C = 0), (eqn_ne (by omega) : eqn a K = 0), (eqn_ne (by omega) : eqn a J = 0), (eqn_ne (by omega) : eqn i B = 0), (eqn_ne (by omega) : eqn i C = 0), (eqn_ne (by omega) : eqn B C = 0), (eqn_ne (by omega) : eqn B K = 0), (eqn_ne (by omega) : eqn B J = 0), (eqn_ne (by omega) : eqn C K = 0), (eqn_ne (by omega) : eqn C J = 0), mul_zero, zero_mul, neg_zero, sub_zero, zero_sub, add_zero, zero_add]
        try ring
      · skip
        wick L (occupiedSet up down na nb) with [nna, ma, hi, nnB, mB, nnC, hK, nnK, hJ, bi, bC, bJ]
        try simp only [ite_eqn, if_true, if_false, eqn_comm i a, eqn_comm B a, eqn_comm C a, eqn_comm K a, eqn_comm J a, eqn_comm B i, eqn_comm C i, eqn_comm K i, eqn_comm J i, eqn_comm C B, eqn_comm K B, eqn_comm J B, eqn_comm K C, eqn_comm J C, eqn_comm J K]
        try simp only [(eqn_ne (by omega) : eqn a i = 0), (eqn_ne (by omega) : eqn a C = 0), (eqn_ne (by omega) : eqn a K = 0), (eqn_ne (by omega) : eqn a J = 0), (eqn_ne (by omega) : eqn i B = 0), (eqn_ne (by omega) : eqn i C = 0), (eqn_ne (by omega) : eqn i J = 0), (eqn_ne (by omega) : eqn B C = 0), (eqn_ne (by omega) : eqn B K = 0), (eqn_ne (by omega) : eqn B J = 0), (eqn_ne (by omega) : eqn C K = 0), (eqn_ne (by omega) : eqn K J = 0), mul_zero, zero_mul, neg_zero, sub_zero, zero_sub, add_zero, zero_add]
        try ring
    · skip
      by_cases bJ : J < nb
      · skip
        wick L (occupiedSet up down na nb) with [nna, ma, hi, nnB, mB, nnC, hK, nnK, hJ, bi, bC, bJ]
        try simp only [ite_eqn, if_true, if_false, eqn_comm i a, eqn_comm B a, eqn_comm C a, eqn_comm K a, eqn_comm J a, eqn_comm B i, eqn_comm C i, eqn_comm K i, eqn_comm J i, eqn_comm C B, eqn_comm K B, eqn_comm J B, eqn_comm K C, eqn_comm J C, eqn_comm J K]
        try simp only [(eqn_ne (by omega) : eqn a i = 0), (eqn_ne (by omega) : eqn a K = 0), (eqn_ne (by omega) : eqn a J = 0), (eqn_ne (by omega) : eqn i B = 0), (eqn_ne (by omega) : eqn i C = 0), (eqn_ne (by omega) : eqn B K = 0), (eqn_ne (by omega) : eqn B J = 0), (eqn_ne (by omega) : eqn C K = 0), (eqn_ne (by omega) : eqn C J = 0), mul_zero, zero_mul, neg_zero, sub_zero, zero_sub, add_zero, zero_add]
        try ring
      · skip
        wick L (occupiedSet up down na nb) with [nna, ma, hi, nnB, mB, nnC, hK, nnK, hJ, bi, bC, bJ]
        try simp only [ite_eqn, if_true, if_false, eqn_comm i a, eqn_comm B a, eqn_comm C a, eqn_comm K a, eqn_comm J a, eqn_comm B i, eqn_comm C i, eqn_comm K i, eqn_comm J i, eqn_comm C B, eqn_comm K B, eqn_comm J B, eqn_comm K C, eqn_comm J C, eqn_comm J K]
        try simp only [(eqn_ne (by omega) : eqn a i = 0), (eqn_ne (by omega) : eqn a K = 0), (eqn_ne (by omega) : eqn a J = 0), (eqn_ne (by omega) : eqn i B = 0), (eqn_ne (by omega) : eqn i C = 0), (eqn_ne (by omega) : eqn i J = 0), (eqn_ne (by omega) : eqn B K = 0), (eqn_ne (by omega) : eqn B J = 0), (eqn_ne (by omega) : eqn C K = 0), (eqn_ne (by omega) : eqn C J = 0), (eqn_ne (by omega) : eqn K J = 0), mul_zero, zero_mul, neg_zero, sub_zero, zero_sub, add_zero, zero_add]
        try ring
  · skip
    by_cases bC : C < na
    · skip
      by_cases bJ : J < nb
      · skip
        wick L (occupiedSet up down na nb) with [nna, ma, hi, nnB, mB, nnC, hK, nnK, hJ, bi, bC, bJ]
        try simp only [ite_eqn, if_true, if_false, eqn_comm i a, eqn_comm B a, eqn_comm C a, eqn_comm K a, eqn_comm J a, eqn_comm B i, eqn_comm C i, eqn_comm K i, eqn_comm J i, eqn_comm C B, eqn_comm K B, eqn_comm J B, eqn_comm K C, eqn_comm J C, eqn_comm J K]
        try simp only [(eqn_ne (by omega) : eqn a i = 0), (eqn_ne (by omega) : eqn a C = 0), (eqn_ne (by omega) : eqn a K = 0), (eqn_ne (by omega) : eqn a J = 0), (eqn_ne (by omega) : eqn i B = 0), (eqn_ne (by omega) : eqn i K = 0), (eqn_ne (by omega) : eqn i J = 0), (eqn_ne (by omega) : eqn B C = 0), (eqn_ne (by omega) : eqn B K = 0), (eqn_ne (by omega) : eqn B J = 0), (eqn_ne (by omega) : eqn C K = 0), (eqn_ne (by omega) : eqn C J = 0), mul_zero, zero_mul, neg_zero, sub_zero, zero_sub, add_zero, zero_add]
        try ring
      · skip
        wick L (occupiedSet up down na nb) with [nna, ma, hi, nnB, mB, nnC, hK, nnK, hJ, bi, bC, bJ]
        try simp only [ite_eqn, if_true, if_false, eqn_comm i a, eqn_comm B a, eqn_comm C a, eqn_comm K a, eqn_comm J a, eqn_comm B i, eqn_comm C i, eqn_comm K i, eqn_comm J i, eqn_comm C B, eqn_comm K B, eqn_comm J B, eqn_comm K C, eqn_comm J C, eqn_comm J K]
        try simp only [(eqn_ne (by omega) : eqn a i = 0), (eqn_ne (by omega) : eqn a C = 0), (eqn_ne (by omega) : eqn a K = 0), (eqn_ne (by omega) : eqn a J = 0), (eqn_ne (by omega) : eqn i B = 0), (eqn_ne (by omega) : eqn i K = 0), (eqn_ne (by omega) : eqn B C = 0), (eqn_ne (by omega) : eqn B K = 0), (eqn_ne (by omega) : eqn B J = 0), (eqn_ne (by omega) : eqn C K = 0), (eqn_ne (by omega) : eqn K J = 0), mul_zero, zero_mul, neg_zero, sub_zero, zero_sub, add_zero, zero_add]
        try ring
    · skip
      by_cases bJ : J < nb
      · skip
        wick L (occupiedSet up down na nb) with [nna, ma, hi, nnB, mB, nnC, hK, nnK, hJ, bi, bC, bJ]
        try simp only [ite_eqn, if_true, if_false, eqn_comm i a, eqn_comm B a, eqn_comm C a, eqn_comm K a, eqn_comm J a, eqn_comm B i, eqn_comm C i, eqn_comm K i, eqn_comm J i, eqn_comm C B, eqn_comm K B, eqn_comm J B, eqn_comm K C, eqn_comm J C, eqn_comm J K]
        try simp only [(eqn_ne (by omega) : eqn a i = 0), (eqn_ne (by omega) : eqn a K = 0), (eqn_ne (by omega) : eqn a J = 0), (eqn_ne (by omega) : eqn i B = 0), (eqn_ne (by omega) : eqn i C = 0), (eqn_ne (by omega) : eqn i K = 0), (eqn_ne (by omega) : eqn i J = 0), (eqn_ne (by omega) : eqn B K = 0), (eqn_ne (by omega) : eqn B J = 0), (eqn_ne (by omega) : eqn C K = 0), (eqn_ne (by omega) : eqn C J = 0), mul_zero, zero_mul, neg_zero, sub_zero, zero_sub, add_zero, zero_add]
        try ring
      · skip
        wick L (occupiedSet up down na nb) with [nna, ma, hi, nnB, mB, nnC, hK, nnK, hJ, bi, bC, bJ]
        try simp only [ite_eqn, if_true, if_false, eqn_comm i a, eqn_comm B a, eqn_comm C a, eqn_comm K a, eqn_comm J a, eqn_comm B i, eqn_comm C i, eqn_comm K i, eqn_comm J i, eqn_comm C B, eqn_comm K B, eqn_comm J B, eqn_comm K C, eqn_comm J C, eqn_comm J K]
        try simp only [(eqn_ne (by omega) : eqn a i = 0), (eqn_ne (by omega) : eqn a K = 0), (eqn_ne (by omega) : eqn a J = 0), (eqn_ne (by omega) : eqn i B = 0), (eqn_ne (by omega) : eqn i C = 0), (eqn_ne (by omega) : eqn i K = 0), (eqn_ne (by omega) : eqn B K = 0), (eqn_ne (by omega) : eqn B J = 0), (eqn_ne (by omega) : eqn C K = 0), (eqn_ne (by omega) : eqn C J = 0), (eqn_ne (by omega) : eqn K J = 0), mul_zero, zero_mul, neg_zero, sub_zero, zero_sub, add_zero, zero_add]
        try ring

theorem element_b_ab (L : Labels up down) (hab : nb ≤ na) (hn : na ≤ n) {a i B C K J : ℕ}
    (ha : nb ≤ a) (ga : a < n) (hi : i < nb) (hB : na ≤ B) (gB : B < n) (hC : nb ≤ C) (gC : C < n) (hK : K < nb) (hJ : J < na) :
    inner (cre (down a) (ann (down i) (reference up down na nb)))
        (spinSquared n up down (cre (up B) (cre (down C) (ann (down K) (ann (up J) (reference up down na nb)))))) =
      -(eqn a B * eqn i K * eqn J C) := by
  rw [inner_spinSquared (((((hasSz_reference (n := n) L hn (hab.trans hn)).ann_up L (a := J) (by omega)).ann_down L (a := K) (by omega)).cre_down L (a := C) (by omega)).cre_up L (a := B) (by omega))]
  simp only [raising_cre_down (by omega : a < n) L, raising_ann_down L, raising_cre_up L, raising_cre_down (by omega : C < n) L, raising_ann_up (by omega : J < n) L, raising_reference L hab]
  have nna : ¬ a < nb := by omega
  have nni : i < na := by omega
  have nnB : ¬ B < na := by omega
  have mB : ¬ B < nb := by omega
  have nnC : ¬ C < nb := by omega
  have nnK : K < na := by omega
  by_cases ba : a < na
  · skip
    by_cases bC : C < na
    · skip
      by_cases bJ : J < nb
      · skip
        wick L (occupiedSet up down na nb) with [nna, hi, nni, nnB, mB, nnC, hK, nnK, hJ, ba, bC, bJ]
        try simp only [ite_eqn, if_true, if_false, eqn_comm i a, eqn_comm B a, eqn_comm C a, eqn_comm K a, eqn_comm J a, eqn_comm B i, eqn_comm C i, eqn_comm K i, eqn_comm J i, eqn_comm C B, eqn_comm K B, eqn_comm J B, eqn_comm K C, eqn_comm J C, eqn_comm J K]
        try simp only [(eqn_ne (by omega) : eqn a i = 0), (eqn_ne (by omega) : eqn a B = 0), (eqn_ne (by omega) : eqn a K = 0), (eqn_ne (by omega) : eqn a J = 0), (eqn_ne (by omega) : eqn i B = 0), (eqn_ne (by omega) : eqn i C = 0), (eqn_ne (by omega) : eqn B C = 0), (eqn_ne (by omega) : eqn B K = 0), (eqn_ne (by omega) : eqn B J = 0), (eqn_ne (by omega) : eqn C K = 0), (eqn_ne (by omega) : eqn C J = 0), mul_zero, zero_mul, neg_zero, sub_zero, zero_sub, add_zero, zero_add]
        try ring
      · skip
        wick L (occupiedSet up down na nb) with [nna, hi, nni, nnB, mB, nnC, hK, nnK, hJ, ba, bC, bJ]
        try simp only [ite_eqn, if_true, if_false, eqn_comm i a, eqn_comm B a, eqn_comm C a, eqn_comm K a, eqn_comm J a, eqn_comm B i, eqn_comm C i, eqn_comm K i, eqn_comm J i, eqn_comm C B, eqn_comm K B, eqn_comm J B, eqn_comm K C, eqn_comm J C, eqn_comm J K]
        try simp only [(eqn_ne (by omega) : eqn a i = 0), (eqn_ne (by omega) : eqn a B = 0), (eqn_ne (by omega) : eqn a K = 0), (eqn_ne (by omega) : eqn i B = 0), (eqn_ne (by omega) : eqn i C = 0), (eqn_ne (by omega) : eqn i J = 0), (eqn_ne (by omega) : eqn B C = 0), (eqn_ne (by omega) : eqn B K = 0), (eqn_ne (by omega) : eqn B J = 0), (eqn_ne (by omega) : eqn C K = 0), (eqn_ne (by omega) : eqn K J = 0), mul_zero, zero_mul, neg_zero, sub_zero, zero_sub, add_zero, zero_add]
        try ring
    · skip
      by_cases bJ : J < nb
      · skip
        wick L (occupiedSet up down na nb) with [nna, hi, nni, nnB, mB, nnC, hK, nnK, hJ, ba, bC, bJ]
        try simp only [ite_eqn, if_true, if_false, eqn_comm i a, eqn_comm B a, eqn_comm C a, eqn_comm K a, eqn_comm J a, eqn_comm B i, eqn_comm C i, eqn_comm K i, eqn_comm J i, eqn_comm C B, eqn_comm K B, eqn_comm J B, eqn_comm K C, eqn_comm J C, eqn_comm J K]
        try simp only [(eqn_ne (by omega) : eqn a i = 0), (eqn_ne (by omega) : eqn a B = 0), (eqn_ne (by omega) : eqn a C = 0), (eqn_ne (by omega) : eqn a K = 0), (eqn_ne (by omega) : eqn a J = 0), (eqn_ne (by omega) : eqn i B = 0), (eqn_ne (by omega) : eqn i C = 0), (eqn_ne (by omega) : eqn B K = 0), (eqn_ne (by omega) : eqn B J = 0), (eqn_ne (by omega) : eqn C K = 0), (eqn_ne (by omega) : eqn C J = 0), mul_zero, zero_mul, neg_zero, sub_zero, zero_sub, add_zero, zero_add]
        try ring
      · skip
        wick L (occupiedSet up down na nb) with [nna, hi, nni, nnB, mB, nnC, hK, nnK, hJ, ba, bC, bJ]
        try simp only [ite_eqn, if_true, if_false, eqn_comm i a, eqn_comm B a, eqn_comm C a, eqn_comm K a, eqn_comm J a, eqn_comm B i, eqn_comm C i, eqn_comm K i, eqn_comm J i, eqn_comm C B, eqn_comm K B, eqn_comm J B, eqn_comm K C, eqn_comm J C, eqn_comm J K]
        try simp only [(eqn_ne (by omega) : eqn a i = 0), (eqn_ne (by omega) : eqn a B = 0), (eqn_ne (by omega) : eqn a C = 0), (eqn_ne (by omega) : eqn a K = 0), (eqn_ne (by omega) : eqn i B = 0), (eqn_ne (by omega) : eqn i C = 0), (eqn_ne (by omega) : eqn i J = 0), (eqn_ne (by omega) : eqn B K = 0), (eqn_ne (by omega) : eqn B J = 0), (eqn_ne (by omega) : eqn C K = 0), (eqn_ne (by omega) : eqn C J = 0), (eqn_ne (by omega) : eqn K J = 0), mul_zero, zero_mul, neg_zero, sub_zero, zero_sub, add_zero, zero_add]
        try ring
  · skip
    by_cases bC : C < na
    · skip
      by_cases bJ : J < nb
      · skip
        wick L (occupiedSet up down na nb) with [nna, hi, nni, nnB, mB, nnC, hK, nnK, hJ, ba, bC, bJ]
        try simp only [ite_eqn, if_true, if_false, eqn_comm i a, eqn_comm B a, eqn_comm C a, eqn_comm K a, eqn_comm J a, eqn_comm B i, eqn_comm C i, eqn_comm K i, eqn_comm J i, eqn_comm C B, eqn_comm K B, eqn_comm J B, eqn_comm K C, eqn_comm J C, eqn_comm J K]
        try simp only [(eqn_ne (by omega) : eqn a i = 0), (eqn_ne (by omega) : eqn a C = 0), (eqn_ne (by omega) : eqn a K = 0), (eqn_ne (by omega) : eqn a J = 0), (eqn_ne (by omega) : eqn i B = 0), (eqn_ne (by omega) : eqn i C = 0), (eqn_ne (by omega) : eqn B C = 0), (eqn_ne (by omega) : eqn B K = 0), (eqn_ne (by omega) : eqn B J = 0), (eqn_ne (by omega) : eqn C K = 0), (eqn_ne (by omega) : eqn C J = 0), mul_zero, zero_mul, neg_zero, sub_zero, zero_sub, add_zero, zero_add]
        try ring
      · skip
        wick L (occupiedSet up down na nb) with [nna, hi, nni, nnB, mB, nnC, hK, nnK, hJ, ba, bC, bJ]
        try simp only [ite_eqn, if_true, if_false, eqn_comm i a, eqn_comm B a, eqn_comm C a, eqn_comm K a, eqn_comm J a, eqn_comm B i, eqn_comm C i, eqn_comm K i, eqn_comm J i, eqn_comm C B, eqn_comm K B, eqn_comm J B, eqn_comm K C, eqn_comm J C, eqn_comm J K]
        try simp only [(eqn_ne (by omega) : eqn a i = 0), (eqn_ne (by omega) : eqn a C = 0), (eqn_ne (by omega) : eqn a K = 0), (eqn_ne (by omega) : eqn a J = 0), (eqn_ne (by omega) : eqn i B = 0), (eqn_ne (by omega) : eqn i C = 0), (eqn_ne (by omega) : eqn i J = 0), (eqn_ne (by omega) : eqn B C = 0), (eqn_ne (by omega) : eqn B K = 0), (eqn_ne (by omega) : eqn B J = 0), (eqn_ne (by omega) : eqn C K = 0), (eqn_ne (by omega) : eqn K J = 0), mul_zero, zero_mul, neg_zero, sub_zero, zero_sub, add_zero, zero_add]
        try ring
    · skip
      by_cases bJ : J < nb
      · skip
        wick L (occupiedSet up down na nb) with [nna, hi, nni, nnB, mB, nnC, hK, nnK, hJ, ba, bC, bJ]
        try simp only [ite_eqn, if_true, if_false, eqn_comm i a, eqn_comm B a, eqn_comm C a, eqn_comm K a, eqn_comm J a, eqn_comm B i, eqn_comm C i, eqn_comm K i, eqn_comm J i, eqn_comm C B, eqn_comm K B, eqn_comm J B, eqn_comm K C, eqn_comm J C, eqn_comm J K]
        try simp only [(eqn_ne (by omega) : eqn a i = 0), (eqn_ne (by omega) : eqn a K = 0), (eqn_ne (by omega) : eqn a J = 0), (eqn_ne (by omega) : eqn i B = 0), (eqn_ne (by omega) : eqn i C = 0), (eqn_ne (by omega) : eqn B K = 0), (eqn_ne (by omega) : eqn B J = 0), (eqn_ne (by omega) : eqn C K = 0), (eqn_ne (by omega) : eqn C J = 0), mul_zero, zero_mul, neg_zero, sub_zero, zero_sub, add_zero, zero_add]
        try ring
      · skip
        wick L (occupiedSet up down na nb) with [nna, hi, nni, nnB, mB, nnC, hK, nnK, hJ, ba, bC, bJ]
        try simp only [ite_eqn, if_true, if_false, eqn_comm i a, eqn_comm B a, eqn_comm C a, eqn_comm K a, eqn_comm J a, eqn_comm B i, eqn_comm C i, eqn_comm K i, eqn_comm J i, eqn_comm C B, eqn_comm K B, eqn_comm J B, eqn_comm K C, eqn_comm J C, eqn_comm J K]
        try simp only [(eqn_ne (by omega) : eqn a i = 0), (eqn_ne (by omega) : eqn a K = 0), (eqn_ne (by omega) : eqn a J = 0), (eqn_ne (by omega) : eqn i B = 0), (eqn_ne (by omega) : eqn i C = 0), (eqn_ne (by omega) : eqn i J = 0), (eqn_ne (by omega) : eqn B K = 0), (eqn_ne (by omega) : eqn B J = 0), (eqn_ne (by omega) : eqn C K = 0), (eqn_ne (by omega) : eqn C J = 0), (eqn_ne (by omega) : eqn K J = 0), mul_zero, zero_mul, neg_zero, sub_zero, zero_sub, add_zero, zero_add]
        try ring

theorem element_a_aa (L : Labels up down) (hab : nb ≤ na) (hn : na ≤ n) {a i B C K J : ℕ}
    (ha : na ≤ a) (ga : a < n) (hi : i < na) (hB : na ≤ B) (gB : B < n) (hC : na ≤ C) (gC : C < n) (hK : K < na) (hJ : J < na) :
    inner (cre (up a) (ann (up i) (reference up down na nb)))
        (spinSquared n up down (cre (up B) (cre (up C) (ann (up K) (ann (up J) (reference up down na nb)))))) =
      0 := by
  rw [inner_spinSquared (((((hasSz_reference (n := n) L hn (hab.trans hn)).ann_up L (a := J) (by omega)).ann_up L (a := K) (by omega)).cre_up L (a := C) (by omega)).cre_up L (a := B) (by omega))]
  simp only [raising_cre_up L, raising_ann_up (by omega : i < n) L, raising_ann_up (by omega : K < n) L, raising_ann_up (by omega : J < n) L, raising_reference L hab]
  have nna : ¬ a < na := by omega
  have ma : ¬ a < nb := by omega
  have nnB : ¬ B < na := by omega
  have mB : ¬ B < nb := by omega
  have nnC : ¬ C < na := by omega
  have mC : ¬ C < nb := by omega
  by_cases bi : i < nb
  · skip
    by_cases bK : K < nb
    · skip
      by_cases bJ : J < nb
      · skip
        wick L (occupiedSet up down na nb) with [nna, ma, hi, nnB, mB, nnC, mC, hK, hJ, bi, bK, bJ]
        try simp only [ite_eqn, if_true, if_false, eqn_comm i a, eqn_comm B a, eqn_comm C a, eqn_comm K a, eqn_comm J a, eqn_comm B i, eqn_comm C i, eqn_comm K i, eqn_comm J i, eqn_comm C B, eqn_comm K B, eqn_comm J B, eqn_comm K C, eqn_comm J C, eqn_comm J K]
        try simp only [(eqn_ne (by omega) : eqn a i = 0), (eqn_ne (by omega) : eqn a K = 0), (eqn_ne (by omega) : eqn a J = 0), (eqn_ne (by omega) : eqn i B = 0), (eqn_ne (by omega) : eqn i C = 0), (eqn_ne (by omega) : eqn B K = 0), (eqn_ne (by omega) : eqn B J = 0), (eqn_ne (by omega) : eqn C K = 0), (eqn_ne (by omega) : eqn C J = 0), mul_zero, zero_mul, neg_zero, sub_zero, zero_sub, add_zero, zero_add]
        try ring
      · skip
        wick L (occupiedSet up down na nb) with [nna, ma, hi, nnB, mB, nnC, mC, hK, hJ, bi, bK, bJ]
        try simp only [ite_eqn, if_true, if_false, eqn_comm i a, eqn_comm B a, eqn_comm C a, eqn_comm K a, eqn_comm J a, eqn_comm B i, eqn_comm C i, eqn_comm K i, eqn_comm J i, eqn_comm C B, eqn_comm K B, eqn_comm J B, eqn_comm K C, eqn_comm J C, eqn_comm J K]
        try simp only [(eqn_ne (by omega) : eqn a i = 0), (eqn_ne (by omega) : eqn a K = 0), (eqn_ne (by omega) : eqn a J = 0), (eqn_ne (by omega) : eqn i B = 0), (eqn_ne (by omega) : eqn i C = 0), (eqn_ne (by omega) : eqn i J = 0), (eqn_ne (by omega) : eqn B K = 0), (eqn_ne (by omega) : eqn B J = 0), (eqn_ne (by omega) : eqn C K = 0), (eqn_ne (by omega) : eqn C J = 0), (eqn_ne (by omega) : eqn K J = 0), mul_zero, zero_mul, neg_zero, sub_zero, zero_sub, add_zero, zero_add]
        try ring
    · skip
      by_cases bJ : J < nb
      · skip
        wick L (occupiedSet up down na nb) with [nna, ma, hi, nnB, mB, nnC, mC, hK, hJ, bi, bK, bJ]
        try simp only [ite_eqn, if_true, if_false, eqn_comm i a, eqn_comm B a, eqn_comm C a, eqn_comm K a, eqn_comm J a, eqn_comm B i, eqn_comm C i, eqn_comm K i, eqn_comm J i, eqn_comm C B, eqn_comm K B, eqn_comm J B, eqn_comm K C, eqn_comm J C, eqn_comm J K]
        try simp only [(eqn_ne (by omega) : eqn a i = 0), (eqn_ne (by omega) : eqn a K = 0), (eqn_ne (by omega) : eqn a J = 0), (eqn_ne (by omega) : eqn i B = 0), (eqn_ne (by omega) : eqn i C = 0), (eqn_ne (by omega) : eqn i K = 0), (eqn_ne (by omega) : eqn B K = 0), (eqn_ne (by omega) : eqn B J = 0), (eqn_ne (by omega) : eqn C K = 0), (eqn_ne (by omega) : eqn C J = 0), (eqn_ne (by omega) : eqn K J = 0), mul_zero, zero_mul, neg_zero, sub_zero, zero_sub, add_zero, zero_add]
        try ring
      · skip
        wick L (occupiedSet up down na nb) with [nna, ma, hi, nnB, mB, nnC, mC, hK, hJ, bi, bK, bJ]
        try simp only [ite_eqn, if_true, if_false, eqn_comm i a, eqn_comm B a, eqn_comm C a, eqn_comm K a, eqn_comm J a, eqn_comm B i, eqn_comm C i, eqn_comm K i, eqn_comm J i, eqn_comm C B, eqn_comm K B, eqn_comm J B, eqn_comm K C, eqn_comm J C, eqn_comm J K]
        try simp only [(eqn_ne (by omega) : eqn a i = 0), (eqn_ne (by omega) : eqn a K = 0), (eqn_ne (by omega) : eqn a J = 0), (eqn_ne (by omega) : eqn i B = 0), (eqn_ne (by omega) : eqn i C = 0), (eqn_ne (by omega) : eqn i K = 0), (eqn_ne (by omega) : eqn i J = 0), (eqn_ne (by omega) : eqn B K = 0), (eqn_ne (by omega) : eqn B J = 0), (eqn_ne (by omega) : eqn C K = 0), (eqn_ne (by omega) : eqn C J = 0), mul_zero, zero_mul, neg_zero, sub_zero, zero_sub, add_zero, zero_add]
        try ring
  · skip
    by_cases bK : K < nb
    · skip
      by_cases bJ : J < nb
      · skip
        wick L (occupiedSet up down na nb) with [nna, ma, hi, nnB, mB, nnC, mC, hK, hJ, bi, bK, bJ]
        try simp only [ite_eqn, if_true, if_false, eqn_comm i a, eqn_comm B a, eqn_comm C a, eqn_comm K a, eqn_comm J a, eqn_comm B i, eqn_comm C i, eqn_comm K i, eqn_comm J i, eqn_comm C B, eqn_comm K B, eqn_comm J B, eqn_comm K C, eqn_comm J C, eqn_comm J K]
        try simp only [(eqn_ne (by omega) : eqn a i = 0), (eqn_ne (by omega) : eqn a K = 0), (eqn_ne (by omega) : eqn a J = 0), (eqn_ne (by omega) : eqn i B = 0), (eqn_ne (by omega) : eqn i C = 0), (eqn_ne (by omega) : eqn i K = 0), (eqn_ne (by omega) : eqn i J = 0), (eqn_ne (by omega) : eqn B K = 0), (eqn_ne (by omega) : eqn B J = 0), (eqn_ne (by omega) : eqn C K = 0), (eqn_ne (by omega) : eqn C J = 0), mul_zero, zero_mul, neg_zero, sub_zero, zero_sub, add_zero, zero_add]
        try ring
      · skip
        wick L (occupiedSet up down na nb) with [nna, ma, hi, nnB, mB, nnC, mC, hK, hJ, bi, bK, bJ]
        try simp only [ite_eqn, if_true, if_false, eqn_comm i a, eqn_comm B a, eqn_comm C a, eqn_comm K a, eqn_comm J a, eqn_comm B i, eqn_comm C i, eqn_comm K i, eqn_comm J i, eqn_comm C B, eqn_comm K B, eqn_comm J B, eqn_comm K C, eqn_comm J C, eqn_comm J K]
        try simp only [(eqn_ne (by omega) : eqn a i = 0), (eqn_ne (by omega) : eqn a K = 0), (eqn_ne (by omega) : eqn a J = 0), (eqn_ne (by omega) : eqn i B = 0), (eqn_ne (by omega) : eqn i C = 0), (eqn_ne (by omega) : eqn i K = 0), (eqn_ne (by omega) : eqn B K = 0), (eqn_ne (by omega) : eqn B J = 0), (eqn_ne (by omega) : eqn C K = 0), (eqn_ne (by omega) : eqn C J = 0), (eqn_ne (by omega) : eqn K J = 0), mul_zero, zero_mul, neg_zero, sub_zero, zero_sub, add_zero, zero_add]
        try ring
    · skip
      by_cases bJ : J < nb
      · skip
        wick L (occupiedSet up down na nb) with [nna, ma, hi, nnB, mB, nnC, mC, hK, hJ, bi, bK, bJ]
        try simp only [ite_eqn, if_true, if_false, eqn_comm i a, eqn_comm B a, eqn_comm C a, eqn_comm K a, eqn_comm J a, eqn_comm B i, eqn_comm C i, eqn_comm K i, eqn_comm J i, eqn_comm C B, eqn_comm K B, eqn_comm J B, eqn_comm K C, eqn_comm J C, eqn_comm J K]
        try simp only [(eqn_ne (by omega) : eqn a i = 0), (eqn_ne (by omega) : eqn a K = 0), (eqn_ne (by omega) : eqn a J = 0), (eqn_ne (by omega) : eqn i B = 0), (eqn_ne (by omega) : eqn i C = 0), (eqn_ne (by omega) : eqn i J = 0), (eqn_ne (by omega) : eqn B K = 0), (eqn_ne (by omega) : eqn B J = 0), (eqn_ne (by omega) : eqn C K = 0), (eqn_ne (by omega) : eqn C J = 0), (eqn_ne (by omega) : eqn K J = 0), mul_zero, zero_mul, neg_zero, sub_zero, zero_sub, add_zero, zero_add]
        try ring
      · skip
        wick L (occupiedSet up down na nb) with [nna, ma, hi, nnB, mB, nnC, mC, hK, hJ, bi, bK, bJ]
        try simp only [ite_eqn, if_true, if_false, eqn_comm i a, eqn_comm B a, eqn_comm C a, eqn_comm K a, eqn_comm J a, eqn_comm B i, eqn_comm C i, eqn_comm K i, eqn_comm J i, eqn_comm C B, eqn_comm K B, eqn_comm J B, eqn_comm K C, eqn_comm J C, eqn_comm J K]
        try simp only [(eqn_ne (by omega) : eqn a i = 0), (eqn_ne (by omega) : eqn a K = 0), (eqn_ne (by omega) : eqn a J = 0), (eqn_ne (by omega) : eqn i B = 0), (eqn_ne (by omega) : eqn i C = 0), (eqn_ne (by omega) : eqn B K = 0), (eqn_ne (by omega) : eqn B J = 0), (eqn_ne (by omega) : eqn C K = 0), (eqn_ne (by omega) : eqn C J = 0), mul_zero, zero_mul, neg_zero, sub_zero, zero_sub, add_zero, zero_add]
        try ring

theorem element_b_aa (L : Labels up down) (hab : nb ≤ na) (hn : na ≤ n) {a i B C K J : ℕ}
    (ha : nb ≤ a) (ga : a < n) (hi : i < nb) (hB : na ≤ B) (gB : B < n) (hC : na ≤ C) (gC : C < n) (hK : K < na) (hJ : J < na) :
    inner (cre (down a) (ann (down i) (reference up down na nb)))
        (spinSquared n up down (cre (up B) (cre (up C) (ann (up K) (ann (up J) (reference up down na nb)))))) =
      0 := by
  rw [inner_spinSquared (((((hasSz_reference (n := n) L hn (hab.trans hn)).ann_up L (a := J) (by omega)).ann_up L (a := K) (by omega)).cre_up L (a := C) (by omega)).cre_up L (a := B) (by omega))]
  simp only [raising_cre_down (by omega : a < n) L, raising_ann_down L, raising_cre_up L, raising_ann_up (by omega : K < n) L, raising_ann_up (by omega : J < n) L, raising_reference L hab]
  have nna : ¬ a < nb := by omega
  have nni : i < na := by omega
  have nnB : ¬ B < na := by omega
  have mB : ¬ B < nb := by omega
  have nnC : ¬ C < na := by omega
  have mC : ¬ C < nb := by omega
  by_cases ba : a < na
  · skip
    by_cases bK : K < nb
    · skip
      by_cases bJ : J < nb
      · skip
        wick L (occupiedSet up down na nb) with [nna, hi, nni, nnB, mB, nnC, mC, hK, hJ, ba, bK, bJ]
        try simp only [ite_eqn, if_true, if_false, eqn_comm i a, eqn_comm B a, eqn_comm C a, eqn_comm K a, eqn_comm J a, eqn_comm B i, eqn_comm C i, eqn_comm K i, eqn_comm J i, eqn_comm C B, eqn_comm K B, eqn_comm J B, eqn_comm K C, eqn_comm J C, eqn_comm J K]
        try simp only [(eqn_ne (by omega) : eqn a i = 0), (eqn_ne (by omega) : eqn a B = 0), (eqn_ne (by omega) : eqn a C = 0), (eqn_ne (by omega) : eqn a K = 0), (eqn_ne (by omega) : eqn a J = 0), (eqn_ne (by omega) : eqn i B = 0), (eqn_ne (by omega) : eqn i C = 0), (eqn_ne (by omega) : eqn B K = 0), (eqn_ne (by omega) : eqn B J = 0), (eqn_ne (by omega) : eqn C K = 0), (eqn_ne (by omega) : eqn C J = 0), mul_zero, zero_mul, neg_zero, sub_zero, zero_sub, add_zero, zero_add]
        try ring
      · skip
        wick L (occupiedSet up down na nb) with [nna, hi, nni, nnB, mB, nnC, mC, hK, hJ, ba, bK, bJ]
        try simp only [ite_eqn, if_true, if_false, eqn_comm i a, eqn_comm B a, eqn_comm C a, eqn_comm K a, eqn_comm J a, eqn_comm B i, eqn_comm C i, eqn_comm K i, eqn_comm J i, eqn_comm C B, eqn_comm K B, eqn_comm J B, eqn_comm K C, eqn_comm J C, eqn_comm J K]
        try simp only [(eqn_ne (by omega) : eqn a i = 0), (eqn_ne (by omega) : eqn a B = 0), (eqn_ne (by omega) : eqn a C = 0), (eqn_ne (by omega) : eqn a K = 0), (eqn_ne (by omega) : eqn i B = 0), (eqn_ne (by omega) : eqn i C = 0), (eqn_ne (by omega) : eqn i J = 0), (eqn_ne (by omega) : eqn B K = 0), (eqn_ne (by omega) : eqn B J = 0), (eqn_ne (by omega) : eqn C K = 0), (eqn_ne (by omega) : eqn C J = 0), (eqn_ne (by omega) : eqn K J = 0), mul_zero, zero_mul, neg_zero, sub_zero, zero_sub, add_zero, zero_add]
        try ring
    · skip
      by_cases bJ : J < nb
      · skip
        wick L (occupiedSet up down na nb) with [nna, hi, nni, nnB, mB, nnC, mC, hK, hJ, ba, bK, bJ]
        try simp only [ite_eqn, if_true, if_false, eqn_comm i a, eqn_comm B a, eqn_comm C a, eqn_comm K a, eqn_comm J a, eqn_comm B i, eqn_comm C i, eqn_comm K i, eqn_comm J i, eqn_comm C B, eqn_comm K B, eqn_comm J B, eqn_comm K C, eqn_comm J C, eqn_comm J K]
        try simp only [(eqn_ne (by omega) : eqn a i = 0), (eqn_ne (by omega) : eqn a B = 0), (eqn_ne (by omega) : eqn a C = 0), (eqn_ne (by omega) : eqn a J = 0), (eqn_ne (by omega) : eqn i B = 0), (eqn_ne (by omega) : eqn i C = 0), (eqn_ne (by omega) : eqn i K = 0), (eqn_ne (by omega) : eqn B K = 0), (eqn_ne (by omega) : eqn B J = 0), (eqn_ne (by omega) : eqn C K = 0), (eqn_ne (by omega) : eqn C J = 0), (eqn_ne (by omega) : eqn K J = 0), mul_zero, zero_mul, neg_zero, sub_zero, zero_sub, add_zero, zero_add]
        try ring
      · skip
        wick L (occupiedSet up down na nb) with [nna, hi, nni, nnB, mB, nnC, mC, hK, hJ, ba, bK, bJ]
        try simp only [ite_eqn, if_true, if_false, eqn_comm i a, eqn_comm B a, eqn_comm C a, eqn_comm K a, eqn_comm J a, eqn_comm B i, eqn_comm C i, eqn_comm K i, eqn_comm J i, eqn_comm C B, eqn_comm K B, eqn_comm J B, eqn_comm K C, eqn_comm J C, eqn_comm J K]
        try simp only [(eqn_ne (by omega) : eqn a i = 0), (eqn_ne (by omega) : eqn a B = 0), (eqn_ne (by omega) : eqn a C = 0), (eqn_ne (by omega) : eqn i B = 0), (eqn_ne (by omega) : eqn i C = 0), (eqn_ne (by omega) : eqn i K = 0), (eqn_ne (by omega) : eqn i J = 0), (eqn_ne (by omega) : eqn B K = 0), (eqn_ne (by omega) : eqn B J = 0), (eqn_ne (by omega) : eqn C K = 0), (eqn_ne (by omega) : eqn C J = 0), mul_zero, zero_mul, neg_zero, sub_zero, zero_sub, add_zero, zero_add]
        try ring
  · skip
    by_cases bK : K < nb
    · skip
      by_cases bJ : J < nb
      · skip
        wick L (occupiedSet up down na nb) with [nna, hi, nni, nnB, mB, nnC, mC, hK, hJ, ba, bK, bJ]
        try simp only [ite_eqn, if_true, if_false, eqn_comm i a, eqn_comm B a, eqn_comm C a, eqn_comm K a, eqn_comm J a, eqn_comm B i, eqn_comm C i, eqn_comm K i, eqn_comm J i, eqn_comm C B, eqn_comm K B, eqn_comm J B, eqn_comm K C, eqn_comm J C, eqn_comm J K]
        try simp only [(eqn_ne (by omega) : eqn a i = 0), (eqn_ne (by omega) : eqn a K = 0), (eqn_ne (by omega) : eqn a J = 0), (eqn_ne (by omega) : eqn i B = 0), (eqn_ne (by omega) : eqn i C = 0), (eqn_ne (by omega) : eqn B K = 0), (eqn_ne (by omega) : eqn B J = 0), (eqn_ne (by omega) : eqn C K = 0), (eqn_ne (by omega) : eqn C J = 0), mul_zero, zero_mul, neg_zero, sub_zero, zero_sub, add_zero, zero_add]
        try ring
      · skip
        wick L (occupiedSet up down na nb) with [nna, hi, nni, nnB, mB, nnC, mC, hK, hJ, ba, bK, bJ]
        try simp only [ite_eqn, if_true, if_false, eqn_comm i a, eqn_comm B a, eqn_comm C a, eqn_comm K a, eqn_comm J a, eqn_comm B i, eqn_comm C i, eqn_comm K i, eqn_comm J i, eqn_comm C B, eqn_comm K B, eqn_comm J B, eqn_comm K C, eqn_comm J C, eqn_comm J K]
        try simp only [(eqn_ne (by omega) : eqn a i = 0), (eqn_ne (by omega) : eqn a K = 0), (eqn_ne (by omega) : eqn a J = 0), (eqn_ne (by omega) : eqn i B = 0), (eqn_ne (by omega) : eqn i C = 0), (eqn_ne (by omega) : eqn i J = 0), (eqn_ne (by omega) : eqn B K = 0), (eqn_ne (by omega) : eqn B J = 0), (eqn_ne (by omega) : eqn C K = 0), (eqn_ne (by omega) : eqn C J = 0), (eqn_ne (by omega) : eqn K J = 0), mul_zero, zero_mul, neg_zero, sub_zero, zero_sub, add_zero, zero_add]
        try ring
    · skip
      by_cases bJ : J < nb
      · skip
        wick L (occupiedSet up down na nb) with [nna, hi, nni, nnB, mB, nnC, mC, hK, hJ, ba, bK, bJ]
        try simp only [ite_eqn, if_true, if_false, eqn_comm i a, eqn_comm B a, eqn_comm C a, eqn_comm K a, eqn_comm J a, eqn_comm B i, eqn_comm C i, eqn_comm K i, eqn_comm J i, eqn_comm C B, eqn_comm K B, eqn_comm J B, eqn_comm K C, eqn_comm J C, eqn_comm J K]
        try simp only [(eqn_ne (by omega) : eqn a i = 0), (eqn_ne (by omega) : eqn a K = 0), (eqn_ne (by omega) : eqn a J = 0), (eqn_ne (by omega) : eqn i B = 0), (eqn_ne (by omega) : eqn i C = 0), (eqn_ne (by omega) : eqn i K = 0), (eqn_ne (by omega) : eqn B K = 0), (eqn_ne (by omega) : eqn B J = 0), (eqn_ne (by omega) : eqn C K = 0), (eqn_ne (by omega) : eqn C J = 0), (eqn_ne (by omega) : eqn K J = 0), mul_zero, zero_mul, neg_zero, sub_zero, zero_sub, add_zero, zero_add]
        try ring
      · skip
        wick L (occupiedSet up down na nb) with [nna, hi, nni, nnB, mB, nnC, mC, hK, hJ, ba, bK, bJ]
        try simp only [ite_eqn, if_true, if_false, eqn_comm i a, eqn_comm B a, eqn_comm C a, eqn_comm K a, eqn_comm J a, eqn_comm B i, eqn_comm C i, eqn_comm K i, eqn_comm J i, eqn_comm C B, eqn_comm K B, eqn_comm J B, eqn_comm K C, eqn_comm J C, eqn_comm J K]
        try simp only [(eqn_ne (by omega) : eqn a i = 0), (eqn_ne (by omega) : eqn a K = 0), (eqn_ne (by omega) : eqn a J = 0), (eqn_ne (by omega) : eqn i B = 0), (eqn_ne (by omega) : eqn i C = 0), (eqn_ne (by omega) : eqn i K = 0), (eqn_ne (by omega) : eqn i J = 0), (eqn_ne (by omega) : eqn B K = 0), (eqn_ne (by omega) : eqn B J = 0), (eqn_ne (by omega) : eqn C K = 0), (eqn_ne (by omega) : eqn C J = 0), mul_zero, zero_mul, neg_zero, sub_zero, zero_sub, add_zero, zero_add]
        try ring

theorem element_a_bb (L : Labels up down) (hab : nb ≤ na) (hn : na ≤ n) {a i B C K J : ℕ}
    (ha : na ≤ a) (ga : a < n) (hi : i < na) (hB : nb ≤ B) (gB : B < n) (hC : nb ≤ C) (gC : C < n) (hK : K < nb) (hJ : J < nb) :
    inner (cre (up a) (ann (up i) (reference up down na nb)))
        (spinSquared n up down (cre (down B) (cre (down C) (ann (down K) (ann (down J) (reference up down na nb)))))) =
      0 := by
  rw [inner_spinSquared (((((hasSz_reference (n := n) L hn (hab.trans hn)).ann_down L (a := J) (by omega)).ann_down L (a := K) (by omega)).cre_down L (a := C) (by omega)).cre_down L (a := B) (by omega))]
  simp only [raising_cre_up L, raising_ann_up (by omega : i < n) L, raising_cre_down (by omega : B < n) L, raising_cre_down (by omega : C < n) L, raising_ann_down L, raising_reference L hab]
  have nna : ¬ a < na := by omega
  have ma : ¬ a < nb := by omega
  have nnB : ¬ B < nb := by omega
  have nnC : ¬ C < nb := by omega
  have nnK : K < na := by omega
  have nnJ : J < na := by omega
  by_cases bi : i < nb
  · skip
    by_cases bB : B < na
    · skip
      by_cases bC : C < na
      · skip
        wick L (occupiedSet up down na nb) with [nna, ma, hi, nnB, nnC, hK, nnK, hJ, nnJ, bi, bB, bC]
        try simp only [ite_eqn, if_true, if_false, eqn_comm i a, eqn_comm B a, eqn_comm C a, eqn_comm K a, eqn_comm J a, eqn_comm B i, eqn_comm C i, eqn_comm K i, eqn_comm J i, eqn_comm C B, eqn_comm K B, eqn_comm J B, eqn_comm K C, eqn_comm J C, eqn_comm J K]
        try simp only [(eqn_ne (by omega) : eqn a i = 0), (eqn_ne (by omega) : eqn a B = 0), (eqn_ne (by omega) : eqn a C = 0), (eqn_ne (by omega) : eqn a K = 0), (eqn_ne (by omega) : eqn a J = 0), (eqn_ne (by omega) : eqn i B = 0), (eqn_ne (by omega) : eqn i C = 0), (eqn_ne (by omega) : eqn B K = 0), (eqn_ne (by omega) : eqn B J = 0), (eqn_ne (by omega) : eqn C K = 0), (eqn_ne (by omega) : eqn C J = 0), mul_zero, zero_mul, neg_zero, sub_zero, zero_sub, add_zero, zero_add]
        try ring
      · skip
        wick L (occupiedSet up down na nb) with [nna, ma, hi, nnB, nnC, hK, nnK, hJ, nnJ, bi, bB, bC]
        try simp only [ite_eqn, if_true, if_false, eqn_comm i a, eqn_comm B a, eqn_comm C a, eqn_comm K a, eqn_comm J a, eqn_comm B i, eqn_comm C i, eqn_comm K i, eqn_comm J i, eqn_comm C B, eqn_comm K B, eqn_comm J B, eqn_comm K C, eqn_comm J C, eqn_comm J K]
        try simp only [(eqn_ne (by omega) : eqn a i = 0), (eqn_ne (by omega) : eqn a B = 0), (eqn_ne (by omega) : eqn a K = 0), (eqn_ne (by omega) : eqn a J = 0), (eqn_ne (by omega) : eqn i B = 0), (eqn_ne (by omega) : eqn i C = 0), (eqn_ne (by omega) : eqn B C = 0), (eqn_ne (by omega) : eqn B K = 0), (eqn_ne (by omega) : eqn B J = 0), (eqn_ne (by omega) : eqn C K = 0), (eqn_ne (by omega) : eqn C J = 0), mul_zero, zero_mul, neg_zero, sub_zero, zero_sub, add_zero, zero_add]
        try ring
    · skip
      by_cases bC : C < na
      · skip
        wick L (occupiedSet up down na nb) with [nna, ma, hi, nnB, nnC, hK, nnK, hJ, nnJ, bi, bB, bC]
        try simp only [ite_eqn, if_true, if_false, eqn_comm i a, eqn_comm B a, eqn_comm C a, eqn_comm K a, eqn_comm J a, eqn_comm B i, eqn_comm C i, eqn_comm K i, eqn_comm J i, eqn_comm C B, eqn_comm K B, eqn_comm J B, eqn_comm K C, eqn_comm J C, eqn_comm J K]
        try simp only [(eqn_ne (by omega) : eqn a i = 0), (eqn_ne (by omega) : eqn a C = 0), (eqn_ne (by omega) : eqn a K = 0), (eqn_ne (by omega) : eqn a J = 0), (eqn_ne (by omega) : eqn i B = 0), (eqn_ne (by omega) : eqn i C = 0), (eqn_ne (by omega) : eqn B C = 0), (eqn_ne (by omega) : eqn B K = 0), (eqn_ne (by omega) : eqn B J = 0), (eqn_ne (by omega) : eqn C K = 0), (eqn_ne (by omega) : eqn C J = 0), mul_zero, zero_mul, neg_zero, sub_zero, zero_sub, add_zero, zero_add]
        try ring
      · skip
        wick L (occupiedSet up down na nb) with [nna, ma, hi, nnB, nnC, hK, nnK, hJ, nnJ, bi, bB, bC]
        try simp only [ite_eqn, if_true, if_false, eqn_comm i a, eqn_comm B a, eqn_comm C a, eqn_comm K a, eqn_comm J a, eqn_comm B i, eqn_comm C i, eqn_comm K i, eqn_comm J i, eqn_comm C B, eqn_comm K B, eqn_comm J B, eqn_comm K C, eqn_comm J C, eqn_comm J K]
        try simp only [(eqn_ne (by omega) : eqn a i = 0), (eqn_ne (by omega) : eqn a K = 0), (eqn_ne (by omega) : eqn a J = 0), (eqn_ne (by omega) : eqn i B = 0), (eqn_ne (by omega) : eqn i C = 0), (eqn_ne (by omega) : eqn B K = 0), (eqn_ne (by omega) : eqn B J = 0), (eqn_ne (by omega) : eqn C K = 0), (eqn_ne (by omega) : eqn C J = 0), mul_zero, zero_mul, neg_zero, sub_zero, zero_sub, add_zero, zero_add]
        try ring
  · skip
    by_cases bB : B < na
    · skip
      by_cases bC : C < na
      · skip
        wick L (occupiedSet up down na nb) with [nna, ma, hi, nnB, nnC, hK, nnK, hJ, nnJ, bi, bB, bC]
        try simp only [ite_eqn, if_true, if_false, eqn_comm i a, eqn_comm B a, eqn_comm C a, eqn_comm K a, eqn_comm J a, eqn_comm B i, eqn_comm C i, eqn_comm K i, eqn_comm J i, eqn_comm C B, eqn_comm K B, eqn_comm J B, eqn_comm K C, eqn_comm J C, eqn_comm J K]
        try simp only [(eqn_ne (by omega) : eqn a i = 0), (eqn_ne (by omega) : eqn a B = 0), (eqn_ne (by omega) : eqn a C = 0), (eqn_ne (by omega) : eqn a K = 0), (eqn_ne (by omega) : eqn a J = 0), (eqn_ne (by omega) : eqn i K = 0), (eqn_ne (by omega) : eqn i J = 0), (eqn_ne (by omega) : eqn B K = 0), (eqn_ne (by omega) : eqn B J = 0), (eqn_ne (by omega) : eqn C K = 0), (eqn_ne (by omega) : eqn C J = 0), mul_zero, zero_mul, neg_zero, sub_zero, zero_sub, add_zero, zero_add]
        try ring
      · skip
        wick L (occupiedSet up down na nb) with [nna, ma, hi, nnB, nnC, hK, nnK, hJ, nnJ, bi, bB, bC]
        try simp only [ite_eqn, if_true, if_false, eqn_comm i a, eqn_comm B a, eqn_comm C a, eqn_comm K a, eqn_comm J a, eqn_comm B i, eqn_comm C i, eqn_comm K i, eqn_comm J i, eqn_comm C B, eqn_comm K B, eqn_comm J B, eqn_comm K C, eqn_comm J C, eqn_comm J K]
        try simp only [(eqn_ne (by omega) : eqn a i = 0), (eqn_ne (by omega) : eqn a B = 0), (eqn_ne (by omega) : eqn a K = 0), (eqn_ne (by omega) : eqn a J = 0), (eqn_ne (by omega) : eqn i C = 0), (eqn_ne (by omega) : eqn i K = 0), (eqn_ne (by omega) : eqn i J = 0), (eqn_ne (by omega) : eqn B C = 0), (eqn_ne (by omega) : eqn B K = 0), (eqn_ne (by omega) : eqn B J = 0), (eqn_ne (by omega) : eqn C K = 0), (eqn_ne (by omega) : eqn C J = 0), mul_zero, zero_mul, neg_zero, sub_zero, zero_sub, add_zero, zero_add]
        try ring
    · skip
      by_cases bC : C < na
      · skip
        wick L (occupiedSet up down na nb) with [nna, ma, hi, nnB, nnC, hK, nnK, hJ, nnJ, bi, bB, bC]
        try simp only [ite_eqn, if_true, if_false, eqn_comm i a, eqn_comm B a, eqn_comm C a, eqn_comm K a, eqn_comm J a, eqn_comm B i, eqn_comm C i, eqn_comm K i, eqn_comm J i, eqn_comm C B, eqn_comm K B, eqn_comm J B, eqn_comm K C, eqn_comm J C, eqn_comm J K]
        try simp only [(eqn_ne (by omega) : eqn a i = 0), (eqn_ne (by omega) : eqn a C = 0), (eqn_ne (by omega) : eqn a K = 0), (eqn_ne (by omega) : eqn a J = 0), (eqn_ne (by omega) : eqn i B = 0), (eqn_ne (by omega) : eqn i K = 0), (eqn_ne (by omega) : eqn i J = 0), (eqn_ne (by omega) : eqn B C = 0), (eqn_ne (by omega) : eqn B K = 0), (eqn_ne (by omega) : eqn B J = 0), (eqn_ne (by omega) : eqn C K = 0), (eqn_ne (by omega) : eqn C J = 0), mul_zero, zero_mul, neg_zero, sub_zero, zero_sub, add_zero, zero_add]
        try ring
      · skip
        wick L (occupiedSet up down na nb) with [nna, ma, hi, nnB, nnC, hK, nnK, hJ, nnJ, bi, bB, bC]
        try simp only [ite_eqn, if_true, if_false, eqn_comm i a, eqn_comm B a, eqn_comm C a, eqn_comm K a, eqn_comm J a, eqn_comm B i, eqn_comm C i, eqn_comm K i, eqn_comm J i, eqn_comm C B, eqn_comm K B, eqn_comm J B, eqn_comm K C, eqn_comm J C, eqn_comm J K]
        try simp only [(eqn_ne (by omega) : eqn a i = 0), (eqn_ne (by omega) : eqn a K = 0), (eqn_ne (by omega) : eqn a J = 0), (eqn_ne (by omega) : eqn i B = 0), (eqn_ne (by omega) : eqn i C = 0), (eqn_ne (by omega) : eqn i K = 0), (eqn_ne (by omega) : eqn i J = 0), (eqn_ne (by omega) : eqn B K = 0), (eqn_ne (by omega) : eqn B J = 0), (eqn_ne (by omega) : eqn C K = 0), (eqn_ne (by omega) : eqn C J = 0), mul_zero, zero_mul, neg_zero, sub_zero, zero_sub, add_zero, zero_add]
        try ring

theorem element_b_bb (L : Labels up down) (hab : nb ≤ na) (hn : na ≤ n) {a i B C K J : ℕ}
    (ha : nb ≤ a) (ga : a < n) (hi : i < nb) (hB : nb ≤ B) (gB : B < n) (hC : nb ≤ C) (gC : C < n) (hK : K < nb) (hJ : J < nb) :
    inner (cre (down a) (ann (down i) (reference up down na nb)))
        (spinSquared n up down (cre (down B) (cre (down C) (ann (down K) (ann (down J) (reference up down na nb)))))) =
      0 := by
  rw [inner_spinSquared (((((hasSz_reference (n := n) L hn (hab.trans hn)).ann_down L (a := J) (by omega)).ann_down L (a := K) (by omega)).cre_down L (a := C) (by omega)).cre_down L (a := B) (by omega))]
  simp only [raising_cre_down (by omega : a < n) L, raising_ann_down L, raising_cre_down (by omega : B < n) L, raising_cre_down (by omega : C < n) L, raising_reference L hab]
  have nna : ¬ a < nb := by omega
  have nni : i < na := by omega
  have nnB : ¬ B < nb := by omega
  have nnC : ¬ C < nb := by omega
  have nnK : K < na := by omega
  have nnJ : J < na := by omega
  by_cases ba : a < na
  · skip
    by_cases bB : B < na
    · skip
      by_cases bC : C < na
      · skip
        wick L (occupiedSet up down na nb) with [nna, hi, nni, nnB, nnC, hK, nnK, hJ, nnJ, ba, bB, bC]
        try simp only [ite_eqn, if_true, if_false, eqn_comm i a, eqn_comm B a, eqn_comm C a, eqn_comm K a, eqn_comm J a, eqn_comm B i, eqn_comm C i, eqn_comm K i, eqn_comm J i, eqn_comm C B, eqn_comm K B, eqn_comm J B, eqn_comm K C, eqn_comm J C, eqn_comm J K]
        try simp only [(eqn_ne (by omega) : eqn a i = 0), (eqn_ne (by omega) : eqn a K = 0), (eqn_ne (by omega) : eqn a J = 0), (eqn_ne (by omega) : eqn i B = 0), (eqn_ne (by omega) : eqn i C = 0), (eqn_ne (by omega) : eqn B K = 0), (eqn_ne (by omega) : eqn B J = 0), (eqn_ne (by omega) : eqn C K = 0), (eqn_ne (by omega) : eqn C J = 0), mul_zero, zero_mul, neg_zero, sub_zero, zero_sub, add_zero, zero_add]
        try ring
      · skip
        wick L (occupiedSet up down na nb) with [nna, hi, nni, nnB, nnC, hK, nnK, hJ, nnJ, ba, bB, bC]
        try simp only [ite_eqn, if_true, if_false, eqn_comm i a, eqn_comm B a, eqn_comm C a, eqn_comm K a, eqn_comm J a, eqn_comm B i, eqn_comm C i, eqn_comm K i, eqn_comm J i, eqn_comm C B, eqn_comm K B, eqn_comm J B, eqn_comm K C, eqn_comm J C, eqn_comm J K]
        try simp only [(eqn_ne (by omega) : eqn a i = 0), (eqn_ne (by omega) : eqn a C = 0), (eqn_ne (by omega) : eqn a K = 0), (eqn_ne (by omega) : eqn a J = 0), (eqn_ne (by omega) : eqn i B = 0), (eqn_ne (by omega) : eqn i C = 0), (eqn_ne (by omega) : eqn B C = 0), (eqn_ne (by omega) : eqn B K = 0), (eqn_ne (by omega) : eqn B J = 0), (eqn_ne (by omega) : eqn C K = 0), (eqn_ne (by omega) : eqn C J = 0), mul_zero, zero_mul, neg_zero, sub_zero, zero_sub, add_zero, zero_add]
        try ring
    · skip
      by_cases bC : C < na
      · skip
        wick L (occupiedSet up down na nb) with [nna, hi, nni, nnB, nnC, hK, nnK, hJ, nnJ, ba, bB, bC]
        try simp only [ite_eqn, if_true, if_false, eqn_comm i a, eqn_comm B a, eqn_comm C a, eqn_comm K a, eqn_comm J a, eqn_comm B i, eqn_comm C i, eqn_comm K i, eqn_comm J i, eqn_comm C B, eqn_comm K B, eqn_comm J B, eqn_comm K C, eqn_comm J C, eqn_comm J K]
        try simp only [(eqn_ne (by omega) : eqn a i = 0), (eqn_ne (by omega) : eqn a B = 0), (eqn_ne (by omega) : eqn a K = 0), (eqn_ne (by omega) : eqn a J = 0), (eqn_ne (by omega) : eqn i B = 0), (eqn_ne (by omega) : eqn i C = 0), (eqn_ne (by omega) : eqn B C = 0), (eqn_ne (by omega) : eqn B K = 0), (eqn_ne (by omega) : eqn B J = 0), (eqn_ne (by omega) : eqn C K = 0), (eqn_ne (by omega) : eqn C J = 0), mul_zero, zero_mul, neg_zero, sub_zero, zero_sub, add_zero, zero_add]
        try ring
      · skip
        wick L (occupiedSet up down na nb) with [nna, hi, nni, nnB, nnC, hK, nnK, hJ, nnJ, ba, bB, bC]
        try simp only [ite_eqn, if_true, if_false, eqn_comm i a, eqn_comm B a, eqn_comm C a, eqn_comm K a, eqn_comm J a, eqn_comm B i, eqn_comm C i, eqn_comm K i, eqn_comm J i, eqn_comm C B, eqn_comm K B, eqn_comm J B, eqn_comm K C, eqn_comm J C, eqn_comm J K]
        try simp only [(eqn_ne (by omega) : eqn a i = 0), (eqn_ne (by omega) : eqn a B = 0), (eqn_ne (by omega) : eqn a C = 0), (eqn_ne (by omega) : eqn a K = 0), (eqn_ne (by omega) : eqn a J = 0), (eqn_ne (by omega) : eqn i B = 0), (eqn_ne (by omega) : eqn i C = 0), (eqn_ne (by omega) : eqn B K = 0), (eqn_ne (by omega) : eqn B J = 0), (eqn_ne (by omega) : eqn C K = 0), (eqn_ne (by omega) : eqn C J = 0), mul_zero, zero_mul, neg_zero, sub_zero, zero_sub, add_zero, zero_add]
        try ring
  · skip
    by_cases bB : B < na
    · skip
      by_cases bC : C < na
      · skip
        wick L (occupiedSet up down na nb) with [nna, hi, nni, nnB, nnC, hK, nnK, hJ, nnJ, ba, bB, bC]
        try simp only [ite_eqn, if_true, if_false, eqn_comm i a, eqn_comm B a, eqn_comm C a, eqn_comm K a, eqn_comm J a, eqn_comm B i, eqn_comm C i, eqn_comm K i, eqn_comm J i, eqn_comm C B, eqn_comm K B, eqn_comm J B, eqn_comm K C, eqn_comm J C, eqn_comm J K]
        try simp only [(eqn_ne (by omega) : eqn a i = 0), (eqn_ne (by omega) : eqn a B = 0), (eqn_ne (by omega) : eqn a C = 0), (eqn_ne (by omega) : eqn a K = 0), (eqn_ne (by omega) : eqn a J = 0), (eqn_ne (by omega) : eqn i B = 0), (eqn_ne (by omega) : eqn i C = 0), (eqn_ne (by omega) : eqn B K = 0), (eqn_ne (by omega) : eqn B J = 0), (eqn_ne (by omega) : eqn C K = 0), (eqn_ne (by omega) : eqn C J = 0), mul_zero, zero_mul, neg_zero, sub_zero, zero_sub, add_zero, zero_add]
        try ring
      · skip
        wick L (occupiedSet up down na nb) with [nna, hi, nni, nnB, nnC, hK, nnK, hJ, nnJ, ba, bB, bC]
        try simp only [ite_eqn, if_true, if_false, eqn_comm i a, eqn_comm B a, eqn_comm C a, eqn_comm K a, eqn_comm J a, eqn_comm B i, eqn_comm C i, eqn_comm K i, eqn_comm J i, eqn_comm C B, eqn_comm K B, eqn_comm J B, eqn_comm K C, eqn_comm J C, eqn_comm J K]
        try simp only [(eqn_ne (by omega) : eqn a i = 0), (eqn_ne (by omega) : eqn a B = 0), (eqn_ne (by omega) : eqn a K = 0), (eqn_ne (by omega) : eqn a J = 0), (eqn_ne (by omega) : eqn i B = 0), (eqn_ne (by omega) : eqn i C = 0), (eqn_ne (by omega) : eqn B C = 0), (eqn_ne (by omega) : eqn B K = 0), (eqn_ne (by omega) : eqn B J = 0), (eqn_ne (by omega) : eqn C K = 0), (eqn_ne (by omega) : eqn C J = 0), mul_zero, zero_mul, neg_zero, sub_zero, zero_sub, add_zero, zero_add]
        try ring
    · skip
      by_cases bC : C < na
      · skip
        wick L (occupiedSet up down na nb) with [nna, hi, nni, nnB, nnC, hK, nnK, hJ, nnJ, ba, bB, bC]
        try simp only [ite_eqn, if_true, if_false, eqn_comm i a, eqn_comm B a, eqn_comm C a, eqn_comm K a, eqn_comm J a, eqn_comm B i, eqn_comm C i, eqn_comm K i, eqn_comm J i, eqn_comm C B, eqn_comm K B, eqn_comm J B, eqn_comm K C, eqn_comm J C, eqn_comm J K]
        try simp only [(eqn_ne (by omega) : eqn a i = 0), (eqn_ne (by omega) : eqn a C = 0), (eqn_ne (by omega) : eqn a K = 0), (eqn_ne (by omega) : eqn a J = 0), (eqn_ne (by omega) : eqn i B = 0), (eqn_ne (by omega) : eqn i C = 0), (eqn_ne (by omega) : eqn B C = 0), (eqn_ne (by omega) : eqn B K = 0), (eqn_ne (by omega) : eqn B J = 0), (eqn_ne (by omega) : eqn C K = 0), (eqn_ne (by omega) : eqn C J = 0), mul_zero, zero_mul, neg_zero, sub_zero, zero_sub, add_zero, zero_add]
        try ring
      · skip
        wick L (occupiedSet up down na nb) with [nna, hi, nni, nnB, nnC, hK, nnK, hJ, nnJ, ba, bB, bC]
        try simp only [ite_eqn, if_true, if_false, eqn_comm i a, eqn_comm B a, eqn_comm C a, eqn_comm K a, eqn_comm J a, eqn_comm B i, eqn_comm C i, eqn_comm K i, eqn_comm J i, eqn_comm C B, eqn_comm K B, eqn_comm J B, eqn_comm K C, eqn_comm J C, eqn_comm J K]
        try simp only [(eqn_ne (by omega) : eqn a i = 0), (eqn_ne (by omega) : eqn a K = 0), (eqn_ne (by omega) : eqn a J = 0), (eqn_ne (by omega) : eqn i B = 0), (eqn_ne (by omega) : eqn i C = 0), (eqn_ne (by omega) : eqn B K = 0), (eqn_ne (by omega) : eqn B J = 0), (eqn_ne (by omega) : eqn C K = 0), (eqn_ne (by omega) : eqn C J = 0), mul_zero, zero_mul, neg_zero, sub_zero, zero_sub, add_zero, zero_add]
        try ring

theorem element_aa_bb (L : Labels up down) (hab : nb ≤ na) (hn : na ≤ n) {A B J I C D M K : ℕ}
    (hA : na ≤ A) (gA : A < n) (hB : na ≤ B) (gB : B < n) (hJ : J < na) (hI : I < na) (hC : nb ≤ C) (gC : C < n) (hD : nb ≤ D) (gD : D < n) (hM : M < nb) (hK : K < nb) :
    inner (cre (up A) (cre (up B) (ann (up J) (ann (up I) (reference up down na nb)))))
        (spinSquared n up down (cre (down C) (cre (down D) (ann (down M) (ann (down K) (reference up down na nb)))))) =
      0 := by
  rw [inner_spinSquared (((((hasSz_reference (n := n) L hn (hab.trans hn)).ann_down L (a := K) (by omega)).ann_down L (a := M) (by omega)).cre_down L (a := D) (by omega)).cre_down L (a := C) (by omega))]
  simp only [raising_cre_up L, raising_ann_up (by omega : J < n) L, raising_ann_up (by omega : I < n) L, raising_cre_down (by omega : C < n) L, raising_cre_down (by omega : D < n) L, raising_ann_down L, raising_reference L hab]
  have nnA : ¬ A < na := by omega
  have mA : ¬ A < nb := by omega
  have nnB : ¬ B < na := by omega
  have mB : ¬ B < nb := by omega
  have nnC : ¬ C < nb := by omega
  have nnD : ¬ D < nb := by omega
  have nnM : M < na := by omega
  have nnK : K < na := by omega
  by_cases bJ : J < nb
  · skip
    by_cases bI : I < nb
    · skip
      by_cases bC : C < na
      · skip
        by_cases bD : D < na
        · skip
          wick L (occupiedSet up down na nb) with [nnA, mA, nnB, mB, hJ, hI, nnC, nnD, hM, nnM, hK, nnK, bJ, bI, bC, bD]
          try simp only [ite_eqn, if_true, if_false, eqn_comm B A, eqn_comm J A, eqn_comm I A, eqn_comm C A, eqn_comm D A, eqn_comm M A, eqn_comm K A, eqn_comm J B, eqn_comm I B, eqn_comm C B, eqn_comm D B, eqn_comm M B, eqn_comm K B, eqn_comm I J, eqn_comm C J, eqn_comm D J, eqn_comm M J, eqn_comm K J, eqn_comm C I, eqn_comm D I, eqn_comm M I, eqn_comm K I, eqn_comm D C, eqn_comm M C, eqn_comm K C, eqn_comm M D, eqn_comm K D, eqn_comm K M]
          try simp only [(eqn_ne (by omega) : eqn A J = 0), (eqn_ne (by omega) : eqn A I = 0), (eqn_ne (by omega) : eqn A C = 0), (eqn_ne (by omega) : eqn A D = 0), (eqn_ne (by omega) : eqn A M = 0), (eqn_ne (by omega) : eqn A K = 0), (eqn_ne (by omega) : eqn B J = 0), (eqn_ne (by omega) : eqn B I = 0), (eqn_ne (by omega) : eqn B C = 0), (eqn_ne (by omega) : eqn B D = 0), (eqn_ne (by omega) : eqn B M = 0), (eqn_ne (by omega) : eqn B K = 0), (eqn_ne (by omega) : eqn J C = 0), (eqn_ne (by omega) : eqn J D = 0), (eqn_ne (by omega) : eqn I C = 0), (eqn_ne (by omega) : eqn I D = 0), (eqn_ne (by omega) : eqn C M = 0), (eqn_ne (by omega) : eqn C K = 0), (eqn_ne (by omega) : eqn D M = 0), (eqn_ne (by omega) : eqn D K = 0), mul_zero, zero_mul, neg_zero, sub_zero, zero_sub, add_zero, zero_add]
          try ring
        · skip
          wick L (occupiedSet up down na nb) with [nnA, mA, nnB, mB, hJ, hI, nnC, nnD, hM, nnM, hK, nnK, bJ, bI, bC, bD]
          try simp only [ite_eqn, if_true, if_false, eqn_comm B A, eqn_comm J A, eqn_comm I A, eqn_comm C A, eqn_comm D A, eqn_comm M A, eqn_comm K A, eqn_comm J B, eqn_comm I B, eqn_comm C B, eqn_comm D B, eqn_comm M B, eqn_comm K B, eqn_comm I J, eqn_comm C J, eqn_comm D J, eqn_comm M J, eqn_comm K J, eqn_comm C I, eqn_comm D I, eqn_comm M I, eqn_comm K I, eqn_comm D C, eqn_comm M C, eqn_comm K C, eqn_comm M D, eqn_comm K D, eqn_comm K M]
          try simp only [(eqn_ne (by omega) : eqn A J = 0), (eqn_ne (by omega) : eqn A I = 0), (eqn_ne (by omega) : eqn A C = 0), (eqn_ne (by omega) : eqn A M = 0), (eqn_ne (by omega) : eqn A K = 0), (eqn_ne (by omega) : eqn B J = 0), (eqn_ne (by omega) : eqn B I = 0), (eqn_ne (by omega) : eqn B C = 0), (eqn_ne (by omega) : eqn B M = 0), (eqn_ne (by omega) : eqn B K = 0), (eqn_ne (by omega) : eqn J C = 0), (eqn_ne (by omega) : eqn J D = 0), (eqn_ne (by omega) : eqn I C = 0), (eqn_ne (by omega) : eqn I D = 0), (eqn_ne (by omega) : eqn C D = 0), (eqn_ne (by omega) : eqn C M = 0), (eqn_ne (by omega) : eqn C K = 0), (eqn_ne (by omega) : eqn D M = 0), (eqn_ne (by omega) : eqn D K = 0), mul_zero, zero_mul, neg_zero, sub_zero, zero_sub, add_zero, zero_add]
          try ring
      · skip
        by_cases bD : D < na
        · skip
          wick L (occupiedSet up down na nb) with [nnA, mA, nnB, mB, hJ, hI, nnC, nnD, hM, nnM, hK, nnK, bJ, bI, bC, bD]
          try simp only [ite_eqn, if_true, if_false, eqn_comm B A, eqn_comm J A, eqn_comm I A, eqn_comm C A, eqn_comm D A, eqn_comm M A, eqn_comm K A, eqn_comm J B, eqn_comm I B, eqn_comm C B, eqn_comm D B, eqn_comm M B, eqn_comm K B, eqn_comm I J, eqn_comm C J, eqn_comm D J, eqn_comm M J, eqn_comm K J, eqn_comm C I, eqn_comm D I, eqn_comm M I, eqn_comm K I, eqn_comm D C, eqn_comm M C, eqn_comm K C, eqn_comm M D, eqn_comm K D, eqn_comm K M]
          try simp only [(eqn_ne (by omega) : eqn A J = 0), (eqn_ne (by omega) : eqn A I = 0), (eqn_ne (by omega) : eqn A D = 0), (eqn_ne (by omega) : eqn A M = 0), (eqn_ne (by omega) : eqn A K = 0), (eqn_ne (by omega) : eqn B J = 0), (eqn_ne (by omega) : eqn B I = 0), (eqn_ne (by omega) : eqn B D = 0), (eqn_ne (by omega) : eqn B M = 0), (eqn_ne (by omega) : eqn B K = 0), (eqn_ne (by omega) : eqn J C = 0), (eqn_ne (by omega) : eqn J D = 0), (eqn_ne (by omega) : eqn I C = 0), (eqn_ne (by omega) : eqn I D = 0), (eqn_ne (by omega) : eqn C D = 0), (eqn_ne (by omega) : eqn C M = 0), (eqn_ne (by omega) : eqn C K = 0), (eqn_ne (by omega) : eqn D M = 0), (eqn_ne (by omega) : eqn D K = 0), mul_zero, zero_mul, neg_zero, sub_zero, zero_sub, add_zero, zero_add]
          try ring
        · skip
          wick L (occupiedSet up down na nb) with [nnA, mA, nnB, mB, hJ, hI, nnC, nnD, hM, nnM, hK, nnK, bJ, bI, bC, bD]
          try simp only [ite_eqn, if_true, if_false, eqn_comm B A, eqn_comm J A, eqn_comm I A, eqn_comm C A, eqn_comm D A, eqn_comm M A, eqn_comm K A, eqn_comm J B, eqn_comm I B, eqn_comm C B, eqn_comm D B, eqn_comm M B, eqn_comm K B, eqn_comm I J, eqn_comm C J, eqn_comm D J, eqn_comm M J, eqn_comm K J, eqn_comm C I, eqn_comm D I, eqn_comm M I, eqn_comm K I, eqn_comm D C, eqn_comm M C, eqn_comm K C, eqn_comm M D, eqn_comm K D, eqn_comm K M]
          try simp only [(eqn_ne (by omega) : eqn A J = 0), (eqn_ne (by omega) : eqn A I = 0), (eqn_ne (by omega) : eqn A M = 0), (eqn_ne (by omega) : eqn A K = 0), (eqn_ne (by omega) : eqn B J = 0), (eqn_ne (by omega) : eqn B I = 0), (eqn_ne (by omega) : eqn B M = 0), (eqn_ne (by omega) : eqn B K = 0), (eqn_ne (by omega) : eqn J C = 0), (eqn_ne (by omega) : eqn J D = 0), (eqn_ne (by omega) : eqn I C = 0), (eqn_ne (by omega) : eqn I D = 0), (eqn_ne (by omega) : eqn C M = 0), (eqn_ne (by omega) : eqn C K = 0), (eqn_ne (by omega) : eqn D M = 0), (eqn_ne (by omega) : eqn D K = 0), mul_zero, zero_mul, neg_zero, sub_zero, zero_sub, add_zero, zero_add]
          try ring
    · skip
      by_cases bC : C < na
      · skip
        by_cases bD : D < na
        · skip
          wick L (occupiedSet up down na nb) with [nnA, mA, nnB, mB, hJ, hI, nnC, nnD, hM, nnM, hK, nnK, bJ, bI, bC, bD]
          try simp only [ite_eqn, if_true, if_false, eqn_comm B A, eqn_comm J A, eqn_comm I A, eqn_comm C A, eqn_comm D A, eqn_comm M A, eqn_comm K A, eqn_comm J B, eqn_comm I B, eqn_comm C B, eqn_comm D B, eqn_comm M B, eqn_comm K B, eqn_comm I J, eqn_comm C J, eqn_comm D J, eqn_comm M J, eqn_comm K J, eqn_comm C I, eqn_comm D I, eqn_comm M I, eqn_comm K I, eqn_comm D C, eqn_comm M C, eqn_comm K C, eqn_comm M D, eqn_comm K D, eqn_comm K M]
          try simp only [(eqn_ne (by omega) : eqn A J = 0), (eqn_ne (by omega) : eqn A I = 0), (eqn_ne (by omega) : eqn A C = 0), (eqn_ne (by omega) : eqn A D = 0), (eqn_ne (by omega) : eqn A M = 0), (eqn_ne (by omega) : eqn A K = 0), (eqn_ne (by omega) : eqn B J = 0), (eqn_ne (by omega) : eqn B I = 0), (eqn_ne (by omega) : eqn B C = 0), (eqn_ne (by omega) : eqn B D = 0), (eqn_ne (by omega) : eqn B M = 0), (eqn_ne (by omega) : eqn B K = 0), (eqn_ne (by omega) : eqn J I = 0), (eqn_ne (by omega) : eqn J C = 0), (eqn_ne (by omega) : eqn J D = 0), (eqn_ne (by omega) : eqn I M = 0), (eqn_ne (by omega) : eqn I K = 0), (eqn_ne (by omega) : eqn C M = 0), (eqn_ne (by omega) : eqn C K = 0), (eqn_ne (by omega) : eqn D M = 0), (eqn_ne (by omega) : eqn D K = 0), mul_zero, zero_mul, neg_zero, sub_zero, zero_sub, add_zero, zero_add]
          try ring
        · skip
          wick L (occupiedSet up down na nb) with [nnA, mA, nnB, mB, hJ, hI, nnC, nnD, hM, nnM, hK, nnK, bJ, bI, bC, bD]
          try simp only [ite_eqn, if_true, if_false, eqn_comm B A, eqn_comm J A, eqn_comm I A, eqn_comm C A, eqn_comm D A, eqn_comm M A, eqn_comm K A, eqn_comm J B, eqn_comm I B, eqn_comm C B, eqn_comm D B, eqn_comm M B, eqn_comm K B, eqn_comm I J, eqn_comm C J, eqn_comm D J, eqn_comm M J, eqn_comm K J, eqn_comm C I, eqn_comm D I, eqn_comm M I, eqn_comm K I, eqn_comm D C, eqn_comm M C, eqn_comm K C, eqn_comm M D, eqn_comm K D, eqn_comm K M]
          try simp only [(eqn_ne (by omega) : eqn A J = 0), (eqn_ne (by omega) : eqn A I = 0), (eqn_ne (by omega) : eqn A C = 0), (eqn_ne (by omega) : eqn A M = 0), (eqn_ne (by omega) : eqn A K = 0), (eqn_ne (by omega) : eqn B J = 0), (eqn_ne (by omega) : eqn B I = 0), (eqn_ne (by omega) : eqn B C = 0), (eqn_ne (by omega) : eqn B M = 0), (eqn_ne (by omega) : eqn B K = 0), (eqn_ne (by omega) : eqn J I = 0), (eqn_ne (by omega) : eqn J C = 0), (eqn_ne (by omega) : eqn J D = 0), (eqn_ne (by omega) : eqn I D = 0), (eqn_ne (by omega) : eqn I M = 0), (eqn_ne (by omega) : eqn I K = 0), (eqn_ne (by omega) : eqn C D = 0), (eqn_ne (by omega) : eqn C M = 0), (eqn_ne (by omega) : eqn C K = 0), (eqn_ne (by omega) : eqn D M = 0), (eqn_ne (by omega) : eqn D K = 0), mul_zero, zero_mul, neg_zero, sub_zero, zero_sub, add_zero, zero_add]
          try ring
      · skip
        by_cases bD : D < na
        · skip
          wick L (occupiedSet up down na nb) with [nnA, mA, nnB, mB, hJ, hI, nnC, nnD, hM, nnM, hK, nnK, bJ, bI, bC, bD]
          try simp only [ite_eqn, if_true, if_false, eqn_comm B A, eqn_comm J A, eqn_comm I A, eqn_comm C A, eqn_comm D A, eqn_comm M A, eqn_comm K A, eqn_comm J B, eqn_comm I B, eqn_comm C B, eqn_comm D B, eqn_comm M B, eqn_comm K B, eqn_comm I J, eqn_comm C J, eqn_comm D J, eqn_comm M J, eqn_comm K J, eqn_comm C I, eqn_comm D I, eqn_comm M I, eqn_comm K I, eqn_comm D C, eqn_comm M C, eqn_comm K C, eqn_comm M D, eqn_comm K D, eqn_comm K M]
          try simp only [(eqn_ne (by omega) : eqn A J = 0), (eqn_ne (by omega) : eqn A I = 0), (eqn_ne (by omega) : eqn A D = 0), (eqn_ne (by omega) : eqn A M = 0), (eqn_ne (by omega) : eqn A K = 0), (eqn_ne (by omega) : eqn B J = 0), (eqn_ne (by omega) : eqn B I = 0), (eqn_ne (by omega) : eqn B D = 0), (eqn_ne (by omega) : eqn B M = 0), (eqn_ne (by omega) : eqn B K = 0), (eqn_ne (by omega) : eqn J I = 0), (eqn_ne (by omega) : eqn J C = 0), (eqn_ne (by omega) : eqn J D = 0), (eqn_ne (by omega) : eqn I C = 0), (eqn_ne (by omega) : eqn I M = 0), (eqn_ne (by omega) : eqn I K = 0), (eqn_ne (by omega) : eqn C D = 0), (eqn_ne (by omega) : eqn C M = 0), (eqn_ne (by omega) : eqn C K = 0), (eqn_ne (by omega) : eqn D M = 0), (eqn_ne (by omega) : eqn D K = 0), mul_zero, zero_mul, neg_zero, sub_zero, zero_sub, add_zero, zero_add]
          try ring
        · skip
          wick L (occupiedSet up down na nb) with [nnA, mA, nnB, mB, hJ, hI, nnC, nnD, hM, nnM, hK, nnK, bJ, bI, bC, bD]
          try simp only [ite_eqn, if_true, if_false, eqn_comm B A, eqn_comm J A, eqn_comm I A, eqn_comm C A, eqn_comm D A, eqn_comm M A, eqn_comm K A, eqn_comm J B, eqn_comm I B, eqn_comm C B, eqn_comm D B, eqn_comm M B, eqn_comm K B, eqn_comm I J, eqn_comm C J, eqn_comm D J, eqn_comm M J, eqn_comm K J, eqn_comm C I, eqn_comm D I, eqn_comm M I, eqn_comm K I, eqn_comm D C, eqn_comm M C, eqn_comm K C, eqn_comm M D, eqn_comm K D, eqn_comm K M]
          try simp only [(eqn_ne (by omega) : eqn A J = 0), (eqn_ne (by omega) : eqn A I = 0), (eqn_ne (by omega) : eqn A M = 0), (eqn_ne (by omega) : eqn A K = 0), (eqn_ne (by omega) : eqn B J = 0), (eqn_ne (by omega) : eqn B I = 0), (eqn_ne (by omega) : eqn B M = 0), (eqn_ne (by omega) : eqn B K = 0), (eqn_ne (by omega) : eqn J I = 0), (eqn_ne (by omega) : eqn J C = 0), (eqn_ne (by omega) : eqn J D = 0), (eqn_ne (by omega) : eqn I C = 0), (eqn_ne (by omega) : eqn I D = 0), (eqn_ne (by omega) : eqn I M = 0), (eqn_ne (by omega) : eqn I K = 0), (eqn_ne (by omega) : eqn C M = 0), (eqn_ne (by omega) : eqn C K = 0), (eqn_ne (by omega) : eqn D M = 0), (eqn_ne (by omega) : eqn D K = 0), mul_zero, zero_mul, neg_zero, sub_zero, zero_sub, add_zero, zero_add]
          try ring
  · skip
    by_cases bI : I < nb
    · skip
      by_cases bC : C < na
      · skip
        by_cases bD : D < na
        · skip
          wick L (occupiedSet up down na nb) with [nnA, mA, nnB, mB, hJ, hI, nnC, nnD, hM, nnM, hK, nnK, bJ, bI, bC, bD]
          try simp only [ite_eqn, if_true, if_false, eqn_comm B A, eqn_comm J A, eqn_comm I A, eqn_comm C A, eqn_comm D A, eqn_comm M A, eqn_comm K A, eqn_comm J B, eqn_comm I B, eqn_comm C B, eqn_comm D B, eqn_comm M B, eqn_comm K B, eqn_comm I J, eqn_comm C J, eqn_comm D J, eqn_comm M J, eqn_comm K J, eqn_comm C I, eqn_comm D I, eqn_comm M I, eqn_comm K I, eqn_comm D C, eqn_comm M C, eqn_comm K C, eqn_comm M D, eqn_comm K D, eqn_comm K M]
          try simp only [(eqn_ne (by omega) : eqn A J = 0), (eqn_ne (by omega) : eqn A I = 0), (eqn_ne (by omega) : eqn A C = 0), (eqn_ne (by omega) : eqn A D = 0), (eqn_ne (by omega) : eqn A M = 0), (eqn_ne (by omega) : eqn A K = 0), (eqn_ne (by omega) : eqn B J = 0), (eqn_ne (by omega) : eqn B I = 0), (eqn_ne (by omega) : eqn B C = 0), (eqn_ne (by omega) : eqn B D = 0), (eqn_ne (by omega) : eqn B M = 0), (eqn_ne (by omega) : eqn B K = 0), (eqn_ne (by omega) : eqn J I = 0), (eqn_ne (by omega) : eqn J M = 0), (eqn_ne (by omega) : eqn J K = 0), (eqn_ne (by omega) : eqn I C = 0), (eqn_ne (by omega) : eqn I D = 0), (eqn_ne (by omega) : eqn C M = 0), (eqn_ne (by omega) : eqn C K = 0), (eqn_ne (by omega) : eqn D M = 0), (eqn_ne (by omega) : eqn D K = 0), mul_zero, zero_mul, neg_zero, sub_zero, zero_sub, add_zero, zero_add]
          try ring
        · skip
          wick L (occupiedSet up down na nb) with [nnA, mA, nnB, mB, hJ, hI, nnC, nnD, hM, nnM, hK, nnK, bJ, bI, bC, bD]
          try simp only [ite_eqn, if_true, if_false, eqn_comm B A, eqn_comm J A, eqn_comm I A, eqn_comm C A, eqn_comm D A, eqn_comm M A, eqn_comm K A, eqn_comm J B, eqn_comm I B, eqn_comm C B, eqn_comm D B, eqn_comm M B, eqn_comm K B, eqn_comm I J, eqn_comm C J, eqn_comm D J, eqn_comm M J, eqn_comm K J, eqn_comm C I, eqn_comm D I, eqn_comm M I, eqn_comm K I, eqn_comm D C, eqn_comm M C, eqn_comm K C, eqn_comm M D, eqn_comm K D, eqn_comm K M]
          try simp only [(eqn_ne (by omega) : eqn A J = 0), (eqn_ne (by omega) : eqn A I = 0), (eqn_ne (by omega) : eqn A C = 0), (eqn_ne (by omega) : eqn A M = 0), (eqn_ne (by omega) : eqn A K = 0), (eqn_ne (by omega) : eqn B J = 0), (eqn_ne (by omega) : eqn B I = 0), (eqn_ne (by omega) : eqn B C = 0), (eqn_ne (by omega) : eqn B M = 0), (eqn_ne (by omega) : eqn B K = 0), (eqn_ne (by omega) : eqn J I = 0), (eqn_ne (by omega) : eqn J D = 0), (eqn_ne (by omega) : eqn J M = 0), (eqn_ne (by omega) : eqn J K = 0), (eqn_ne (by omega) : eqn I C = 0), (eqn_ne (by omega) : eqn I D = 0), (eqn_ne (by omega) : eqn C D = 0), (eqn_ne (by omega) : eqn C M = 0), (eqn_ne (by omega) : eqn C K = 0), (eqn_ne (by omega) : eqn D M = 0), (eqn_ne (by omega) : eqn D K = 0), mul_zero, zero_mul, neg_zero, sub_zero, zero_sub, add_zero, zero_add]
          try ring
      · skip
        by_cases bD : D < na
        · skip
          wick L (occupiedSet up down na nb) with [nnA, mA, nnB, mB, hJ, hI, nnC, nnD, hM, nnM, hK, nnK, bJ, bI, bC, bD]
          try simp only [ite_eqn, if_true, if_false, eqn_comm B A, eqn_comm J A, eqn_comm I A, eqn_comm C A, eqn_comm D A, eqn_comm M A, eqn_comm K A, eqn_comm J B, eqn_comm I B, eqn_comm C B, eqn_comm D B, eqn_comm M B, eqn_comm K B, eqn_comm I J, eqn_comm C J, eqn_comm D J, eqn_comm M J, eqn_comm K J, eqn_comm C I, eqn_comm D I, eqn_comm M I, eqn_comm K I, eqn_comm D C, eqn_comm M C, eqn_comm K C, eqn_comm M D, eqn_comm K D, eqn_comm K M]
          try simp only [(eqn_ne (by omega) : eqn A J = 0), (eqn_ne (by omega) : eqn A I = 0), (eqn_ne (by omega) : eqn A D = 0), (eqn_ne (by omega) : eqn A M = 0), (eqn_ne (by omega) : eqn A K = 0), (eqn_ne (by omega) : eqn B J = 0), (eqn_ne (by omega) : eqn B I = 0), (eqn_ne (by omega) : eqn B D = 0), (eqn_ne (by omega) : eqn B M = 0), (eqn_ne (by omega) : eqn B K = 0), (eqn_ne (by omega) : eqn J I = 0), (eqn_ne (by omega) : eqn J C = 0), (eqn_ne (by omega) : eqn J M = 0), (eqn_ne (by omega) : eqn J K = 0), (eqn_ne (by omega) : eqn I C = 0), (eqn_ne (by omega) : eqn I D = 0), (eqn_ne (by omega) : eqn C D = 0), (eqn_ne (by omega) : eqn C M = 0), (eqn_ne (by omega) : eqn C K = 0), (eqn_ne (by omega) : eqn D M = 0), (eqn_ne (by omega) : eqn D K = 0), mul_zero, zero_mul, neg_zero, sub_zero, zero_sub, add_zero, zero_add]
          try ring
        · skip
          wick L (occupiedSet up down na nb) with [nnA, mA, nnB, mB, hJ, hI, nnC, nnD, hM, nnM, hK, nnK, bJ, bI, bC, bD]
          try simp only [ite_eqn, if_true, if_false, eqn_comm B A, eqn_comm J A, eqn_comm I A, eqn_comm C A, eqn_comm D A, eqn_comm M A, eqn_comm K A, eqn_comm J B, eqn_comm I B, eqn_comm C B, eqn_comm D B, eqn_comm M B, eqn_comm K B, eqn_comm I J, eqn_comm C J, eqn_comm D J, eqn_comm M J, eqn_comm K J, eqn_comm C I, eqn_comm D I, eqn_comm M I, eqn_comm K I, eqn_comm D C, eqn_comm M C, eqn_comm K C, eqn_comm M D, eqn_comm K D, eqn_comm K M]
          try simp only [(eqn_ne (by omega) : eqn A J = 0), (eqn_ne (by omega) : eqn A I = 0), (eqn_ne (by omega) : eqn A M = 0), (eqn_ne (by omega) : eqn A K = 0), (eqn_ne (by omega) : eqn B J = 0), (eqn_ne (by omega) : eqn B I = 0), (eqn_ne (by omega) : eqn B M = 0), (eqn_ne (by omega) : eqn B K = 0), (eqn_ne (by omega) : eqn J I = 0), (eqn_ne (by omega) : eqn J C = 0), (eqn_ne (by omega) : eqn J D = 0), (eqn_ne (by omega) : eqn J M = 0), (eqn_ne (by omega) : eqn J K = 0), (eqn_ne (by omega) : eqn I C = 0), (eqn_ne (by omega) : eqn I D = 0), (eqn_ne (by omega) : eqn C M = 0), (eqn_ne (by omega) : eqn C K = 0), (eqn_ne (by omega) : eqn D M = 0), (eqn_ne (by omega) : eqn D K = 0), mul_zero, zero_mul, neg_zero, sub_zero, zero_sub, add_zero, zero_add]
          try ring
    · skip
      by_cases bC : C < na
      · skip
        by_cases bD : D < na
        · skip
          wick L (occupiedSet up down na nb) with [nnA, mA, nnB, mB, hJ, hI, nnC, nnD, hM, nnM, hK, nnK, bJ, bI, bC, bD]
          try simp only [ite_eqn, if_true, if_false, eqn_comm B A, eqn_comm J A, eqn_comm I A, eqn_comm C A, eqn_comm D A, eqn_comm M A, eqn_comm K A, eqn_comm J B, eqn_comm I B, eqn_comm C B, eqn_comm D B, eqn_comm M B, eqn_comm K B, eqn_comm I J, eqn_comm C J, eqn_comm D J, eqn_comm M J, eqn_comm K J, eqn_comm C I, eqn_comm D I, eqn_comm M I, eqn_comm K I, eqn_comm D C, eqn_comm M C, eqn_comm K C, eqn_comm M D, eqn_comm K D, eqn_comm K M]
          try simp only [(eqn_ne (by omega) : eqn A J = 0), (eqn_ne (by omega) : eqn A I = 0), (eqn_ne (by omega) : eqn A C = 0), (eqn_ne (by omega) : eqn A D = 0), (eqn_ne (by omega) : eqn A M = 0), (eqn_ne (by omega) : eqn A K = 0), (eqn_ne (by omega) : eqn B J = 0), (eqn_ne (by omega) : eqn B I = 0), (eqn_ne (by omega) : eqn B C = 0), (eqn_ne (by omega) : eqn B D = 0), (eqn_ne (by omega) : eqn B M = 0), (eqn_ne (by omega) : eqn B K = 0), (eqn_ne (by omega) : eqn J M = 0), (eqn_ne (by omega) : eqn J K = 0), (eqn_ne (by omega) : eqn I M = 0), (eqn_ne (by omega) : eqn I K = 0), (eqn_ne (by omega) : eqn C M = 0), (eqn_ne (by omega) : eqn C K = 0), (eqn_ne (by omega) : eqn D M = 0), (eqn_ne (by omega) : eqn D K = 0), mul_zero, zero_mul, neg_zero, sub_zero, zero_sub, add_zero, zero_add]
          try ring
        · skip
          wick L (occupiedSet up down na nb) with [nnA, mA, nnB, mB, hJ, hI, nnC, nnD, hM, nnM, hK, nnK, bJ, bI, bC, bD]
          try simp only [ite_eqn, if_true, if_false, eqn_comm B A, eqn_comm J A, eqn_comm I A, eqn_comm C A, eqn_comm D A, eqn_comm M A, eqn_comm K A, eqn_comm J B, eqn_comm I B, eqn_comm C B, eqn_comm D B, eqn_comm M B, eqn_comm K B, eqn_comm I J, eqn_comm C J, eqn_comm D J, eqn_comm M J, eqn_comm K J, eqn_comm C I, eqn_comm D I, eqn_comm M I, eqn_comm K I, eqn_comm D C, eqn_comm M C, eqn_comm K C, eqn_comm M D, eqn_comm K D, eqn_comm K M]
          try simp only [(eqn_ne (by omega) : eqn A J = 0), (eqn_ne (by omega) : eqn A I = 0), (eqn_ne (by omega) : eqn A C = 0), (eqn_ne (by omega) : eqn A M = 0), (eqn_ne (by omega) : eqn A K = 0), (eqn_ne (by omega) : eqn B J = 0), (eqn_ne (by omega) : eqn B I = 0), (eqn_ne (by omega) : eqn B C = 0), (eqn_ne (by omega) : eqn B M = 0), (eqn_ne (by omega) : eqn B K = 0), (eqn_ne (by omega) : eqn J D = 0), (eqn_ne (by omega) : eqn J M = 0), (eqn_ne (by omega) : eqn J K = 0), (eqn_ne (by omega) : eqn I D = 0), (eqn_ne (by omega) : eqn I M = 0), (eqn_ne (by omega) : eqn I K = 0), (eqn_ne (by omega) : eqn C D = 0), (eqn_ne (by omega) : eqn C M = 0), (eqn_ne (by omega) : eqn C K = 0), (eqn_ne (by omega) : eqn D M = 0), (eqn_ne (by omega) : eqn D K = 0), mul_zero, zero_mul, neg_zero, sub_zero, zero_sub, add_zero, zero_add]
          try ring
      · skip
        by_cases bD : D < na
        · skip
          wick L (occupiedSet up down na nb) with [nnA, mA, nnB, mB, hJ, hI, nnC, nnD, hM, nnM, hK, nnK, bJ, bI, bC, bD]
          try simp only [ite_eqn, if_true, if_false, eqn_comm B A, eqn_comm J A, eqn_comm I A, eqn_comm C A, eqn_comm D A, eqn_comm M A, eqn_comm K A, eqn_comm J B, eqn_comm I B, eqn_comm C B, eqn_comm D B, eqn_comm M B, eqn_comm K B, eqn_comm I J, eqn_comm C J, eqn_comm D J, eqn_comm M J, eqn_comm K J, eqn_comm C I, eqn_comm D I, eqn_comm M I, eqn_comm K I, eqn_comm D C, eqn_comm M C, eqn_comm K C, eqn_comm M D, eqn_comm K D, eqn_comm K M]
          try simp only [(eqn_ne (by omega) : eqn A J = 0), (eqn_ne (by omega) : eqn A I = 0), (eqn_ne (by omega) : eqn A D = 0), (eqn_ne (by omega) : eqn A M = 0), (eqn_ne (by omega) : eqn A K = 0), (eqn_ne (by omega) : eqn B J = 0), (eqn_ne (by omega) : eqn B I = 0), (eqn_ne (by omega) : eqn B D = 0), (eqn_ne (by omega) : eqn B M = 0), (eqn_ne (by omega) : eqn B K = 0), (eqn_ne (by omega) : eqn J C = 0), (eqn_ne (by omega) : eqn J M = 0), (eqn_ne (by omega) : eqn J K = 0), (eqn_ne (by omega) : eqn I C = 0), (eqn_ne (by omega) : eqn I M = 0), (eqn_ne (by omega) : eqn I K = 0), (eqn_ne (by omega) : eqn C D = 0), (eqn_ne (by omega) : eqn C M = 0), (eqn_ne (by omega) : eqn C K = 0), (eqn_ne (by omega) : eqn D M = 0), (eqn_ne (by omega) : eqn D K = 0), mul_zero, zero_mul, neg_zero, sub_zero, zero_sub, add_zero, zero_add]
          try ring
        · skip
          wick L (occupiedSet up down na nb) with [nnA, mA, nnB, mB, hJ, hI, nnC, nnD, hM, nnM, hK, nnK, bJ, bI, bC, bD]
          try simp only [ite_eqn, if_true, if_false, eqn_comm B A, eqn_comm J A, eqn_comm I A, eqn_comm C A, eqn_comm D A, eqn_comm M A, eqn_comm K A, eqn_comm J B, eqn_comm I B, eqn_comm C B, eqn_comm D B, eqn_comm M B, eqn_comm K B, eqn_comm I J, eqn_comm C J, eqn_comm D J, eqn_comm M J, eqn_comm K J, eqn_comm C I, eqn_comm D I, eqn_comm M I, eqn_comm K I, eqn_comm D C, eqn_comm M C, eqn_comm K C, eqn_comm M D, eqn_comm K D, eqn_comm K M]
          try simp only [(eqn_ne (by omega) : eqn A J = 0), (eqn_ne (by omega) : eqn A I = 0), (eqn_ne (by omega) : eqn A M = 0), (eqn_ne (by omega) : eqn A K = 0), (eqn_ne (by omega) : eqn B J = 0), (eqn_ne (by omega) : eqn B I = 0), (eqn_ne (by omega) : eqn B M = 0), (eqn_ne (by omega) : eqn B K = 0), (eqn_ne (by omega) : eqn J C = 0), (eqn_ne (by omega) : eqn J D = 0), (eqn_ne (by omega) : eqn J M = 0), (eqn_ne (by omega) : eqn J K = 0), (eqn_ne (by omega) : eqn I C = 0), (eqn_ne (by omega) : eqn I D = 0), (eqn_ne (by omega) : eqn I M = 0), (eqn_ne (by omega) : eqn I K = 0), (eqn_ne (by omega) : eqn C M = 0), (eqn_ne (by omega) : eqn C K = 0), (eqn_ne (by omega) : eqn D M = 0), (eqn_ne (by omega) : eqn D K = 0), mul_zero, zero_mul, neg_zero, sub_zero, zero_sub, add_zero, zero_add]
          try ring

theorem element_aa_ab (L : Labels up down) (hab : nb ≤ na) (hn : na ≤ n) {A B J I C D M K : ℕ}
    (hA : na ≤ A) (gA : A < n) (hB : na ≤ B) (gB : B < n) (hJ : J < na) (hI : I < na) (hC : na ≤ C) (gC : C < n) (hD : nb ≤ D) (gD : D < n) (hM : M < nb) (hK : K < na) :
    inner (cre (up A) (cre (up B) (ann (up J) (ann (up I) (reference up down na nb)))))
        (spinSquared n up down (cre (up C) (cre (down D) (ann (down M) (ann (up K) (reference up down na nb)))))) =
      -(eqn I K * eqn A C * eqn M J * eqn B D) + eqn J K * eqn A C * eqn M I * eqn B D +
      eqn I K * eqn B C * eqn M J * eqn A D - eqn J K * eqn B C * eqn M I * eqn A D := by
  rw [inner_spinSquared (((((hasSz_reference (n := n) L hn (hab.trans hn)).ann_up L (a := K) (by omega)).ann_down L (a := M) (by omega)).cre_down L (a := D) (by omega)).cre_up L (a := C) (by omega))]
  simp only [raising_cre_up L, raising_ann_up (by omega : J < n) L, raising_ann_up (by omega : I < n) L, raising_cre_down (by omega : D < n) L, raising_ann_down L, raising_ann_up (by omega : K < n) L, raising_reference L hab]
  have nnA : ¬ A < na := by omega
  have mA : ¬ A < nb := by omega
  have nnB : ¬ B < na := by omega
  have mB : ¬ B < nb := by omega
  have nnC : ¬ C < na := by omega
  have mC : ¬ C < nb := by omega
  have nnD : ¬ D < nb := by omega
  have nnM : M < na := by omega
  by_cases bJ : J < nb
  · skip
    by_cases bI : I < nb
    · skip
      by_cases bD : D < na
      · skip
        by_cases bK : K < nb
        · skip
          wick L (occupiedSet up down na nb) with [nnA, mA, nnB, mB, hJ, hI, nnC, mC, nnD, hM, nnM, hK, bJ, bI, bD, bK]
          try simp only [ite_eqn, if_true, if_false, eqn_comm B A, eqn_comm J A, eqn_comm I A, eqn_comm C A, eqn_comm D A, eqn_comm M A, eqn_comm K A, eqn_comm J B, eqn_comm I B, eqn_comm C B, eqn_comm D B, eqn_comm M B, eqn_comm K B, eqn_comm I J, eqn_comm C J, eqn_comm D J, eqn_comm M J, eqn_comm K J, eqn_comm C I, eqn_comm D I, eqn_comm M I, eqn_comm K I, eqn_comm D C, eqn_comm M C, eqn_comm K C, eqn_comm M D, eqn_comm K D, eqn_comm K M]
          try simp only [(eqn_ne (by omega) : eqn A J = 0), (eqn_ne (by omega) : eqn A I = 0), (eqn_ne (by omega) : eqn A D = 0), (eqn_ne (by omega) : eqn A M = 0), (eqn_ne (by omega) : eqn A K = 0), (eqn_ne (by omega) : eqn B J = 0), (eqn_ne (by omega) : eqn B I = 0), (eqn_ne (by omega) : eqn B D = 0), (eqn_ne (by omega) : eqn B M = 0), (eqn_ne (by omega) : eqn B K = 0), (eqn_ne (by omega) : eqn J C = 0), (eqn_ne (by omega) : eqn J D = 0), (eqn_ne (by omega) : eqn I C = 0), (eqn_ne (by omega) : eqn I D = 0), (eqn_ne (by omega) : eqn C D = 0), (eqn_ne (by omega) : eqn C M = 0), (eqn_ne (by omega) : eqn C K = 0), (eqn_ne (by omega) : eqn D M = 0), (eqn_ne (by omega) : eqn D K = 0), mul_zero, zero_mul, neg_zero, sub_zero, zero_sub, add_zero, zero_add]
          try ring
        · skip
          wick L (occupiedSet up down na nb) with [nnA, mA, nnB, mB, hJ, hI, nnC, mC, nnD, hM, nnM, hK, bJ, bI, bD, bK]
          try simp only [ite_eqn, if_true, if_false, eqn_comm B A, eqn_comm J A, eqn_comm I A, eqn_comm C A, eqn_comm D A, eqn_comm M A, eqn_comm K A, eqn_comm J B, eqn_comm I B, eqn_comm C B, eqn_comm D B, eqn_comm M B, eqn_comm K B, eqn_comm I J, eqn_comm C J, eqn_comm D J, eqn_comm M J, eqn_comm K J, eqn_comm C I, eqn_comm D I, eqn_comm M I, eqn_comm K I, eqn_comm D C, eqn_comm M C, eqn_comm K C, eqn_comm M D, eqn_comm K D, eqn_comm K M]
          try simp only [(eqn_ne (by omega) : eqn A J = 0), (eqn_ne (by omega) : eqn A I = 0), (eqn_ne (by omega) : eqn A D = 0), (eqn_ne (by omega) : eqn A M = 0), (eqn_ne (by omega) : eqn A K = 0), (eqn_ne (by omega) : eqn B J = 0), (eqn_ne (by omega) : eqn B I = 0), (eqn_ne (by omega) : eqn B D = 0), (eqn_ne (by omega) : eqn B M = 0), (eqn_ne (by omega) : eqn B K = 0), (eqn_ne (by omega) : eqn J C = 0), (eqn_ne (by omega) : eqn J D = 0), (eqn_ne (by omega) : eqn J K = 0), (eqn_ne (by omega) : eqn I C = 0), (eqn_ne (by omega) : eqn I D = 0), (eqn_ne (by omega) : eqn I K = 0), (eqn_ne (by omega) : eqn C D = 0), (eqn_ne (by omega) : eqn C M = 0), (eqn_ne (by omega) : eqn C K = 0), (eqn_ne (by omega) : eqn D M = 0), (eqn_ne (by omega) : eqn M K = 0), mul_zero, zero_mul, neg_zero, sub_zero, zero_sub, add_zero, zero_add]
          try ring
      · skip
        by_cases bK : K < nb
        · skip
          wick L (occupiedSet up down na nb) with [nnA, mA, nnB, mB, hJ, hI, nnC, mC, nnD, hM, nnM, hK, bJ, bI, bD, bK]
          try simp only [ite_eqn, if_true, if_false, eqn_comm B A, eqn_comm J A, eqn_comm I A, eqn_comm C A, eqn_comm D A, eqn_comm M A, eqn_comm K A, eqn_comm J B, eqn_comm I B, eqn_comm C B, eqn_comm D B, eqn_comm M B, eqn_comm K B, eqn_comm I J, eqn_comm C J, eqn_comm D J, eqn_comm M J, eqn_comm K J, eqn_comm C I, eqn_comm D I, eqn_comm M I, eqn_comm K I, eqn_comm D C, eqn_comm M C, eqn_comm K C, eqn_comm M D, eqn_comm K D, eqn_comm K M]
          try simp only [(eqn_ne (by omega) : eqn A J = 0), (eqn_ne (by omega) : eqn A I = 0), (eqn_ne (by omega) : eqn A M = 0), (eqn_ne (by omega) : eqn A K = 0), (eqn_ne (by omega) : eqn B J = 0), (eqn_ne (by omega) : eqn B I = 0), (eqn_ne (by omega) : eqn B M = 0), (eqn_ne (by omega) : eqn B K = 0), (eqn_ne (by omega) : eqn J C = 0), (eqn_ne (by omega) : eqn J D = 0), (eqn_ne (by omega) : eqn I C = 0), (eqn_ne (by omega) : eqn I D = 0), (eqn_ne (by omega) : eqn C M = 0), (eqn_ne (by omega) : eqn C K = 0), (eqn_ne (by omega) : eqn D M = 0), (eqn_ne (by omega) : eqn D K = 0), mul_zero, zero_mul, neg_zero, sub_zero, zero_sub, add_zero, zero_add]
          try ring
        · skip
          wick L (occupiedSet up down na nb) with [nnA, mA, nnB, mB, hJ, hI, nnC, mC, nnD, hM, nnM, hK, bJ, bI, bD, bK]
          try simp only [ite_eqn, if_true, if_false, eqn_comm B A, eqn_comm J A, eqn_comm I A, eqn_comm C A, eqn_comm D A, eqn_comm M A, eqn_comm K A, eqn_comm J B, eqn_comm I B, eqn_comm C B, eqn_comm D B, eqn_comm M B, eqn_comm K B, eqn_comm I J, eqn_comm C J, eqn_comm D J, eqn_comm M J, eqn_comm K J, eqn_comm C I, eqn_comm D I, eqn_comm M I, eqn_comm K I, eqn_comm D C, eqn_comm M C, eqn_comm K C, eqn_comm M D, eqn_comm K D, eqn_comm K M]
          try simp only [(eqn_ne (by omega) : eqn A J = 0), (eqn_ne (by omega) : eqn A I = 0), (eqn_ne (by omega) : eqn A M = 0), (eqn_ne (by omega) : eqn A K = 0), (eqn_ne (by omega) : eqn B J = 0), (eqn_ne (by omega) : eqn B I = 0), (eqn_ne (by omega) : eqn B M = 0), (eqn_ne (by omega) : eqn B K = 0), (eqn_ne (by omega) : eqn J C = 0), (eqn_ne (by omega) : eqn J D = 0), (eqn_ne (by omega) : eqn J K = 0), (eqn_ne (by omega) : eqn I C = 0), (eqn_ne (by omega) : eqn I D = 0), (eqn_ne (by omega) : eqn I K = 0), (eqn_ne (by omega) : eqn C M = 0), (eqn_ne (by omega) : eqn C K = 0), (eqn_ne (by omega) : eqn D M = 0), (eqn_ne (by omega) : eqn D K = 0), (eqn_ne (by omega) : eqn M K = 0), mul_zero, zero_mul, neg_zero, sub_zero, zero_sub, add_zero, zero_add]
          try ring
    · skip
      by_cases bD : D < na
      · skip
        by_cases bK : K < nb
        · skip
          wick L (occupiedSet up down na nb) with [nnA, mA, nnB, mB, hJ, hI, nnC, mC, nnD, hM, nnM, hK, bJ, bI, bD, bK]
          try simp only [ite_eqn, if_true, if_false, eqn_comm B A, eqn_comm J A, eqn_comm I A, eqn_comm C A, eqn_comm D A, eqn_comm M A, eqn_comm K A, eqn_comm J B, eqn_comm I B, eqn_comm C B, eqn_comm D B, eqn_comm M B, eqn_comm K B, eqn_comm I J, eqn_comm C J, eqn_comm D J, eqn_comm M J, eqn_comm K J, eqn_comm C I, eqn_comm D I, eqn_comm M I, eqn_comm K I, eqn_comm D C, eqn_comm M C, eqn_comm K C, eqn_comm M D, eqn_comm K D, eqn_comm K M]
          try simp only [(eqn_ne (by omega) : eqn A J = 0), (eqn_ne (by omega) : eqn A I = 0), (eqn_ne (by omega) : eqn A D = 0), (eqn_ne (by omega) : eqn A M = 0), (eqn_ne (by omega) : eqn A K = 0), (eqn_ne (by omega) : eqn B J = 0), (eqn_ne (by omega) : eqn B I = 0), (eqn_ne (by omega) : eqn B D = 0), (eqn_ne (by omega) : eqn B M = 0), (eqn_ne (by omega) : eqn B K = 0), (eqn_ne (by omega) : eqn J I = 0), (eqn_ne (by omega) : eqn J C = 0), (eqn_ne (by omega) : eqn J D = 0), (eqn_ne (by omega) : eqn I C = 0), (eqn_ne (by omega) : eqn I M = 0), (eqn_ne (by omega) : eqn I K = 0), (eqn_ne (by omega) : eqn C D = 0), (eqn_ne (by omega) : eqn C M = 0), (eqn_ne (by omega) : eqn C K = 0), (eqn_ne (by omega) : eqn D M = 0), (eqn_ne (by omega) : eqn D K = 0), mul_zero, zero_mul, neg_zero, sub_zero, zero_sub, add_zero, zero_add]
          try ring
        · skip
          wick L (occupiedSet up down na nb) with [nnA, mA, nnB, mB, hJ, hI, nnC, mC, nnD, hM, nnM, hK, bJ, bI, bD, bK]
          try simp only [ite_eqn, if_true, if_false, eqn_comm B A, eqn_comm J A, eqn_comm I A, eqn_comm C A, eqn_comm D A, eqn_comm M A, eqn_comm K A, eqn_comm J B, eqn_comm I B, eqn_comm C B, eqn_comm D B, eqn_comm M B, eqn_comm K B, eqn_comm I J, eqn_comm C J, eqn_comm D J, eqn_comm M J, eqn_comm K J, eqn_comm C I, eqn_comm D I, eqn_comm M I, eqn_comm K I, eqn_comm D C, eqn_comm M C, eqn_comm K C, eqn_comm M D, eqn_comm K D, eqn_comm K M]
          try simp only [(eqn_ne (by omega) : eqn A J = 0), (eqn_ne (by omega) : eqn A I = 0), (eqn_ne (by omega) : eqn A D = 0), (eqn_ne (by omega) : eqn A M = 0), (eqn_ne (by omega) : eqn A K = 0), (eqn_ne (by omega) : eqn B J = 0), (eqn_ne (by omega) : eqn B I = 0), (eqn_ne (by omega) : eqn B D = 0), (eqn_ne (by omega) : eqn B M = 0), (eqn_ne (by omega) : eqn B K = 0), (eqn_ne (by omega) : eqn J I = 0), (eqn_ne (by omega) : eqn J C = 0), (eqn_ne (by omega) : eqn J D = 0), (eqn_ne (by omega) : eqn J K = 0), (eqn_ne (by omega) : eqn I C = 0), (eqn_ne (by omega) : eqn I M = 0), (eqn_ne (by omega) : eqn C D = 0), (eqn_ne (by omega) : eqn C M = 0), (eqn_ne (by omega) : eqn C K = 0), (eqn_ne (by omega) : eqn D M = 0), (eqn_ne (by omega) : eqn M K = 0), mul_zero, zero_mul, neg_zero, sub_zero, zero_sub, add_zero, zero_add]
          try ring
      · skip
        by_cases bK : K < nb
        · skip
          wick L (occupiedSet up down na nb) with [nnA, mA, nnB, mB, hJ, hI, nnC, mC, nnD, hM, nnM, hK, bJ, bI, bD, bK]
          try simp only [ite_eqn, if_true, if_false, eqn_comm B A, eqn_comm J A, eqn_comm I A, eqn_comm C A, eqn_comm D A, eqn_comm M A, eqn_comm K A, eqn_comm J B, eqn_comm I B, eqn_comm C B, eqn_comm D B, eqn_comm M B, eqn_comm K B, eqn_comm I J, eqn_comm C J, eqn_comm D J, eqn_comm M J, eqn_comm K J, eqn_comm C I, eqn_comm D I, eqn_comm M I, eqn_comm K I, eqn_comm D C, eqn_comm M C, eqn_comm K C, eqn_comm M D, eqn_comm K D, eqn_comm K M]
          try simp only [(eqn_ne (by omega) : eqn A J = 0), (eqn_ne (by omega) : eqn A I = 0), (eqn_ne (by omega) : eqn A M = 0), (eqn_ne (by omega) : eqn A K = 0), (eqn_ne (by omega) : eqn B J = 0), (eqn_ne (by omega) : eqn B I = 0), (eqn_ne (by omega) : eqn B M = 0), (eqn_ne (by omega) : eqn B K = 0), (eqn_ne (by omega) : eqn J I = 0), (eqn_ne (by omega) : eqn J C = 0), (eqn_ne (by omega) : eqn J D = 0), (eqn_ne (by omega) : eqn I C = 0), (eqn_ne (by omega) : eqn I D = 0), (eqn_ne (by omega) : eqn I M = 0), (eqn_ne (by omega) : eqn I K = 0), (eqn_ne (by omega) : eqn C M = 0), (eqn_ne (by omega) : eqn C K = 0), (eqn_ne (by omega) : eqn D M = 0), (eqn_ne (by omega) : eqn D K = 0), mul_zero, zero_mul, neg_zero, sub_zero, zero_sub, add_zero, zero_add]
          try ring
        · skip
          wick L (occupiedSet up down na nb) with [nnA, mA, nnB, mB, hJ, hI, nnC, mC, nnD, hM, nnM, hK, bJ, bI, bD, bK]
          try simp only [ite_eqn, if_true, if_false, eqn_comm B A, eqn_comm J A, eqn_comm I A, eqn_comm C A, eqn_comm D A, eqn_comm M A, eqn_comm K A, eqn_comm J B, eqn_comm I B, eqn_comm C B, eqn_comm D B, eqn_comm M B, eqn_comm K B, eqn_comm I J, eqn_comm C J, eqn_comm D J, eqn_comm M J, eqn_comm K J, eqn_comm C I, eqn_comm D I, eqn_comm M I, eqn_comm K I, eqn_comm D C, eqn_comm M C, eqn_comm K C, eqn_comm M D, eqn_comm K D, eqn_comm K M]
          try simp only [(eqn_ne (by omega) : eqn A J = 0), (eqn_ne (by omega) : eqn A I = 0), (eqn_ne (by omega) : eqn A M = 0), (eqn_ne (by omega) : eqn A K = 0), (eqn_ne (by omega) : eqn B J = 0), (eqn_ne (by omega) : eqn B I = 0), (eqn_ne (by omega) : eqn B M = 0), (eqn_ne (by omega) : eqn B K = 0), (eqn_ne (by omega) : eqn J I = 0), (eqn_ne (by omega) : eqn J C = 0), (eqn_ne (by omega) : eqn J D = 0), (eqn_ne (by omega) : eqn J K = 0), (eqn_ne (by omega) : eqn I C = 0), (eqn_ne (by omega) : eqn I D = 0), (eqn_ne (by omega) : eqn I M = 0), (eqn_ne (by omega) : eqn C M = 0), (eqn_ne (by omega) : eqn C K = 0), (eqn_ne (by omega) : eqn D M = 0), (eqn_ne (by omega) : eqn D K = 0), (eqn_ne (by omega) : eqn M K = 0), mul_zero, zero_mul, neg_zero, sub_zero, zero_sub, add_zero, zero_add]
          try ring
  · skip
    by_cases bI : I < nb
    · skip
      by_cases bD : D < na
      · skip
        by_cases bK : K < nb
        · skip
          wick L (occupiedSet up down na nb) with [nnA, mA, nnB, mB, hJ, hI, nnC, mC, nnD, hM, nnM, hK, bJ, bI, bD, bK]
          try simp only [ite_eqn, if_true, if_false, eqn_comm B A, eqn_comm J A, eqn_comm I A, eqn_comm C A, eqn_comm D A, eqn_comm M A, eqn_comm K A, eqn_comm J B, eqn_comm I B, eqn_comm C B, eqn_comm D B, eqn_comm M B, eqn_comm K B, eqn_comm I J, eqn_comm C J, eqn_comm D J, eqn_comm M J, eqn_comm K J, eqn_comm C I, eqn_comm D I, eqn_comm M I, eqn_comm K I, eqn_comm D C, eqn_comm M C, eqn_comm K C, eqn_comm M D, eqn_comm K D, eqn_comm K M]
          try simp only [(eqn_ne (by omega) : eqn A J = 0), (eqn_ne (by omega) : eqn A I = 0), (eqn_ne (by omega) : eqn A D = 0), (eqn_ne (by omega) : eqn A M = 0), (eqn_ne (by omega) : eqn A K = 0), (eqn_ne (by omega) : eqn B J = 0), (eqn_ne (by omega) : eqn B I = 0), (eqn_ne (by omega) : eqn B D = 0), (eqn_ne (by omega) : eqn B M = 0), (eqn_ne (by omega) : eqn B K = 0), (eqn_ne (by omega) : eqn J I = 0), (eqn_ne (by omega) : eqn J C = 0), (eqn_ne (by omega) : eqn J M = 0), (eqn_ne (by omega) : eqn J K = 0), (eqn_ne (by omega) : eqn I C = 0), (eqn_ne (by omega) : eqn I D = 0), (eqn_ne (by omega) : eqn C D = 0), (eqn_ne (by omega) : eqn C M = 0), (eqn_ne (by omega) : eqn C K = 0), (eqn_ne (by omega) : eqn D M = 0), (eqn_ne (by omega) : eqn D K = 0), mul_zero, zero_mul, neg_zero, sub_zero, zero_sub, add_zero, zero_add]
          try ring
        · skip
          wick L (occupiedSet up down na nb) with [nnA, mA, nnB, mB, hJ, hI, nnC, mC, nnD, hM, nnM, hK, bJ, bI, bD, bK]
          try simp only [ite_eqn, if_true, if_false, eqn_comm B A, eqn_comm J A, eqn_comm I A, eqn_comm C A, eqn_comm D A, eqn_comm M A, eqn_comm K A, eqn_comm J B, eqn_comm I B, eqn_comm C B, eqn_comm D B, eqn_comm M B, eqn_comm K B, eqn_comm I J, eqn_comm C J, eqn_comm D J, eqn_comm M J, eqn_comm K J, eqn_comm C I, eqn_comm D I, eqn_comm M I, eqn_comm K I, eqn_comm D C, eqn_comm M C, eqn_comm K C, eqn_comm M D, eqn_comm K D, eqn_comm K M]
          try simp only [(eqn_ne (by omega) : eqn A J = 0), (eqn_ne (by omega) : eqn A I = 0), (eqn_ne (by omega) : eqn A D = 0), (eqn_ne (by omega) : eqn A M = 0), (eqn_ne (by omega) : eqn A K = 0), (eqn_ne (by omega) : eqn B J = 0), (eqn_ne (by omega) : eqn B I = 0), (eqn_ne (by omega) : eqn B D = 0), (eqn_ne (by omega) : eqn B M = 0), (eqn_ne (by omega) : eqn B K = 0), (eqn_ne (by omega) : eqn J I = 0), (eqn_ne (by omega) : eqn J C = 0), (eqn_ne (by omega) : eqn J M = 0), (eqn_ne (by omega) : eqn I C = 0), (eqn_ne (by omega) : eqn I D = 0), (eqn_ne (by omega) : eqn I K = 0), (eqn_ne (by omega) : eqn C D = 0), (eqn_ne (by omega) : eqn C M = 0), (eqn_ne (by omega) : eqn C K = 0), (eqn_ne (by omega) : eqn D M = 0), (eqn_ne (by omega) : eqn M K = 0), mul_zero, zero_mul, neg_zero, sub_zero, zero_sub, add_zero, zero_add]
          try ring
      · skip
        by_cases bK : K < nb
        · skip
          wick L (occupiedSet up down na nb) with [nnA, mA, nnB, mB, hJ, hI, nnC, mC, nnD, hM, nnM, hK, bJ, bI, bD, bK]
          try simp only [ite_eqn, if_true, if_false, eqn_comm B A, eqn_comm J A, eqn_comm I A, eqn_comm C A, eqn_comm D A, eqn_comm M A, eqn_comm K A, eqn_comm J B, eqn_comm I B, eqn_comm C B, eqn_comm D B, eqn_comm M B, eqn_comm K B, eqn_comm I J, eqn_comm C J, eqn_comm D J, eqn_comm M J, eqn_comm K J, eqn_comm C I, eqn_comm D I, eqn_comm M I, eqn_comm K I, eqn_comm D C, eqn_comm M C, eqn_comm K C, eqn_comm M D, eqn_comm K D, eqn_comm K M]
          try simp only [(eqn_ne (by omega) : eqn A J = 0), (eqn_ne (by omega) : eqn A I = 0), (eqn_ne (by omega) : eqn A M = 0), (eqn_ne (by omega) : eqn A K = 0), (eqn_ne (by omega) : eqn B J = 0), (eqn_ne (by omega) : eqn B I = 0), (eqn_ne (by omega) : eqn B M = 0), (eqn_ne (by omega) : eqn B K = 0), (eqn_ne (by omega) : eqn J I = 0), (eqn_ne (by omega) : eqn J C = 0), (eqn_ne (by omega) : eqn J D = 0), (eqn_ne (by omega) : eqn J M = 0), (eqn_ne (by omega) : eqn J K = 0), (eqn_ne (by omega) : eqn I C = 0), (eqn_ne (by omega) : eqn I D = 0), (eqn_ne (by omega) : eqn C M = 0), (eqn_ne (by omega) : eqn C K = 0), (eqn_ne (by omega) : eqn D M = 0), (eqn_ne (by omega) : eqn D K = 0), mul_zero, zero_mul, neg_zero, sub_zero, zero_sub, add_zero, zero_add]
          try ring
        · skip
          wick L (occupiedSet up down na nb) with [nnA, mA, nnB, mB, hJ, hI, nnC, mC, nnD, hM, nnM, hK, bJ, bI, bD, bK]
          try simp only [ite_eqn, if_true, if_false, eqn_comm B A, eqn_comm J A, eqn_comm I A, eqn_comm C A, eqn_comm D A, eqn_comm M A, eqn_comm K A, eqn_comm J B, eqn_comm I B, eqn_comm C B, eqn_comm D B, eqn_comm M B, eqn_comm K B, eqn_comm I J, eqn_comm C J, eqn_comm D J, eqn_comm M J, eqn_comm K J, eqn_comm C I, eqn_comm D I, eqn_comm M I, eqn_comm K I, eqn_comm D C, eqn_comm M C, eqn_comm K C, eqn_comm M D, eqn_comm K D, eqn_comm K M]
          try simp only [(eqn_ne (by omega) : eqn A J = 0), (eqn_ne (by omega) : eqn A I = 0), (eqn_ne (by omega) : eqn A M = 0), (eqn_ne (by omega) : eqn A K = 0), (eqn_ne (by omega) : eqn B J = 0), (eqn_ne (by omega) : eqn B I = 0), (eqn_ne (by omega) : eqn B M = 0), (eqn_ne (by omega) : eqn B K = 0), (eqn_ne (by omega) : eqn J I = 0), (eqn_ne (by omega) : eqn J C = 0), (eqn_ne (by omega) : eqn J D = 0), (eqn_ne (by omega) : eqn J M = 0), (eqn_ne (by omega) : eqn I C = 0), (eqn_ne (by omega) : eqn I D = 0), (eqn_ne (by omega) : eqn I K = 0), (eqn_ne (by omega) : eqn C M = 0), (eqn_ne (by omega) : eqn C K = 0), (eqn_ne (by omega) : eqn D M = 0), (eqn_ne (by omega) : eqn D K = 0), (eqn_ne (by omega) : eqn M K = 0), mul_zero, zero_mul, neg_zero, sub_zero, zero_sub, add_zero, zero_add]
          try ring
    · skip
      by_cases bD : D < na
      · skip
        by_cases bK : K < nb
        · skip
          wick L (occupiedSet up down na nb) with [nnA, mA, nnB, mB, hJ, hI, nnC, mC, nnD, hM, nnM, hK, bJ, bI, bD, bK]
          try simp only [ite_eqn, if_true, if_false, eqn_comm B A, eqn_comm J A, eqn_comm I A, eqn_comm C A, eqn_comm D A, eqn_comm M A, eqn_comm K A, eqn_comm J B, eqn_comm I B, eqn_comm C B, eqn_comm D B, eqn_comm M B, eqn_comm K B, eqn_comm I J, eqn_comm C J, eqn_comm D J, eqn_comm M J, eqn_comm K J, eqn_comm C I, eqn_comm D I, eqn_comm M I, eqn_comm K I, eqn_comm D C, eqn_comm M C, eqn_comm K C, eqn_comm M D, eqn_comm K D, eqn_comm K M]
          try simp only [(eqn_ne (by omega) : eqn A J = 0), (eqn_ne (by omega) : eqn A I = 0), (eqn_ne (by omega) : eqn A D = 0), (eqn_ne (by omega) : eqn A M = 0), (eqn_ne (by omega) : eqn A K = 0), (eqn_ne (by omega) : eqn B J = 0), (eqn_ne (by omega) : eqn B I = 0), (eqn_ne (by omega) : eqn B D = 0), (eqn_ne (by omega) : eqn B M = 0), (eqn_ne (by omega) : eqn B K = 0), (eqn_ne (by omega) : eqn J C = 0), (eqn_ne (by omega) : eqn J M = 0), (eqn_ne (by omega) : eqn J K = 0), (eqn_ne (by omega) : eqn I C = 0), (eqn_ne (by omega) : eqn I M = 0), (eqn_ne (by omega) : eqn I K = 0), (eqn_ne (by omega) : eqn C D = 0), (eqn_ne (by omega) : eqn C M = 0), (eqn_ne (by omega) : eqn C K = 0), (eqn_ne (by omega) : eqn D M = 0), (eqn_ne (by omega) : eqn D K = 0), mul_zero, zero_mul, neg_zero, sub_zero, zero_sub, add_zero, zero_add]
          try ring
        · skip
          wick L (occupiedSet up down na nb) with [nnA, mA, nnB, mB, hJ, hI, nnC, mC, nnD, hM, nnM, hK, bJ, bI, bD, bK]
          try simp only [ite_eqn, if_true, if_false, eqn_comm B A, eqn_comm J A, eqn_comm I A, eqn_comm C A, eqn_comm D A, eqn_comm M A, eqn_comm K A, eqn_comm J B, eqn_comm I B, eqn_comm C B, eqn_comm D B, eqn_comm M B, eqn_comm K B, eqn_comm I J, eqn_comm C J, eqn_comm D J, eqn_comm M J, eqn_comm K J, eqn_comm C I, eqn_comm D I, eqn_comm M I, eqn_comm K I, eqn_comm D C, eqn_comm M C, eqn_comm K C, eqn_comm M D, eqn_comm K D, eqn_comm K M]
          try simp only [(eqn_ne (by omega) : eqn A J = 0), (eqn_ne (by omega) : eqn A I = 0), (eqn_ne (by omega) : eqn A D = 0), (eqn_ne (by omega) : eqn A M = 0), (eqn_ne (by omega) : eqn A K = 0), (eqn_ne (by omega) : eqn B J = 0), (eqn_ne (by omega) : eqn B I = 0), (eqn_ne (by omega) : eqn B D = 0), (eqn_ne (by omega) : eqn B M = 0), (eqn_ne (by omega) : eqn B K = 0), (eqn_ne (by omega) : eqn J C = 0), (eqn_ne (by omega) : eqn J M = 0), (eqn_ne (by omega) : eqn I C = 0), (eqn_ne (by omega) : eqn I M = 0), (eqn_ne (by omega) : eqn C D = 0), (eqn_ne (by omega) : eqn C M = 0), (eqn_ne (by omega) : eqn C K = 0), (eqn_ne (by omega) : eqn D M = 0), (eqn_ne (by omega) : eqn M K = 0), mul_zero, zero_mul, neg_zero, sub_zero, zero_sub, add_zero, zero_add]
          try ring
      · skip
        by_cases bK : K < nb
        · skip
          wick L (occupiedSet up down na nb) with [nnA, mA, nnB, mB, hJ, hI, nnC, mC, nnD, hM, nnM, hK, bJ, bI, bD, bK]
          try simp only [ite_eqn, if_true, if_false, eqn_comm B A, eqn_comm J A, eqn_comm I A, eqn_comm C A, eqn_comm D A, eqn_comm M A, eqn_comm K A, eqn_comm J B, eqn_comm I B, eqn_comm C B, eqn_comm D B, eqn_comm M B, eqn_comm K B, eqn_comm I J, eqn_comm C J, eqn_comm D J, eqn_comm M J, eqn_comm K J, eqn_comm C I, eqn_comm D I, eqn_comm M I, eqn_comm K I, eqn_comm D C, eqn_comm M C, eqn_comm K C, eqn_comm M D, eqn_comm K D, eqn_comm K M]
          try simp only [(eqn_ne (by omega) : eqn A J = 0), (eqn_ne (by omega) : eqn A I = 0), (eqn_ne (by omega) : eqn A M = 0), (eqn_ne (by omega) : eqn A K = 0), (eqn_ne (by omega) : eqn B J = 0), (eqn_ne (by omega) : eqn B I = 0), (eqn_ne (by omega) : eqn B M = 0), (eqn_ne (by omega) : eqn B K = 0), (eqn_ne (by omega) : eqn J C = 0), (eqn_ne (by omega) : eqn J D = 0), (eqn_ne (by omega) : eqn J M = 0), (eqn_ne (by omega) : eqn J K = 0), (eqn_ne (by omega) : eqn I C = 0), (eqn_ne (by omega) : eqn I D = 0), (eqn_ne (by omega) : eqn I M = 0), (eqn_ne (by omega) : eqn I K = 0), (eqn_ne (by omega) : eqn C M = 0), (eqn_ne (by omega) : eqn C K = 0), (eqn_ne (by omega) : eqn D M = 0), (eqn_ne (by omega) : eqn D K = 0), mul_zero, zero_mul, neg_zero, sub_zero, zero_sub, add_zero, zero_add]
          try ring
        · skip
          wick L (occupiedSet up down na nb) with [nnA, mA, nnB, mB, hJ, hI, nnC, mC, nnD, hM, nnM, hK, bJ, bI, bD, bK]
          try simp only [ite_eqn, if_true, if_false, eqn_comm B A, eqn_comm J A, eqn_comm I A, eqn_comm C A, eqn_comm D A, eqn_comm M A, eqn_comm K A, eqn_comm J B, eqn_comm I B, eqn_comm C B, eqn_comm D B, eqn_comm M B, eqn_comm K B, eqn_comm I J, eqn_comm C J, eqn_comm D J, eqn_comm M J, eqn_comm K J, eqn_comm C I, eqn_comm D I, eqn_comm M I, eqn_comm K I, eqn_comm D C, eqn_comm M C, eqn_comm K C, eqn_comm M D, eqn_comm K D, eqn_comm K M]
          try simp only [(eqn_ne (by omega) : eqn A J = 0), (eqn_ne (by omega) : eqn A I = 0), (eqn_ne (by omega) : eqn A M = 0), (eqn_ne (by omega) : eqn A K = 0), (eqn_ne (by omega) : eqn B J = 0), (eqn_ne (by omega) : eqn B I = 0), (eqn_ne (by omega) : eqn B M = 0), (eqn_ne (by omega) : eqn B K = 0), (eqn_ne (by omega) : eqn J C = 0), (eqn_ne (by omega) : eqn J D = 0), (eqn_ne (by omega) : eqn J M = 0), (eqn_ne (by omega) : eqn I C = 0), (eqn_ne (by omega) : eqn I D = 0), (eqn_ne (by omega) : eqn I M = 0), (eqn_ne (by omega) : eqn C M = 0), (eqn_ne (by omega) : eqn C K = 0), (eqn_ne (by omega) : eqn D M = 0), (eqn_ne (by omega) : eqn D K = 0), (eqn_ne (by omega) : eqn M K = 0), mul_zero, zero_mul, neg_zero, sub_zero, zero_sub, add_zero, zero_add]
          try ring

theorem element_ab_bb (L : Labels up down) (hab : nb ≤ na) (hn : na ≤ n) {A B J I C D M K : ℕ}
    (hA : na ≤ A) (gA : A < n) (hB : nb ≤ B) (gB : B < n) (hJ : J < nb) (hI : I < na) (hC : nb ≤ C) (gC : C < n) (hD : nb ≤ D) (gD : D < n) (hM : M < nb) (hK : K < nb) :
    inner (cre (up A) (cre (down B) (ann (down J) (ann (up I) (reference up down na nb)))))
        (spinSquared n up down (cre (down C) (cre (down D) (ann (down M) (ann (down K) (reference up down na nb)))))) =
      -(eqn J M * eqn B D * eqn K I * eqn A C) + eqn J K * eqn B D * eqn M I * eqn A C +
      eqn J M * eqn B C * eqn K I * eqn A D - eqn J K * eqn B C * eqn M I * eqn A D := by
  rw [inner_spinSquared (((((hasSz_reference (n := n) L hn (hab.trans hn)).ann_down L (a := K) (by omega)).ann_down L (a := M) (by omega)).cre_down L (a := D) (by omega)).cre_down L (a := C) (by omega))]
  simp only [raising_cre_up L, raising_cre_down (by omega : B < n) L, raising_ann_down L, raising_ann_up (by omega : I < n) L, raising_cre_down (by omega : C < n) L, raising_cre_down (by omega : D < n) L, raising_reference L hab]
  have nnA : ¬ A < na := by omega
  have mA : ¬ A < nb := by omega
  have nnB : ¬ B < nb := by omega
  have nnJ : J < na := by omega
  have nnC : ¬ C < nb := by omega
  have nnD : ¬ D < nb := by omega
  have nnM : M < na := by omega
  have nnK : K < na := by omega
  by_cases bB : B < na
  · skip
    by_cases bI : I < nb
    · skip
      by_cases bC : C < na
      · skip
        by_cases bD : D < na
        · skip
          wick L (occupiedSet up down na nb) with [nnA, mA, nnB, hJ, nnJ, hI, nnC, nnD, hM, nnM, hK, nnK, bB, bI, bC, bD]
          try simp only [ite_eqn, if_true, if_false, eqn_comm B A, eqn_comm J A, eqn_comm I A, eqn_comm C A, eqn_comm D A, eqn_comm M A, eqn_comm K A, eqn_comm J B, eqn_comm I B, eqn_comm C B, eqn_comm D B, eqn_comm M B, eqn_comm K B, eqn_comm I J, eqn_comm C J, eqn_comm D J, eqn_comm M J, eqn_comm K J, eqn_comm C I, eqn_comm D I, eqn_comm M I, eqn_comm K I, eqn_comm D C, eqn_comm M C, eqn_comm K C, eqn_comm M D, eqn_comm K D, eqn_comm K M]
          try simp only [(eqn_ne (by omega) : eqn A B = 0), (eqn_ne (by omega) : eqn A J = 0), (eqn_ne (by omega) : eqn A I = 0), (eqn_ne (by omega) : eqn A C = 0), (eqn_ne (by omega) : eqn A D = 0), (eqn_ne (by omega) : eqn A M = 0), (eqn_ne (by omega) : eqn A K = 0), (eqn_ne (by omega) : eqn B J = 0), (eqn_ne (by omega) : eqn B I = 0), (eqn_ne (by omega) : eqn B M = 0), (eqn_ne (by omega) : eqn B K = 0), (eqn_ne (by omega) : eqn J C = 0), (eqn_ne (by omega) : eqn J D = 0), (eqn_ne (by omega) : eqn I C = 0), (eqn_ne (by omega) : eqn I D = 0), (eqn_ne (by omega) : eqn C M = 0), (eqn_ne (by omega) : eqn C K = 0), (eqn_ne (by omega) : eqn D M = 0), (eqn_ne (by omega) : eqn D K = 0), mul_zero, zero_mul, neg_zero, sub_zero, zero_sub, add_zero, zero_add]
          try ring
        · skip
          wick L (occupiedSet up down na nb) with [nnA, mA, nnB, hJ, nnJ, hI, nnC, nnD, hM, nnM, hK, nnK, bB, bI, bC, bD]
          try simp only [ite_eqn, if_true, if_false, eqn_comm B A, eqn_comm J A, eqn_comm I A, eqn_comm C A, eqn_comm D A, eqn_comm M A, eqn_comm K A, eqn_comm J B, eqn_comm I B, eqn_comm C B, eqn_comm D B, eqn_comm M B, eqn_comm K B, eqn_comm I J, eqn_comm C J, eqn_comm D J, eqn_comm M J, eqn_comm K J, eqn_comm C I, eqn_comm D I, eqn_comm M I, eqn_comm K I, eqn_comm D C, eqn_comm M C, eqn_comm K C, eqn_comm M D, eqn_comm K D, eqn_comm K M]
          try simp only [(eqn_ne (by omega) : eqn A B = 0), (eqn_ne (by omega) : eqn A J = 0), (eqn_ne (by omega) : eqn A I = 0), (eqn_ne (by omega) : eqn A C = 0), (eqn_ne (by omega) : eqn A M = 0), (eqn_ne (by omega) : eqn A K = 0), (eqn_ne (by omega) : eqn B J = 0), (eqn_ne (by omega) : eqn B I = 0), (eqn_ne (by omega) : eqn B D = 0), (eqn_ne (by omega) : eqn B M = 0), (eqn_ne (by omega) : eqn B K = 0), (eqn_ne (by omega) : eqn J C = 0), (eqn_ne (by omega) : eqn J D = 0), (eqn_ne (by omega) : eqn I C = 0), (eqn_ne (by omega) : eqn I D = 0), (eqn_ne (by omega) : eqn C D = 0), (eqn_ne (by omega) : eqn C M = 0), (eqn_ne (by omega) : eqn C K = 0), (eqn_ne (by omega) : eqn D M = 0), (eqn_ne (by omega) : eqn D K = 0), mul_zero, zero_mul, neg_zero, sub_zero, zero_sub, add_zero, zero_add]
          try ring
      · skip
        by_cases bD : D < na
        · skip
          wick L (occupiedSet up down na nb) with [nnA, mA, nnB, hJ, nnJ, hI, nnC, nnD, hM, nnM, hK, nnK, bB, bI, bC, bD]
          try simp only [ite_eqn, if_true, if_false, eqn_comm B A, eqn_comm J A, eqn_comm I A, eqn_comm C A, eqn_comm D A, eqn_comm M A, eqn_comm K A, eqn_comm J B, eqn_comm I B, eqn_comm C B, eqn_comm D B, eqn_comm M B, eqn_comm K B, eqn_comm I J, eqn_comm C J, eqn_comm D J, eqn_comm M J, eqn_comm K J, eqn_comm C I, eqn_comm D I, eqn_comm M I, eqn_comm K I, eqn_comm D C, eqn_comm M C, eqn_comm K C, eqn_comm M D, eqn_comm K D, eqn_comm K M]
          try simp only [(eqn_ne (by omega) : eqn A B = 0), (eqn_ne (by omega) : eqn A J = 0), (eqn_ne (by omega) : eqn A I = 0), (eqn_ne (by omega) : eqn A D = 0), (eqn_ne (by omega) : eqn A M = 0), (eqn_ne (by omega) : eqn A K = 0), (eqn_ne (by omega) : eqn B J = 0), (eqn_ne (by omega) : eqn B I = 0), (eqn_ne (by omega) : eqn B C = 0), (eqn_ne (by omega) : eqn B M = 0), (eqn_ne (by omega) : eqn B K = 0), (eqn_ne (by omega) : eqn J C = 0), (eqn_ne (by omega) : eqn J D = 0), (eqn_ne (by omega) : eqn I C = 0), (eqn_ne (by omega) : eqn I D = 0), (eqn_ne (by omega) : eqn C D = 0), (eqn_ne (by omega) : eqn C M = 0), (eqn_ne (by omega) : eqn C K = 0), (eqn_ne (by omega) : eqn D M = 0), (eqn_ne (by omega) : eqn D K = 0), mul_zero, zero_mul, neg_zero, sub_zero, zero_sub, add_zero, zero_add]
          try ring
        · skip
          wick L (occupiedSet up down na nb) with [nnA, mA, nnB, hJ, nnJ, hI, nnC, nnD, hM, nnM, hK, nnK, bB, bI, bC, bD]
          try simp only [ite_eqn, if_true, if_false, eqn_comm B A, eqn_comm J A, eqn_comm I A, eqn_comm C A, eqn_comm D A, eqn_comm M A, eqn_comm K A, eqn_comm J B, eqn_comm I B, eqn_comm C B, eqn_comm D B, eqn_comm M B, eqn_comm K B, eqn_comm I J, eqn_comm C J, eqn_comm D J, eqn_comm M J, eqn_comm K J, eqn_comm C I, eqn_comm D I, eqn_comm M I, eqn_comm K I, eqn_comm D C, eqn_comm M C, eqn_comm K C, eqn_comm M D, eqn_comm K D, eqn_comm K M]
          try simp only [(eqn_ne (by omega) : eqn A B = 0), (eqn_ne (by omega) : eqn A J = 0), (eqn_ne (by omega) : eqn A I = 0), (eqn_ne (by omega) : eqn A M = 0), (eqn_ne (by omega) : eqn A K = 0), (eqn_ne (by omega) : eqn B J = 0), (eqn_ne (by omega) : eqn B I = 0), (eqn_ne (by omega) : eqn B C = 0), (eqn_ne (by omega) : eqn B D = 0), (eqn_ne (by omega) : eqn B M = 0), (eqn_ne (by omega) : eqn B K = 0), (eqn_ne (by omega) : eqn J C = 0), (eqn_ne (by omega) : eqn J D = 0), (eqn_ne (by omega) : eqn I C = 0), (eqn_ne (by omega) : eqn I D = 0), (eqn_ne (by omega) : eqn C M = 0), (eqn_ne (by omega) : eqn C K = 0), (eqn_ne (by omega) : eqn D M = 0), (eqn_ne (by omega) : eqn D K = 0), mul_zero, zero_mul, neg_zero, sub_zero, zero_sub, add_zero, zero_add]
          try ring
    · skip
      by_cases bC : C < na
      · skip
        by_cases bD : D < na
        · skip
          wick L (occupiedSet up down na nb) with [nnA, mA, nnB, hJ, nnJ, hI, nnC, nnD, hM, nnM, hK, nnK, bB, bI, bC, bD]
          try simp only [ite_eqn, if_true, if_false, eqn_comm B A, eqn_comm J A, eqn_comm I A, eqn_comm C A, eqn_comm D A, eqn_comm M A, eqn_comm K A, eqn_comm J B, eqn_comm I B, eqn_comm C B, eqn_comm D B, eqn_comm M B, eqn_comm K B, eqn_comm I J, eqn_comm C J, eqn_comm D J, eqn_comm M J, eqn_comm K J, eqn_comm C I, eqn_comm D I, eqn_comm M I, eqn_comm K I, eqn_comm D C, eqn_comm M C, eqn_comm K C, eqn_comm M D, eqn_comm K D, eqn_comm K M]
          try simp only [(eqn_ne (by omega) : eqn A B = 0), (eqn_ne (by omega) : eqn A J = 0), (eqn_ne (by omega) : eqn A I = 0), (eqn_ne (by omega) : eqn A C = 0), (eqn_ne (by omega) : eqn A D = 0), (eqn_ne (by omega) : eqn A M = 0), (eqn_ne (by omega) : eqn A K = 0), (eqn_ne (by omega) : eqn B J = 0), (eqn_ne (by omega) : eqn B M = 0), (eqn_ne (by omega) : eqn B K = 0), (eqn_ne (by omega) : eqn J I = 0), (eqn_ne (by omega) : eqn J C = 0), (eqn_ne (by omega) : eqn J D = 0), (eqn_ne (by omega) : eqn I M = 0), (eqn_ne (by omega) : eqn I K = 0), (eqn_ne (by omega) : eqn C M = 0), (eqn_ne (by omega) : eqn C K = 0), (eqn_ne (by omega) : eqn D M = 0), (eqn_ne (by omega) : eqn D K = 0), mul_zero, zero_mul, neg_zero, sub_zero, zero_sub, add_zero, zero_add]
          try ring
        · skip
          wick L (occupiedSet up down na nb) with [nnA, mA, nnB, hJ, nnJ, hI, nnC, nnD, hM, nnM, hK, nnK, bB, bI, bC, bD]
          try simp only [ite_eqn, if_true, if_false, eqn_comm B A, eqn_comm J A, eqn_comm I A, eqn_comm C A, eqn_comm D A, eqn_comm M A, eqn_comm K A, eqn_comm J B, eqn_comm I B, eqn_comm C B, eqn_comm D B, eqn_comm M B, eqn_comm K B, eqn_comm I J, eqn_comm C J, eqn_comm D J, eqn_comm M J, eqn_comm K J, eqn_comm C I, eqn_comm D I, eqn_comm M I, eqn_comm K I, eqn_comm D C, eqn_comm M C, eqn_comm K C, eqn_comm M D, eqn_comm K D, eqn_comm K M]
          try simp only [(eqn_ne (by omega) : eqn A B = 0), (eqn_ne (by omega) : eqn A J = 0), (eqn_ne (by omega) : eqn A I = 0), (eqn_ne (by omega) : eqn A C = 0), (eqn_ne (by omega) : eqn A M = 0), (eqn_ne (by omega) : eqn A K = 0), (eqn_ne (by omega) : eqn B J = 0), (eqn_ne (by omega) : eqn B D = 0), (eqn_ne (by omega) : eqn B M = 0), (eqn_ne (by omega) : eqn B K = 0), (eqn_ne (by omega) : eqn J I = 0), (eqn_ne (by omega) : eqn J C = 0), (eqn_ne (by omega) : eqn J D = 0), (eqn_ne (by omega) : eqn I D = 0), (eqn_ne (by omega) : eqn I M = 0), (eqn_ne (by omega) : eqn I K = 0), (eqn_ne (by omega) : eqn C D = 0), (eqn_ne (by omega) : eqn C M = 0), (eqn_ne (by omega) : eqn C K = 0), (eqn_ne (by omega) : eqn D M = 0), (eqn_ne (by omega) : eqn D K = 0), mul_zero, zero_mul, neg_zero, sub_zero, zero_sub, add_zero, zero_add]
          try ring
      · skip
        by_cases bD : D < na
        · skip
          wick L (occupiedSet up down na nb) with [nnA, mA, nnB, hJ, nnJ, hI, nnC, nnD, hM, nnM, hK, nnK, bB, bI, bC, bD]
          try simp only [ite_eqn, if_true, if_false, eqn_comm B A, eqn_comm J A, eqn_comm I A, eqn_comm C A, eqn_comm D A, eqn_comm M A, eqn_comm K A, eqn_comm J B, eqn_comm I B, eqn_comm C B, eqn_comm D B, eqn_comm M B, eqn_comm K B, eqn_comm I J, eqn_comm C J, eqn_comm D J, eqn_comm M J, eqn_comm K J, eqn_comm C I, eqn_comm D I, eqn_comm M I, eqn_comm K I, eqn_comm D C, eqn_comm M C, eqn_comm K C, eqn_comm M D, eqn_comm K D, eqn_comm K M]
          try simp only [(eqn_ne (by omega) : eqn A B = 0), (eqn_ne (by omega) : eqn A J = 0), (eqn_ne (by omega) : eqn A I = 0), (eqn_ne (by omega) : eqn A D = 0), (eqn_ne (by omega) : eqn A M = 0), (eqn_ne (by omega) : eqn A K = 0), (eqn_ne (by omega) : eqn B J = 0), (eqn_ne (by omega) : eqn B C = 0), (eqn_ne (by omega) : eqn B M = 0), (eqn_ne (by omega) : eqn B K = 0), (eqn_ne (by omega) : eqn J I = 0), (eqn_ne (by omega) : eqn J C = 0), (eqn_ne (by omega) : eqn J D = 0), (eqn_ne (by omega) : eqn I C = 0), (eqn_ne (by omega) : eqn I M = 0), (eqn_ne (by omega) : eqn I K = 0), (eqn_ne (by omega) : eqn C D = 0), (eqn_ne (by omega) : eqn C M = 0), (eqn_ne (by omega) : eqn C K = 0), (eqn_ne (by omega) : eqn D M = 0), (eqn_ne (by omega) : eqn D K = 0), mul_zero, zero_mul, neg_zero, sub_zero, zero_sub, add_zero, zero_add]
          try ring
        · skip
          wick L (occupiedSet up down na nb) with [nnA, mA, nnB, hJ, nnJ, hI, nnC, nnD, hM, nnM, hK, nnK, bB, bI, bC, bD]
          try simp only [ite_eqn, if_true, if_false, eqn_comm B A, eqn_comm J A, eqn_comm I A, eqn_comm C A, eqn_comm D A, eqn_comm M A, eqn_comm K A, eqn_comm J B, eqn_comm I B, eqn_comm C B, eqn_comm D B, eqn_comm M B, eqn_comm K B, eqn_comm I J, eqn_comm C J, eqn_comm D J, eqn_comm M J, eqn_comm K J, eqn_comm C I, eqn_comm D I, eqn_comm M I, eqn_comm K I, eqn_comm D C, eqn_comm M C, eqn_comm K C, eqn_comm M D, eqn_comm K D, eqn_comm K M]
          try simp only [(eqn_ne (by omega) : eqn A B = 0), (eqn_ne (by omega) : eqn A J = 0), (eqn_ne (by omega) : eqn A I = 0), (eqn_ne (by omega) : eqn A M = 0), (eqn_ne (by omega) : eqn A K = 0), (eqn_ne (by omega) : eqn B J = 0), (eqn_ne (by omega) : eqn B C = 0), (eqn_ne (by omega) : eqn B D = 0), (eqn_ne (by omega) : eqn B M = 0), (eqn_ne (by omega) : eqn B K = 0), (eqn_ne (by omega) : eqn J I = 0), (eqn_ne (by omega) : eqn J C = 0), (eqn_ne (by omega) : eqn J D = 0), (eqn_ne (by omega) : eqn I C = 0), (eqn_ne (by omega) : eqn I D = 0), (eqn_ne (by omega) : eqn I M = 0), (eqn_ne (by omega) : eqn I K = 0), (eqn_ne (by omega) : eqn C M = 0), (eqn_ne (by omega) : eqn C K = 0), (eqn_ne (by omega) : eqn D M = 0), (eqn_ne (by omega) : eqn D K = 0), mul_zero, zero_mul, neg_zero, sub_zero, zero_sub, add_zero, zero_add]
          try ring
  · skip
    by_cases bI : I < nb
    · skip
      by_cases bC : C < na
      · skip
        by_cases bD : D < na
        · skip
          wick L (occupiedSet up down na nb) with [nnA, mA, nnB, hJ, nnJ, hI, nnC, nnD, hM, nnM, hK, nnK, bB, bI, bC, bD]
          try simp only [ite_eqn, if_true, if_false, eqn_comm B A, eqn_comm J A, eqn_comm I A, eqn_comm C A, eqn_comm D A, eqn_comm M A, eqn_comm K A, eqn_comm J B, eqn_comm I B, eqn_comm C B, eqn_comm D B, eqn_comm M B, eqn_comm K B, eqn_comm I J, eqn_comm C J, eqn_comm D J, eqn_comm M J, eqn_comm K J, eqn_comm C I, eqn_comm D I, eqn_comm M I, eqn_comm K I, eqn_comm D C, eqn_comm M C, eqn_comm K C, eqn_comm M D, eqn_comm K D, eqn_comm K M]
          try simp only [(eqn_ne (by omega) : eqn A J = 0), (eqn_ne (by omega) : eqn A I = 0), (eqn_ne (by omega) : eqn A C = 0), (eqn_ne (by omega) : eqn A D = 0), (eqn_ne (by omega) : eqn A M = 0), (eqn_ne (by omega) : eqn A K = 0), (eqn_ne (by omega) : eqn B J = 0), (eqn_ne (by omega) : eqn B I = 0), (eqn_ne (by omega) : eqn B C = 0), (eqn_ne (by omega) : eqn B D = 0), (eqn_ne (by omega) : eqn B M = 0), (eqn_ne (by omega) : eqn B K = 0), (eqn_ne (by omega) : eqn J C = 0), (eqn_ne (by omega) : eqn J D = 0), (eqn_ne (by omega) : eqn I C = 0), (eqn_ne (by omega) : eqn I D = 0), (eqn_ne (by omega) : eqn C M = 0), (eqn_ne (by omega) : eqn C K = 0), (eqn_ne (by omega) : eqn D M = 0), (eqn_ne (by omega) : eqn D K = 0), mul_zero, zero_mul, neg_zero, sub_zero, zero_sub, add_zero, zero_add]
          try ring
        · skip
          wick L (occupiedSet up down na nb) with [nnA, mA, nnB, hJ, nnJ, hI, nnC, nnD, hM, nnM, hK, nnK, bB, bI, bC, bD]
          try simp only [ite_eqn, if_true, if_false, eqn_comm B A, eqn_comm J A, eqn_comm I A, eqn_comm C A, eqn_comm D A, eqn_comm M A, eqn_comm K A, eqn_comm J B, eqn_comm I B, eqn_comm C B, eqn_comm D B, eqn_comm M B, eqn_comm K B, eqn_comm I J, eqn_comm C J, eqn_comm D J, eqn_comm M J, eqn_comm K J, eqn_comm C I, eqn_comm D I, eqn_comm M I, eqn_comm K I, eqn_comm D C, eqn_comm M C, eqn_comm K C, eqn_comm M D, eqn_comm K D, eqn_comm K M]
          try simp only [(eqn_ne (by omega) : eqn A J = 0), (eqn_ne (by omega) : eqn A I = 0), (eqn_ne (by omega) : eqn A C = 0), (eqn_ne (by omega) : eqn A M = 0), (eqn_ne (by omega) : eqn A K = 0), (eqn_ne (by omega) : eqn B J = 0), (eqn_ne (by omega) : eqn B I = 0), (eqn_ne (by omega) : eqn B C = 0), (eqn_ne (by omega) : eqn B M = 0), (eqn_ne (by omega) : eqn B K = 0), (eqn_ne (by omega) : eqn J C = 0), (eqn_ne (by omega) : eqn J D = 0), (eqn_ne (by omega) : eqn I C = 0), (eqn_ne (by omega) : eqn I D = 0), (eqn_ne (by omega) : eqn C D = 0), (eqn_ne (by omega) : eqn C M = 0), (eqn_ne (by omega) : eqn C K = 0), (eqn_ne (by omega) : eqn D M = 0), (eqn_ne (by omega) : eqn D K = 0), mul_zero, zero_mul, neg_zero, sub_zero, zero_sub, add_zero, zero_add]
          try ring
      · skip
        by_cases bD : D < na
        · skip
          wick L (occupiedSet up down na nb) with [nnA, mA, nnB, hJ, nnJ, hI, nnC, nnD, hM, nnM, hK, nnK, bB, bI, bC, bD]
          try simp only [ite_eqn, if_true, if_false, eqn_comm B A, eqn_comm J A, eqn_comm I A, eqn_comm C A, eqn_comm D A, eqn_comm M A, eqn_comm K A, eqn_comm J B, eqn_comm I B, eqn_comm C B, eqn_comm D B, eqn_comm M B, eqn_comm K B, eqn_comm I J, eqn_comm C J, eqn_comm D J, eqn_comm M J, eqn_comm K J, eqn_comm C I, eqn_comm D I, eqn_comm M I, eqn_comm K I, eqn_comm D C, eqn_comm M C, eqn_comm K C, eqn_comm M D, eqn_comm K D, eqn_comm K M]
          try simp only [(eqn_ne (by omega) : eqn A J = 0), (eqn_ne (by omega) : eqn A I = 0), (eqn_ne (by omega) : eqn A D = 0), (eqn_ne (by omega) : eqn A M = 0), (eqn_ne (by omega) : eqn A K = 0), (eqn_ne (by omega) : eqn B J = 0), (eqn_ne (by omega) : eqn B I = 0), (eqn_ne (by omega) : eqn B D = 0), (eqn_ne (by omega) : eqn B M = 0), (eqn_ne (by omega) : eqn B K = 0), (eqn_ne (by omega) : eqn J C = 0), (eqn_ne (by omega) : eqn J D = 0), (eqn_ne (by omega) : eqn I C = 0), (eqn_ne (by omega) : eqn I D = 0), (eqn_ne (by omega) : eqn C D = 0), (eqn_ne (by omega) : eqn C M = 0), (eqn_ne (by omega) : eqn C K = 0), (eqn_ne (by omega) : eqn D M = 0), (eqn_ne (by omega) : eqn D K = 0), mul_zero, zero_mul, neg_zero, sub_zero, zero_sub, add_zero, zero_add]
          try ring
        · skip
          wick L (occupiedSet up down na nb) with [nnA, mA, nnB, hJ, nnJ, hI, nnC, nnD, hM, nnM, hK, nnK, bB, bI, bC, bD]
          try simp only [ite_eqn, if_true, if_false, eqn_comm B A, eqn_comm J A, eqn_comm I A, eqn_comm C A, eqn_comm D A, eqn_comm M A, eqn_comm K A, eqn_comm J B, eqn_comm I B, eqn_comm C B, eqn_comm D B, eqn_comm M B, eqn_comm K B, eqn_comm I J, eqn_comm C J, eqn_comm D J, eqn_comm M J, eqn_comm K J, eqn_comm C I, eqn_comm D I, eqn_comm M I, eqn_comm K I, eqn_comm D C, eqn_comm M C, eqn_comm K C, eqn_comm M D, eqn_comm K D, eqn_comm K M]
          try simp only [(eqn_ne (by omega) : eqn A J = 0), (eqn_ne (by omega) : eqn A I = 0), (eqn_ne (by omega) : eqn A M = 0), (eqn_ne (by omega) : eqn A K = 0), (eqn_ne (by omega) : eqn B J = 0), (eqn_ne (by omega) : eqn B I = 0), (eqn_ne (by omega) : eqn B M = 0), (eqn_ne (by omega) : eqn B K = 0), (eqn_ne (by omega) : eqn J C = 0), (eqn_ne (by omega) : eqn J D = 0), (eqn_ne (by omega) : eqn I C = 0), (eqn_ne (by omega) : eqn I D = 0), (eqn_ne (by omega) : eqn C M = 0), (eqn_ne (by omega) : eqn C K = 0), (eqn_ne (by omega) : eqn D M = 0), (eqn_ne (by omega) : eqn D K = 0), mul_zero, zero_mul, neg_zero, sub_zero, zero_sub, add_zero, zero_add]
          try ring
    · skip
      by_cases bC : C < na
      · skip
        by_cases bD : D < na
        · skip
          wick L (occupiedSet up down na nb) with [nnA, mA, nnB, hJ, nnJ, hI, nnC, nnD, hM, nnM, hK, nnK, bB, bI, bC, bD]
          try simp only [ite_eqn, if_true, if_false, eqn_comm B A, eqn_comm J A, eqn_comm I A, eqn_comm C A, eqn_comm D A, eqn_comm M A, eqn_comm K A, eqn_comm J B, eqn_comm I B, eqn_comm C B, eqn_comm D B, eqn_comm M B, eqn_comm K B, eqn_comm I J, eqn_comm C J, eqn_comm D J, eqn_comm M J, eqn_comm K J, eqn_comm C I, eqn_comm D I, eqn_comm M I, eqn_comm K I, eqn_comm D C, eqn_comm M C, eqn_comm K C, eqn_comm M D, eqn_comm K D, eqn_comm K M]
          try simp only [(eqn_ne (by omega) : eqn A J = 0), (eqn_ne (by omega) : eqn A I = 0), (eqn_ne (by omega) : eqn A C = 0), (eqn_ne (by omega) : eqn A D = 0), (eqn_ne (by omega) : eqn A M = 0), (eqn_ne (by omega) : eqn A K = 0), (eqn_ne (by omega) : eqn B J = 0), (eqn_ne (by omega) : eqn B I = 0), (eqn_ne (by omega) : eqn B C = 0), (eqn_ne (by omega) : eqn B D = 0), (eqn_ne (by omega) : eqn B M = 0), (eqn_ne (by omega) : eqn B K = 0), (eqn_ne (by omega) : eqn J I = 0), (eqn_ne (by omega) : eqn J C = 0), (eqn_ne (by omega) : eqn J D = 0), (eqn_ne (by omega) : eqn I M = 0), (eqn_ne (by omega) : eqn I K = 0), (eqn_ne (by omega) : eqn C M = 0), (eqn_ne (by omega) : eqn C K = 0), (eqn_ne (by omega) : eqn D M = 0), (eqn_ne (by omega) : eqn D K = 0), mul_zero, zero_mul, neg_zero, sub_zero, zero_sub, add_zero, zero_add]
          try ring
        · skip
          wick L (occupiedSet up down na nb) with [nnA, mA, nnB, hJ, nnJ, hI, nnC, nnD, hM, nnM, hK, nnK, bB, bI, bC, bD]
          try simp only [ite_eqn, if_true, if_false, eqn_comm B A, eqn_comm J A, eqn_comm I A, eqn_comm C A, eqn_comm D A, eqn_comm M A, eqn_comm K A, eqn_comm J B, eqn_comm I B, eqn_comm C B, eqn_comm D B, eqn_comm M B, eqn_comm K B, eqn_comm I J, eqn_comm C J, eqn_comm D J, eqn_comm M J, eqn_comm K J, eqn_comm C I, eqn_comm D I, eqn_comm M I, eqn_comm K I, eqn_comm D C, eqn_comm M C, eqn_comm K C, eqn_comm M D, eqn_comm K D, eqn_comm K M]
          try simp only [(eqn_ne (by omega) : eqn A J = 0), (eqn_ne (by omega) : eqn A I = 0), (eqn_ne (by omega) : eqn A C = 0), (eqn_ne (by omega) : eqn A M = 0), (eqn_ne (by omega) : eqn A K = 0), (eqn_ne (by omega) : eqn B J = 0), (eqn_ne (by omega) : eqn B I = 0), (eqn_ne (by omega) : eqn B C = 0), (eqn_ne (by omega) : eqn B M = 0), (eqn_ne (by omega) : eqn B K = 0), (eqn_ne (by omega) : eqn J I = 0), (eqn_ne (by omega) : eqn J C = 0), (eqn_ne (by omega) : eqn J D = 0), (eqn_ne (by omega) : eqn I D = 0), (eqn_ne (by omega) : eqn I M = 0), (eqn_ne (by omega) : eqn I K = 0), (eqn_ne (by omega) : eqn C D = 0), (eqn_ne (by omega) : eqn C M = 0), (eqn_ne (by omega) : eqn C K = 0), (eqn_ne (by omega) : eqn D M = 0), (eqn_ne (by omega) : eqn D K = 0), mul_zero, zero_mul, neg_zero, sub_zero, zero_sub, add_zero, zero_add]
          try ring
      · skip
        by_cases bD : D < na
        · skip
          wick L (occupiedSet up down na nb) with [nnA, mA, nnB, hJ, nnJ, hI, nnC, nnD, hM, nnM, hK, nnK, bB, bI, bC, bD]
          try simp only [ite_eqn, if_true, if_false, eqn_comm B A, eqn_comm J A, eqn_comm I A, eqn_comm C A, eqn_comm D A, eqn_comm M A, eqn_comm K A, eqn_comm J B, eqn_comm I B, eqn_comm C B, eqn_comm D B, eqn_comm M B, eqn_comm K B, eqn_comm I J, eqn_comm C J, eqn_comm D J, eqn_comm M J, eqn_comm K J, eqn_comm C I, eqn_comm D I, eqn_comm M I, eqn_comm K I, eqn_comm D C, eqn_comm M C, eqn_comm K C, eqn_comm M D, eqn_comm K D, eqn_comm K M]
          try simp only [(eqn_ne (by omega) : eqn A J = 0), (eqn_ne (by omega) : eqn A I = 0), (eqn_ne (by omega) : eqn A D = 0), (eqn_ne (by omega) : eqn A M = 0), (eqn_ne (by omega) : eqn A K = 0), (eqn_ne (by omega) : eqn B J = 0), (eqn_ne (by omega) : eqn B I = 0), (eqn_ne (by omega) : eqn B D = 0), (eqn_ne (by omega) : eqn B M = 0), (eqn_ne (by omega) : eqn B K = 0), (eqn_ne (by omega) : eqn J I = 0), (eqn_ne (by omega) : eqn J C = 0), (eqn_ne (by omega) : eqn J D = 0), (eqn_ne (by omega) : eqn I C = 0), (eqn_ne (by omega) : eqn I M = 0), (eqn_ne (by omega) : eqn I K = 0), (eqn_ne (by omega) : eqn C D = 0), (eqn_ne (by omega) : eqn C M = 0), (eqn_ne (by omega) : eqn C K = 0), (eqn_ne (by omega) : eqn D M = 0), (eqn_ne (by omega) : eqn D K = 0), mul_zero, zero_mul, neg_zero, sub_zero, zero_sub, add_zero, zero_add]
          try ring
        · skip
          wick L (occupiedSet up down na nb) with [nnA, mA, nnB, hJ, nnJ, hI, nnC, nnD, hM, nnM, hK, nnK, bB, bI, bC, bD]
          try simp only [ite_eqn, if_true, if_false, eqn_comm B A, eqn_comm J A, eqn_comm I A, eqn_comm C A, eqn_comm D A, eqn_comm M A, eqn_comm K A, eqn_comm J B, eqn_comm I B, eqn_comm C B, eqn_comm D B, eqn_comm M B, eqn_comm K B, eqn_comm I J, eqn_comm C J, eqn_comm D J, eqn_comm M J, eqn_comm K J, eqn_comm C I, eqn_comm D I, eqn_comm M I, eqn_comm K I, eqn_comm D C, eqn_comm M C, eqn_comm K C, eqn_comm M D, eqn_comm K D, eqn_comm K M]
          try simp only [(eqn_ne (by omega) : eqn A J = 0), (eqn_ne (by omega) : eqn A I = 0), (eqn_ne (by omega) : eqn A M = 0), (eqn_ne (by omega) : eqn A K = 0), (eqn_ne (by omega) : eqn B J = 0), (eqn_ne (by omega) : eqn B I = 0), (eqn_ne (by omega) : eqn B M = 0), (eqn_ne (by omega) : eqn B K = 0), (eqn_ne (by omega) : eqn J I = 0), (eqn_ne (by omega) : eqn J C = 0), (eqn_ne (by omega) : eqn J D = 0), (eqn_ne (by omega) : eqn I C = 0), (eqn_ne (by omega) : eqn I D = 0), (eqn_ne (by omega) : eqn I M = 0), (eqn_ne (by omega) : eqn I K = 0), (eqn_ne (by omega) : eqn C M = 0), (eqn_ne (by omega) : eqn C K = 0), (eqn_ne (by omega) : eqn D M = 0), (eqn_ne (by omega) : eqn D K = 0), mul_zero, zero_mul, neg_zero, sub_zero, zero_sub, add_zero, zero_add]
          try ring

theorem element_ab_ab (L : Labels up down) (hab : nb ≤ na) (hn : na ≤ n) {A B J I C D M K : ℕ}
    (hA : na ≤ A) (gA : A < n) (hB : nb ≤ B) (gB : B < n) (hJ : J < nb) (hI : I < na) (hC : na ≤ C) (gC : C < n) (hD : nb ≤ D) (gD : D < n) (hM : M < nb) (hK : K < na) :
    inner (cre (up A) (cre (down B) (ann (down J) (ann (up I) (reference up down na nb)))))
        (spinSquared n up down (cre (up C) (cre (down D) (ann (down M) (ann (up K) (reference up down na nb)))))) =
      -(eqn A C * eqn B D * eqn M I * eqn K J) - eqn I K * eqn J M * eqn A D * eqn B C +
      eqn J M * eqn A C * eqn K D * eqn B I +
      ((if B < na then 0 else 1) + (if I < nb then 1 else 0) + ((((na : ℚ) - nb) / 2 + 1) * (((na : ℚ) - nb) / 2))) *
        (eqn J M * eqn I K * eqn A C * eqn B D) := by
  rw [inner_spinSquared (((((hasSz_reference (n := n) L hn (hab.trans hn)).ann_up L (a := K) (by omega)).ann_down L (a := M) (by omega)).cre_down L (a := D) (by omega)).cre_up L (a := C) (by omega))]
  simp only [raising_cre_up L, raising_cre_down (by omega : B < n) L, raising_ann_down L, raising_ann_up (by omega : I < n) L, raising_cre_down (by omega : D < n) L, raising_ann_up (by omega : K < n) L, raising_reference L hab]
  have nnA : ¬ A < na := by omega
  have mA : ¬ A < nb := by omega
  have nnB : ¬ B < nb := by omega
  have nnJ : J < na := by omega
  have nnC : ¬ C < na := by omega
  have mC : ¬ C < nb := by omega
  have nnD : ¬ D < nb := by omega
  have nnM : M < na := by omega
  by_cases bB : B < na
  · skip
    by_cases bI : I < nb
    · skip
      by_cases bD : D < na
      · skip
        by_cases bK : K < nb
        · skip
          wick L (occupiedSet up down na nb) with [nnA, mA, nnB, hJ, nnJ, hI, nnC, mC, nnD, hM, nnM, hK, bB, bI, bD, bK]
          try simp only [ite_eqn, if_true, if_false, eqn_comm B A, eqn_comm J A, eqn_comm I A, eqn_comm C A, eqn_comm D A, eqn_comm M A, eqn_comm K A, eqn_comm J B, eqn_comm I B, eqn_comm C B, eqn_comm D B, eqn_comm M B, eqn_comm K B, eqn_comm I J, eqn_comm C J, eqn_comm D J, eqn_comm M J, eqn_comm K J, eqn_comm C I, eqn_comm D I, eqn_comm M I, eqn_comm K I, eqn_comm D C, eqn_comm M C, eqn_comm K C, eqn_comm M D, eqn_comm K D, eqn_comm K M]
          try simp only [(eqn_ne (by omega) : eqn A B = 0), (eqn_ne (by omega) : eqn A J = 0), (eqn_ne (by omega) : eqn A I = 0), (eqn_ne (by omega) : eqn A D = 0), (eqn_ne (by omega) : eqn A M = 0), (eqn_ne (by omega) : eqn A K = 0), (eqn_ne (by omega) : eqn B J = 0), (eqn_ne (by omega) : eqn B I = 0), (eqn_ne (by omega) : eqn B C = 0), (eqn_ne (by omega) : eqn B M = 0), (eqn_ne (by omega) : eqn B K = 0), (eqn_ne (by omega) : eqn J C = 0), (eqn_ne (by omega) : eqn J D = 0), (eqn_ne (by omega) : eqn I C = 0), (eqn_ne (by omega) : eqn I D = 0), (eqn_ne (by omega) : eqn C D = 0), (eqn_ne (by omega) : eqn C M = 0), (eqn_ne (by omega) : eqn C K = 0), (eqn_ne (by omega) : eqn D M = 0), (eqn_ne (by omega) : eqn D K = 0), mul_zero, zero_mul, neg_zero, sub_zero, zero_sub, add_zero, zero_add]
          try ring
        · skip
          wick L (occupiedSet up down na nb) with [nnA, mA, nnB, hJ, nnJ, hI, nnC, mC, nnD, hM, nnM, hK, bB, bI, bD, bK]
          try simp only [ite_eqn, if_true, if_false, eqn_comm B A, eqn_comm J A, eqn_comm I A, eqn_comm C A, eqn_comm D A, eqn_comm M A, eqn_comm K A, eqn_comm J B, eqn_comm I B, eqn_comm C B, eqn_comm D B, eqn_comm M B, eqn_comm K B, eqn_comm I J, eqn_comm C J, eqn_comm D J, eqn_comm M J, eqn_comm K J, eqn_comm C I, eqn_comm D I, eqn_comm M I, eqn_comm K I, eqn_comm D C, eqn_comm M C, eqn_comm K C, eqn_comm M D, eqn_comm K D, eqn_comm K M]
          try simp only [(eqn_ne (by omega) : eqn A B = 0), (eqn_ne (by omega) : eqn A J = 0), (eqn_ne (by omega) : eqn A I = 0), (eqn_ne (by omega) : eqn A D = 0), (eqn_ne (by omega) : eqn A M = 0), (eqn_ne (by omega) : eqn A K = 0), (eqn_ne (by omega) : eqn B J = 0), (eqn_ne (by omega) : eqn B I = 0), (eqn_ne (by omega) : eqn B C = 0), (eqn_ne (by omega) : eqn B M = 0), (eqn_ne (by omega) : eqn J C = 0), (eqn_ne (by omega) : eqn J D = 0), (eqn_ne (by omega) : eqn J K = 0), (eqn_ne (by omega) : eqn I C = 0), (eqn_ne (by omega) : eqn I D = 0), (eqn_ne (by omega) : eqn I K = 0), (eqn_ne (by omega) : eqn C D = 0), (eqn_ne (by omega) : eqn C M = 0), (eqn_ne (by omega) : eqn C K = 0), (eqn_ne (by omega) : eqn D M = 0), (eqn_ne (by omega) : eqn M K = 0), mul_zero, zero_mul, neg_zero, sub_zero, zero_sub, add_zero, zero_add]
          try ring
      · skip
        by_cases bK : K < nb
        · skip
          wick L (occupiedSet up down na nb) with [nnA, mA, nnB, hJ, nnJ, hI, nnC, mC, nnD, hM, nnM, hK, bB, bI, bD, bK]
          try simp only [ite_eqn, if_true, if_false, eqn_comm B A, eqn_comm J A, eqn_comm I A, eqn_comm C A, eqn_comm D A, eqn_comm M A, eqn_comm K A, eqn_comm J B, eqn_comm I B, eqn_comm C B, eqn_comm D B, eqn_comm M B, eqn_comm K B, eqn_comm I J, eqn_comm C J, eqn_comm D J, eqn_comm M J, eqn_comm K J, eqn_comm C I, eqn_comm D I, eqn_comm M I, eqn_comm K I, eqn_comm D C, eqn_comm M C, eqn_comm K C, eqn_comm M D, eqn_comm K D, eqn_comm K M]
          try simp only [(eqn_ne (by omega) : eqn A B = 0), (eqn_ne (by omega) : eqn A J = 0), (eqn_ne (by omega) : eqn A I = 0), (eqn_ne (by omega) : eqn A M = 0), (eqn_ne (by omega) : eqn A K = 0), (eqn_ne (by omega) : eqn B J = 0), (eqn_ne (by omega) : eqn B I = 0), (eqn_ne (by omega) : eqn B C = 0), (eqn_ne (by omega) : eqn B D = 0), (eqn_ne (by omega) : eqn B M = 0), (eqn_ne (by omega) : eqn B K = 0), (eqn_ne (by omega) : eqn J C = 0), (eqn_ne (by omega) : eqn J D = 0), (eqn_ne (by omega) : eqn I C = 0), (eqn_ne (by omega) : eqn I D = 0), (eqn_ne (by omega) : eqn C M = 0), (eqn_ne (by omega) : eqn C K = 0), (eqn_ne (by omega) : eqn D M = 0), (eqn_ne (by omega) : eqn D K = 0), mul_zero, zero_mul, neg_zero, sub_zero, zero_sub, add_zero, zero_add]
          try ring
        · skip
          wick L (occupiedSet up down na nb) with [nnA, mA, nnB, hJ, nnJ, hI, nnC, mC, nnD, hM, nnM, hK, bB, bI, bD, bK]
          try simp only [ite_eqn, if_true, if_false, eqn_comm B A, eqn_comm J A, eqn_comm I A, eqn_comm C A, eqn_comm D A, eqn_comm M A, eqn_comm K A, eqn_comm J B, eqn_comm I B, eqn_comm C B, eqn_comm D B, eqn_comm M B, eqn_comm K B, eqn_comm I J, eqn_comm C J, eqn_comm D J, eqn_comm M J, eqn_comm K J, eqn_comm C I, eqn_comm D I, eqn_comm M I, eqn_comm K I, eqn_comm D C, eqn_comm M C, eqn_comm K C, eqn_comm M D, eqn_comm K D, eqn_comm K M]
          try simp only [(eqn_ne (by omega) : eqn A B = 0), (eqn_ne (by omega) : eqn A J = 0), (eqn_ne (by omega) : eqn A I = 0), (eqn_ne (by omega) : eqn A M = 0), (eqn_ne (by omega) : eqn A K = 0), (eqn_ne (by omega) : eqn B J = 0), (eqn_ne (by omega) : eqn B I = 0), (eqn_ne (by omega) : eqn B C = 0), (eqn_ne (by omega) : eqn B D = 0), (eqn_ne (by omega) : eqn B M = 0), (eqn_ne (by omega) : eqn J C = 0), (eqn_ne (by omega) : eqn J D = 0), (eqn_ne (by omega) : eqn J K = 0), (eqn_ne (by omega) : eqn I C = 0), (eqn_ne (by omega) : eqn I D = 0), (eqn_ne (by omega) : eqn I K = 0), (eqn_ne (by omega) : eqn C M = 0), (eqn_ne (by omega) : eqn C K = 0), (eqn_ne (by omega) : eqn D M = 0), (eqn_ne (by omega) : eqn D K = 0), (eqn_ne (by omega) : eqn M K = 0), mul_zero, zero_mul, neg_zero, sub_zero, zero_sub, add_zero, zero_add]
          try ring
    · skip
      by_cases bD : D < na
      · skip
        by_cases bK : K < nb
        · skip
          wick L (occupiedSet up down na nb) with [nnA, mA, nnB, hJ, nnJ, hI, nnC, mC, nnD, hM, nnM, hK, bB, bI, bD, bK]
          try simp only [ite_eqn, if_true, if_false, eqn_comm B A, eqn_comm J A, eqn_comm I A, eqn_comm C A, eqn_comm D A, eqn_comm M A, eqn_comm K A, eqn_comm J B, eqn_comm I B, eqn_comm C B, eqn_comm D B, eqn_comm M B, eqn_comm K B, eqn_comm I J, eqn_comm C J, eqn_comm D J, eqn_comm M J, eqn_comm K J, eqn_comm C I, eqn_comm D I, eqn_comm M I, eqn_comm K I, eqn_comm D C, eqn_comm M C, eqn_comm K C, eqn_comm M D, eqn_comm K D, eqn_comm K M]
          try simp only [(eqn_ne (by omega) : eqn A B = 0), (eqn_ne (by omega) : eqn A J = 0), (eqn_ne (by omega) : eqn A I = 0), (eqn_ne (by omega) : eqn A D = 0), (eqn_ne (by omega) : eqn A M = 0), (eqn_ne (by omega) : eqn A K = 0), (eqn_ne (by omega) : eqn B J = 0), (eqn_ne (by omega) : eqn B C = 0), (eqn_ne (by omega) : eqn B M = 0), (eqn_ne (by omega) : eqn B K = 0), (eqn_ne (by omega) : eqn J I = 0), (eqn_ne (by omega) : eqn J C = 0), (eqn_ne (by omega) : eqn J D = 0), (eqn_ne (by omega) : eqn I C = 0), (eqn_ne (by omega) : eqn I M = 0), (eqn_ne (by omega) : eqn I K = 0), (eqn_ne (by omega) : eqn C D = 0), (eqn_ne (by omega) : eqn C M = 0), (eqn_ne (by omega) : eqn C K = 0), (eqn_ne (by omega) : eqn D M = 0), (eqn_ne (by omega) : eqn D K = 0), mul_zero, zero_mul, neg_zero, sub_zero, zero_sub, add_zero, zero_add]
          try ring
        · skip
          wick L (occupiedSet up down na nb) with [nnA, mA, nnB, hJ, nnJ, hI, nnC, mC, nnD, hM, nnM, hK, bB, bI, bD, bK]
          try simp only [ite_eqn, if_true, if_false, eqn_comm B A, eqn_comm J A, eqn_comm I A, eqn_comm C A, eqn_comm D A, eqn_comm M A, eqn_comm K A, eqn_comm J B, eqn_comm I B, eqn_comm C B, eqn_comm D B, eqn_comm M B, eqn_comm K B, eqn_comm I J, eqn_comm C J, eqn_comm D J, eqn_comm M J, eqn_comm K J, eqn_comm C I, eqn_comm D I, eqn_comm M I, eqn_comm K I, eqn_comm D C, eqn_comm M C, eqn_comm K C, eqn_comm M D, eqn_comm K D, eqn_comm K M]
          try simp only [(eqn_ne (by omega) : eqn A B = 0), (eqn_ne (by omega) : eqn A J = 0), (eqn_ne (by omega) : eqn A I = 0), (eqn_ne (by omega) : eqn A D = 0), (eqn_ne (by omega) : eqn A M = 0), (eqn_ne (by omega) : eqn A K = 0), (eqn_ne (by omega) : eqn B J = 0), (eqn_ne (by omega) : eqn B C = 0), (eqn_ne (by omega) : eqn B M = 0), (eqn_ne (by omega) : eqn J I = 0), (eqn_ne (by omega) : eqn J C = 0), (eqn_ne (by omega) : eqn J D = 0), (eqn_ne (by omega) : eqn J K = 0), (eqn_ne (by omega) : eqn I C = 0), (eqn_ne (by omega) : eqn I M = 0), (eqn_ne (by omega) : eqn C D = 0), (eqn_ne (by omega) : eqn C M = 0), (eqn_ne (by omega) : eqn C K = 0), (eqn_ne (by omega) : eqn D M = 0), (eqn_ne (by omega) : eqn M K = 0), mul_zero, zero_mul, neg_zero, sub_zero, zero_sub, add_zero, zero_add]
          try ring
      · skip
        by_cases bK : K < nb
        · skip
          wick L (occupiedSet up down na nb) with [nnA, mA, nnB, hJ, nnJ, hI, nnC, mC, nnD, hM, nnM, hK, bB, bI, bD, bK]
          try simp only [ite_eqn, if_true, if_false, eqn_comm B A, eqn_comm J A, eqn_comm I A, eqn_comm C A, eqn_comm D A, eqn_comm M A, eqn_comm K A, eqn_comm J B, eqn_comm I B, eqn_comm C B, eqn_comm D B, eqn_comm M B, eqn_comm K B, eqn_comm I J, eqn_comm C J, eqn_comm D J, eqn_comm M J, eqn_comm K J, eqn_comm C I, eqn_comm D I, eqn_comm M I, eqn_comm K I, eqn_comm D C, eqn_comm M C, eqn_comm K C, eqn_comm M D, eqn_comm K D, eqn_comm K M]
          try simp only [(eqn_ne (by omega) : eqn A B = 0), (eqn_ne (by omega) : eqn A J = 0), (eqn_ne (by omega) : eqn A I = 0), (eqn_ne (by omega) : eqn A M = 0), (eqn_ne (by omega) : eqn A K = 0), (eqn_ne (by omega) : eqn B J = 0), (eqn_ne (by omega) : eqn B C = 0), (eqn_ne (by omega) : eqn B D = 0), (eqn_ne (by omega) : eqn B M = 0), (eqn_ne (by omega) : eqn B K = 0), (eqn_ne (by omega) : eqn J I = 0), (eqn_ne (by omega) : eqn J C = 0), (eqn_ne (by omega) : eqn J D = 0), (eqn_ne (by omega) : eqn I C = 0), (eqn_ne (by omega) : eqn I D = 0), (eqn_ne (by omega) : eqn I M = 0), (eqn_ne (by omega) : eqn I K = 0), (eqn_ne (by omega) : eqn C M = 0), (eqn_ne (by omega) : eqn C K = 0), (eqn_ne (by omega) : eqn D M = 0), (eqn_ne (by omega) : eqn D K = 0), mul_zero, zero_mul, neg_zero, sub_zero, zero_sub, add_zero, zero_add]
          try ring
        · skip
          wick L (occupiedSet up down na nb) with [nnA, mA, nnB, hJ, nnJ, hI, nnC, mC, nnD, hM, nnM, hK, bB, bI, bD, bK]
          try simp only [ite_eqn, if_true, if_false, eqn_comm B A, eqn_comm J A, eqn_comm I A, eqn_comm C A, eqn_comm D A, eqn_comm M A, eqn_comm K A, eqn_comm J B, eqn_comm I B, eqn_comm C B, eqn_comm D B, eqn_comm M B, eqn_comm K B, eqn_comm I J, eqn_comm C J, eqn_comm D J, eqn_comm M J, eqn_comm K J, eqn_comm C I, eqn_comm D I, eqn_comm M I, eqn_comm K I, eqn_comm D C, eqn_comm M C, eqn_comm K C, eqn_comm M D, eqn_comm K D, eqn_comm K M]
          try simp only [(eqn_ne (by omega) : eqn A B = 0), (eqn_ne (by omega) : eqn A J = 0), (eqn_ne (by omega) : eqn A I = 0), (eqn_ne (by omega) : eqn A M = 0), (eqn_ne (by omega) : eqn A K = 0), (eqn_ne (by omega) : eqn B J = 0), (eqn_ne (by omega) : eqn B C = 0), (eqn_ne (by omega) : eqn B D = 0), (eqn_ne (by omega) : eqn B M = 0), (eqn_ne (by omega) : eqn J I = 0), (eqn_ne (by omega) : eqn J C = 0), (eqn_ne (by omega) : eqn J D = 0), (eqn_ne (by omega) : eqn J K = 0), (eqn_ne (by omega) : eqn I C = 0), (eqn_ne (by omega) : eqn I D = 0), (eqn_ne (by omega) : eqn I M = 0), (eqn_ne (by omega) : eqn C M = 0), (eqn_ne (by omega) : eqn C K = 0), (eqn_ne (by omega) : eqn D M = 0), (eqn_ne (by omega) : eqn D K = 0), (eqn_ne (by omega) : eqn M K = 0), mul_zero, zero_mul, neg_zero, sub_zero, zero_sub, add_zero, zero_add]
          try ring
  · skip
    by_cases bI : I < nb
    · skip
      by_cases bD : D < na
      · skip
        by_cases bK : K < nb
        · skip
          wick L (occupiedSet up down na nb) with [nnA, mA, nnB, hJ, nnJ, hI, nnC, mC, nnD, hM, nnM, hK, bB, bI, bD, bK]
          try simp only [ite_eqn, if_true, if_false, eqn_comm B A, eqn_comm J A, eqn_comm I A, eqn_comm C A, eqn_comm D A, eqn_comm M A, eqn_comm K A, eqn_comm J B, eqn_comm I B, eqn_comm C B, eqn_comm D B, eqn_comm M B, eqn_comm K B, eqn_comm I J, eqn_comm C J, eqn_comm D J, eqn_comm M J, eqn_comm K J, eqn_comm C I, eqn_comm D I, eqn_comm M I, eqn_comm K I, eqn_comm D C, eqn_comm M C, eqn_comm K C, eqn_comm M D, eqn_comm K D, eqn_comm K M]
          try simp only [(eqn_ne (by omega) : eqn A J = 0), (eqn_ne (by omega) : eqn A I = 0), (eqn_ne (by omega) : eqn A D = 0), (eqn_ne (by omega) : eqn A M = 0), (eqn_ne (by omega) : eqn A K = 0), (eqn_ne (by omega) : eqn B J = 0), (eqn_ne (by omega) : eqn B I = 0), (eqn_ne (by omega) : eqn B D = 0), (eqn_ne (by omega) : eqn B M = 0), (eqn_ne (by omega) : eqn B K = 0), (eqn_ne (by omega) : eqn J C = 0), (eqn_ne (by omega) : eqn J D = 0), (eqn_ne (by omega) : eqn I C = 0), (eqn_ne (by omega) : eqn I D = 0), (eqn_ne (by omega) : eqn C D = 0), (eqn_ne (by omega) : eqn C M = 0), (eqn_ne (by omega) : eqn C K = 0), (eqn_ne (by omega) : eqn D M = 0), (eqn_ne (by omega) : eqn D K = 0), mul_zero, zero_mul, neg_zero, sub_zero, zero_sub, add_zero, zero_add]
          try ring
        · skip
          wick L (occupiedSet up down na nb) with [nnA, mA, nnB, hJ, nnJ, hI, nnC, mC, nnD, hM, nnM, hK, bB, bI, bD, bK]
          try simp only [ite_eqn, if_true, if_false, eqn_comm B A, eqn_comm J A, eqn_comm I A, eqn_comm C A, eqn_comm D A, eqn_comm M A, eqn_comm K A, eqn_comm J B, eqn_comm I B, eqn_comm C B, eqn_comm D B, eqn_comm M B, eqn_comm K B, eqn_comm I J, eqn_comm C J, eqn_comm D J, eqn_comm M J, eqn_comm K J, eqn_comm C I, eqn_comm D I, eqn_comm M I, eqn_comm K I, eqn_comm D C, eqn_comm M C, eqn_comm K C, eqn_comm M D, eqn_comm K D, eqn_comm K M]
          try simp only [(eqn_ne (by omega) : eqn A J = 0), (eqn_ne (by omega) : eqn A I = 0), (eqn_ne (by omega) : eqn A D = 0), (eqn_ne (by omega) : eqn A M = 0), (eqn_ne (by omega) : eqn A K = 0), (eqn_ne (by omega) : eqn B J = 0), (eqn_ne (by omega) : eqn B I = 0), (eqn_ne (by omega) : eqn B D = 0), (eqn_ne (by omega) : eqn B M = 0), (eqn_ne (by omega) : eqn B K = 0), (eqn_ne (by omega) : eqn J C = 0), (eqn_ne (by omega) : eqn J D = 0), (eqn_ne (by omega) : eqn J K = 0), (eqn_ne (by omega) : eqn I C = 0), (eqn_ne (by omega) : eqn I D = 0), (eqn_ne (by omega) : eqn I K = 0), (eqn_ne (by omega) : eqn C D = 0), (eqn_ne (by omega) : eqn C M = 0), (eqn_ne (by omega) : eqn C K = 0), (eqn_ne (by omega) : eqn D M = 0), (eqn_ne (by omega) : eqn M K = 0), mul_zero, zero_mul, neg_zero, sub_zero, zero_sub, add_zero, zero_add]
          try ring
      · skip
        by_cases bK : K < nb
        · skip
          wick L (occupiedSet up down na nb) with [nnA, mA, nnB, hJ, nnJ, hI, nnC, mC, nnD, hM, nnM, hK, bB, bI, bD, bK]
          try simp only [ite_eqn, if_true, if_false, eqn_comm B A, eqn_comm J A, eqn_comm I A, eqn_comm C A, eqn_comm D A, eqn_comm M A, eqn_comm K A, eqn_comm J B, eqn_comm I B, eqn_comm C B, eqn_comm D B, eqn_comm M B, eqn_comm K B, eqn_comm I J, eqn_comm C J, eqn_comm D J, eqn_comm M J, eqn_comm K J, eqn_comm C I, eqn_comm D I, eqn_comm M I, eqn_comm K I, eqn_comm D C, eqn_comm M C, eqn_comm K C, eqn_comm M D, eqn_comm K D, eqn_comm K M]
          try simp only [(eqn_ne (by omega) : eqn A J = 0), (eqn_ne (by omega) : eqn A I = 0), (eqn_ne (by omega) : eqn A M = 0), (eqn_ne (by omega) : eqn A K = 0), (eqn_ne (by omega) : eqn B J = 0), (eqn_ne (by omega) : eqn B I = 0), (eqn_ne (by omega) : eqn B M = 0), (eqn_ne (by omega) : eqn B K = 0), (eqn_ne (by omega) : eqn J C = 0), (eqn_ne (by omega) : eqn J D = 0), (eqn_ne (by omega) : eqn I C = 0), (eqn_ne (by omega) : eqn I D = 0), (eqn_ne (by omega) : eqn C M = 0), (eqn_ne (by omega) : eqn C K = 0), (eqn_ne (by omega) : eqn D M = 0), (eqn_ne (by omega) : eqn D K = 0), mul_zero, zero_mul, neg_zero, sub_zero, zero_sub, add_zero, zero_add]
          try ring
        · skip
          wick L (occupiedSet up down na nb) with [nnA, mA, nnB, hJ, nnJ, hI, nnC, mC, nnD, hM, nnM, hK, bB, bI, bD, bK]
          try simp only [ite_eqn, if_true, if_false, eqn_comm B A, eqn_comm J A, eqn_comm I A, eqn_comm C A, eqn_comm D A, eqn_comm M A, eqn_comm K A, eqn_comm J B, eqn_comm I B, eqn_comm C B, eqn_comm D B, eqn_comm M B, eqn_comm K B, eqn_comm I J, eqn_comm C J, eqn_comm D J, eqn_comm M J, eqn_comm K J, eqn_comm C I, eqn_comm D I, eqn_comm M I, eqn_comm K I, eqn_comm D C, eqn_comm M C, eqn_comm K C, eqn_comm M D, eqn_comm K D, eqn_comm K M]
          try simp only [(eqn_ne (by omega) : eqn A J = 0), (eqn_ne (by omega) : eqn A I = 0), (eqn_ne (by omega) : eqn A M = 0), (eqn_ne (by omega) : eqn A K = 0), (eqn_ne (by omega) : eqn B J = 0), (eqn_ne (by omega) : eqn B I = 0), (eqn_ne (by omega) : eqn B M = 0), (eqn_ne (by omega) : eqn B K = 0), (eqn_ne (by omega) : eqn J C = 0), (eqn_ne (by omega) : eqn J D = 0), (eqn_ne (by omega) : eqn J K = 0), (eqn_ne (by omega) : eqn I C = 0), (eqn_ne (by omega) : eqn I D = 0), (eqn_ne (by omega) : eqn I K = 0), (eqn_ne (by omega) : eqn C M = 0), (eqn_ne (by omega) : eqn C K = 0), (eqn_ne (by omega) : eqn D M = 0), (eqn_ne (by omega) : eqn D K = 0), (eqn_ne (by omega) : eqn M K = 0), mul_zero, zero_mul, neg_zero, sub_zero, zero_sub, add_zero, zero_add]
          try ring
    · skip
      by_cases bD : D < na
      · skip
        by_cases bK : K < nb
        · skip
          wick L (occupiedSet up down na nb) with [nnA, mA, nnB, hJ, nnJ, hI, nnC, mC, nnD, hM, nnM, hK, bB, bI, bD, bK]
          try simp only [ite_eqn, if_true, if_false, eqn_comm B A, eqn_comm J A, eqn_comm I A, eqn_comm C A, eqn_comm D A, eqn_comm M A, eqn_comm K A, eqn_comm J B, eqn_comm I B, eqn_comm C B, eqn_comm D B, eqn_comm M B, eqn_comm K B, eqn_comm I J, eqn_comm C J, eqn_comm D J, eqn_comm M J, eqn_comm K J, eqn_comm C I, eqn_comm D I, eqn_comm M I, eqn_comm K I, eqn_comm D C, eqn_comm M C, eqn_comm K C, eqn_comm M D, eqn_comm K D, eqn_comm K M]
          try simp only [(eqn_ne (by omega) : eqn A J = 0), (eqn_ne (by omega) : eqn A I = 0), (eqn_ne (by omega) : eqn A D = 0), (eqn_ne (by omega) : eqn A M = 0), (eqn_ne (by omega) : eqn A K = 0), (eqn_ne (by omega) : eqn B J = 0), (eqn_ne (by omega) : eqn B I = 0), (eqn_ne (by omega) : eqn B D = 0), (eqn_ne (by omega) : eqn B M = 0), (eqn_ne (by omega) : eqn B K = 0), (eqn_ne (by omega) : eqn J I = 0), (eqn_ne (by omega) : eqn J C = 0), (eqn_ne (by omega) : eqn J D = 0), (eqn_ne (by omega) : eqn I C = 0), (eqn_ne (by omega) : eqn I M = 0), (eqn_ne (by omega) : eqn I K = 0), (eqn_ne (by omega) : eqn C D = 0), (eqn_ne (by omega) : eqn C M = 0), (eqn_ne (by omega) : eqn C K = 0), (eqn_ne (by omega) : eqn D M = 0), (eqn_ne (by omega) : eqn D K = 0), mul_zero, zero_mul, neg_zero, sub_zero, zero_sub, add_zero, zero_add]
          try ring
        · skip
          wick L (occupiedSet up down na nb) with [nnA, mA, nnB, hJ, nnJ, hI, nnC, mC, nnD, hM, nnM, hK, bB, bI, bD, bK]
          try simp only [ite_eqn, if_true, if_false, eqn_comm B A, eqn_comm J A, eqn_comm I A, eqn_comm C A, eqn_comm D A, eqn_comm M A, eqn_comm K A, eqn_comm J B, eqn_comm I B, eqn_comm C B, eqn_comm D B, eqn_comm M B, eqn_comm K B, eqn_comm I J, eqn_comm C J, eqn_comm D J, eqn_comm M J, eqn_comm K J, eqn_comm C I, eqn_comm D I, eqn_comm M I, eqn_comm K I, eqn_comm D C, eqn_comm M C, eqn_comm K C, eqn_comm M D, eqn_comm K D, eqn_comm K M]
          try simp only [(eqn_ne (by omega) : eqn A J = 0), (eqn_ne (by omega) : eqn A I = 0), (eqn_ne (by omega) : eqn A D = 0), (eqn_ne (by omega) : eqn A M = 0), (eqn_ne (by omega) : eqn A K = 0), (eqn_ne (by omega) : eqn B J = 0), (eqn_ne (by omega) : eqn B I = 0), (eqn_ne (by omega) : eqn B D = 0), (eqn_ne (by omega) : eqn B M = 0), (eqn_ne (by omega) : eqn B K = 0), (eqn_ne (by omega) : eqn J I = 0), (eqn_ne (by omega) : eqn J C = 0), (eqn_ne (by omega) : eqn J D = 0), (eqn_ne (by omega) : eqn J K = 0), (eqn_ne (by omega) : eqn I C = 0), (eqn_ne (by omega) : eqn I M = 0), (eqn_ne (by omega) : eqn C D = 0), (eqn_ne (by omega) : eqn C M = 0), (eqn_ne (by omega) : eqn C K = 0), (eqn_ne (by omega) : eqn D M = 0), (eqn_ne (by omega) : eqn M K = 0), mul_zero, zero_mul, neg_zero, sub_zero, zero_sub, add_zero, zero_add]
          try ring
      · skip
        by_cases bK : K < nb
        · skip
          wick L (occupiedSet up down na nb) with [nnA, mA, nnB, hJ, nnJ, hI, nnC, mC, nnD, hM, nnM, hK, bB, bI, bD, bK]
          try simp only [ite_eqn, if_true, if_false, eqn_comm B A, eqn_comm J A, eqn_comm I A, eqn_comm C A, eqn_comm D A, eqn_comm M A, eqn_comm K A, eqn_comm J B, eqn_comm I B, eqn_comm C B, eqn_comm D B, eqn_comm M B, eqn_comm K B, eqn_comm I J, eqn_comm C J, eqn_comm D J, eqn_comm M J, eqn_comm K J, eqn_comm C I, eqn_comm D I, eqn_comm M I, eqn_comm K I, eqn_comm D C, eqn_comm M C, eqn_comm K C, eqn_comm M D, eqn_comm K D, eqn_comm K M]
          try simp only [(eqn_ne (by omega) : eqn A J = 0), (eqn_ne (by omega) : eqn A I = 0), (eqn_ne (by omega) : eqn A M = 0), (eqn_ne (by omega) : eqn A K = 0), (eqn_ne (by omega) : eqn B J = 0), (eqn_ne (by omega) : eqn B I = 0), (eqn_ne (by omega) : eqn B M = 0), (eqn_ne (by omega) : eqn B K = 0), (eqn_ne (by omega) : eqn J I = 0), (eqn_ne (by omega) : eqn J C = 0), (eqn_ne (by omega) : eqn J D = 0), (eqn_ne (by omega) : eqn I C = 0), (eqn_ne (by omega) : eqn I D = 0), (eqn_ne (by omega) : eqn I M = 0), (eqn_ne (by omega) : eqn I K = 0), (eqn_ne (by omega) : eqn C M = 0), (eqn_ne (by omega) : eqn C K = 0), (eqn_ne (by omega) : eqn D M = 0), (eqn_ne (by omega) : eqn D K = 0), mul_zero, zero_mul, neg_zero, sub_zero, zero_sub, add_zero, zero_add]
          try ring
        · skip
          wick L (occupiedSet up down na nb) with [nnA, mA, nnB, hJ, nnJ, hI, nnC, mC, nnD, hM, nnM, hK, bB, bI, bD, bK]
          try simp only [ite_eqn, if_true, if_false, eqn_comm B A, eqn_comm J A, eqn_comm I A, eqn_comm C A, eqn_comm D A, eqn_comm M A, eqn_comm K A, eqn_comm J B, eqn_comm I B, eqn_comm C B, eqn_comm D B, eqn_comm M B, eqn_comm K B, eqn_comm I J, eqn_comm C J, eqn_comm D J, eqn_comm M J, eqn_comm K J, eqn_comm C I, eqn_comm D I, eqn_comm M I, eqn_comm K I, eqn_comm D C, eqn_comm M C, eqn_comm K C, eqn_comm M D, eqn_comm K D, eqn_comm K M]
          try simp only [(eqn_ne (by omega) : eqn A J = 0), (eqn_ne (by omega) : eqn A I = 0), (eqn_ne (by omega) : eqn A M = 0), (eqn_ne (by omega) : eqn A K = 0), (eqn_ne (by omega) : eqn B J = 0), (eqn_ne (by omega) : eqn B I = 0), (eqn_ne (by omega) : eqn B M = 0), (eqn_ne (by omega) : eqn B K = 0), (eqn_ne (by omega) : eqn J I = 0), (eqn_ne (by omega) : eqn J C = 0), (eqn_ne (by omega) : eqn J D = 0), (eqn_ne (by omega) : eqn J K = 0), (eqn_ne (by omega) : eqn I C = 0), (eqn_ne (by omega) : eqn I D = 0), (eqn_ne (by omega) : eqn I M = 0), (eqn_ne (by omega) : eqn C M = 0), (eqn_ne (by omega) : eqn C K = 0), (eqn_ne (by omega) : eqn D M = 0), (eqn_ne (by omega) : eqn D K = 0), (eqn_ne (by omega) : eqn M K = 0), mul_zero, zero_mul, neg_zero, sub_zero, zero_sub, add_zero, zero_add]
          try ring

theorem element_aa_aa (L : Labels up down) (hab : nb ≤ na) (hn : na ≤ n) {A B J I C D M K : ℕ}
    (hA : na ≤ A) (gA : A < n) (hB : na ≤ B) (gB : B < n) (hJ : J < na) (hI : I < na) (hC : na ≤ C) (gC : C < n) (hD : na ≤ D) (gD : D < n) (hM : M < na) (hK : K < na) (oAB : A < B) (oIJ : I < J) (oCD : C < D) (oKM : K < M) :
    inner (cre (up A) (cre (up B) (ann (up J) (ann (up I) (reference up down na nb)))))
        (spinSquared n up down (cre (up C) (cre (up D) (ann (up M) (ann (up K) (reference up down na nb)))))) =
      ((if I < nb then 1 else 0) + (if J < nb then 1 else 0) + ((((na : ℚ) - nb) / 2 + 1) * (((na : ℚ) - nb) / 2))) *
        (eqn I K * eqn A C * eqn J M * eqn B D) := by
  rw [inner_spinSquared (((((hasSz_reference (n := n) L hn (hab.trans hn)).ann_up L (a := K) (by omega)).ann_up L (a := M) (by omega)).cre_up L (a := D) (by omega)).cre_up L (a := C) (by omega))]
  simp only [raising_cre_up L, raising_ann_up (by omega : J < n) L, raising_ann_up (by omega : I < n) L, raising_ann_up (by omega : M < n) L, raising_ann_up (by omega : K < n) L, raising_reference L hab]
  have nnA : ¬ A < na := by omega
  have mA : ¬ A < nb := by omega
  have nnB : ¬ B < na := by omega
  have mB : ¬ B < nb := by omega
  have nnC : ¬ C < na := by omega
  have mC : ¬ C < nb := by omega
  have nnD : ¬ D < na := by omega
  have mD : ¬ D < nb := by omega
  by_cases bJ : J < nb
  · skip
    by_cases bI : I < nb
    · skip
      by_cases bM : M < nb
      · skip
        by_cases bK : K < nb
        · skip
          wick L (occupiedSet up down na nb) with [nnA, mA, nnB, mB, hJ, hI, nnC, mC, nnD, mD, hM, hK, bJ, bI, bM, bK]
          try simp only [ite_eqn, if_true, if_false, eqn_comm B A, eqn_comm J A, eqn_comm I A, eqn_comm C A, eqn_comm D A, eqn_comm M A, eqn_comm K A, eqn_comm J B, eqn_comm I B, eqn_comm C B, eqn_comm D B, eqn_comm M B, eqn_comm K B, eqn_comm I J, eqn_comm C J, eqn_comm D J, eqn_comm M J, eqn_comm K J, eqn_comm C I, eqn_comm D I, eqn_comm M I, eqn_comm K I, eqn_comm D C, eqn_comm M C, eqn_comm K C, eqn_comm M D, eqn_comm K D, eqn_comm K M]
          try simp only [(eqn_ne (by omega) : eqn A J = 0), (eqn_ne (by omega) : eqn A I = 0), (eqn_ne (by omega) : eqn A M = 0), (eqn_ne (by omega) : eqn A K = 0), (eqn_ne (by omega) : eqn B J = 0), (eqn_ne (by omega) : eqn B I = 0), (eqn_ne (by omega) : eqn B M = 0), (eqn_ne (by omega) : eqn B K = 0), (eqn_ne (by omega) : eqn J C = 0), (eqn_ne (by omega) : eqn J D = 0), (eqn_ne (by omega) : eqn I C = 0), (eqn_ne (by omega) : eqn I D = 0), (eqn_ne (by omega) : eqn C M = 0), (eqn_ne (by omega) : eqn C K = 0), (eqn_ne (by omega) : eqn D M = 0), (eqn_ne (by omega) : eqn D K = 0), mul_zero, zero_mul, neg_zero, sub_zero, zero_sub, add_zero, zero_add]
          try (if qAD : A = D then ((try simp only [(eqn_ne (by omega) : eqn B C = 0), (eqn_ne (by omega) : eqn A C = 0), (eqn_ne (by omega) : eqn B D = 0), mul_zero, zero_mul, neg_zero, sub_zero, zero_sub, add_zero, zero_add]); try (if qIM : I = M then ((try simp only [(eqn_ne (by omega) : eqn J K = 0), (eqn_ne (by omega) : eqn I K = 0), (eqn_ne (by omega) : eqn J M = 0), mul_zero, zero_mul, neg_zero, sub_zero, zero_sub, add_zero, zero_add]); try ring) else ((try simp only [(eqn_ne qIM : eqn I M = 0), mul_zero, zero_mul, neg_zero, sub_zero, zero_sub, add_zero, zero_add]); try ring))) else ((try simp only [(eqn_ne qAD : eqn A D = 0), mul_zero, zero_mul, neg_zero, sub_zero, zero_sub, add_zero, zero_add]); try (if qIM : I = M then ((try simp only [(eqn_ne (by omega) : eqn J K = 0), (eqn_ne (by omega) : eqn I K = 0), (eqn_ne (by omega) : eqn J M = 0), mul_zero, zero_mul, neg_zero, sub_zero, zero_sub, add_zero, zero_add]); try ring) else ((try simp only [(eqn_ne qIM : eqn I M = 0), mul_zero, zero_mul, neg_zero, sub_zero, zero_sub, add_zero, zero_add]); try ring))))
        · skip
          wick L (occupiedSet up down na nb) with [nnA, mA, nnB, mB, hJ, hI, nnC, mC, nnD, mD, hM, hK, bJ, bI, bM, bK]
          try simp only [ite_eqn, if_true, if_false, eqn_comm B A, eqn_comm J A, eqn_comm I A, eqn_comm C A, eqn_comm D A, eqn_comm M A, eqn_comm K A, eqn_comm J B, eqn_comm I B, eqn_comm C B, eqn_comm D B, eqn_comm M B, eqn_comm K B, eqn_comm I J, eqn_comm C J, eqn_comm D J, eqn_comm M J, eqn_comm K J, eqn_comm C I, eqn_comm D I, eqn_comm M I, eqn_comm K I, eqn_comm D C, eqn_comm M C, eqn_comm K C, eqn_comm M D, eqn_comm K D, eqn_comm K M]
          try simp only [(eqn_ne (by omega) : eqn A J = 0), (eqn_ne (by omega) : eqn A I = 0), (eqn_ne (by omega) : eqn A M = 0), (eqn_ne (by omega) : eqn A K = 0), (eqn_ne (by omega) : eqn B J = 0), (eqn_ne (by omega) : eqn B I = 0), (eqn_ne (by omega) : eqn B M = 0), (eqn_ne (by omega) : eqn B K = 0), (eqn_ne (by omega) : eqn J C = 0), (eqn_ne (by omega) : eqn J D = 0), (eqn_ne (by omega) : eqn J K = 0), (eqn_ne (by omega) : eqn I C = 0), (eqn_ne (by omega) : eqn I D = 0), (eqn_ne (by omega) : eqn I K = 0), (eqn_ne (by omega) : eqn C M = 0), (eqn_ne (by omega) : eqn C K = 0), (eqn_ne (by omega) : eqn D M = 0), (eqn_ne (by omega) : eqn D K = 0), (eqn_ne (by omega) : eqn M K = 0), mul_zero, zero_mul, neg_zero, sub_zero, zero_sub, add_zero, zero_add]
          try (if qAD : A = D then ((try simp only [(eqn_ne (by omega) : eqn B C = 0), (eqn_ne (by omega) : eqn A C = 0), (eqn_ne (by omega) : eqn B D = 0), mul_zero, zero_mul, neg_zero, sub_zero, zero_sub, add_zero, zero_add]); try (if qIM : I = M then ((try simp only [(eqn_ne (by omega) : eqn J K = 0), (eqn_ne (by omega) : eqn I K = 0), (eqn_ne (by omega) : eqn J M = 0), mul_zero, zero_mul, neg_zero, sub_zero, zero_sub, add_zero, zero_add]); try ring) else ((try simp only [(eqn_ne qIM : eqn I M = 0), mul_zero, zero_mul, neg_zero, sub_zero, zero_sub, add_zero, zero_add]); try ring))) else ((try simp only [(eqn_ne qAD : eqn A D = 0), mul_zero, zero_mul, neg_zero, sub_zero, zero_sub, add_zero, zero_add]); try (if qIM : I = M then ((try simp only [(eqn_ne (by omega) : eqn J K = 0), (eqn_ne (by omega) : eqn I K = 0), (eqn_ne (by omega) : eqn J M = 0), mul_zero, zero_mul, neg_zero, sub_zero, zero_sub, add_zero, zero_add]); try ring) else ((try simp only [(eqn_ne qIM : eqn I M = 0), mul_zero, zero_mul, neg_zero, sub_zero, zero_sub, add_zero, zero_add]); try ring))))
      · skip
        by_cases bK : K < nb
        · skip
          wick L (occupiedSet up down na nb) with [nnA, mA, nnB, mB, hJ, hI, nnC, mC, nnD, mD, hM, hK, bJ, bI, bM, bK]
          try simp only [ite_eqn, if_true, if_false, eqn_comm B A, eqn_comm J A, eqn_comm I A, eqn_comm C A, eqn_comm D A, eqn_comm M A, eqn_comm K A, eqn_comm J B, eqn_comm I B, eqn_comm C B, eqn_comm D B, eqn_comm M B, eqn_comm K B, eqn_comm I J, eqn_comm C J, eqn_comm D J, eqn_comm M J, eqn_comm K J, eqn_comm C I, eqn_comm D I, eqn_comm M I, eqn_comm K I, eqn_comm D C, eqn_comm M C, eqn_comm K C, eqn_comm M D, eqn_comm K D, eqn_comm K M]
          try simp only [(eqn_ne (by omega) : eqn A J = 0), (eqn_ne (by omega) : eqn A I = 0), (eqn_ne (by omega) : eqn A M = 0), (eqn_ne (by omega) : eqn A K = 0), (eqn_ne (by omega) : eqn B J = 0), (eqn_ne (by omega) : eqn B I = 0), (eqn_ne (by omega) : eqn B M = 0), (eqn_ne (by omega) : eqn B K = 0), (eqn_ne (by omega) : eqn J C = 0), (eqn_ne (by omega) : eqn J D = 0), (eqn_ne (by omega) : eqn J M = 0), (eqn_ne (by omega) : eqn I C = 0), (eqn_ne (by omega) : eqn I D = 0), (eqn_ne (by omega) : eqn I M = 0), (eqn_ne (by omega) : eqn C M = 0), (eqn_ne (by omega) : eqn C K = 0), (eqn_ne (by omega) : eqn D M = 0), (eqn_ne (by omega) : eqn D K = 0), (eqn_ne (by omega) : eqn M K = 0), mul_zero, zero_mul, neg_zero, sub_zero, zero_sub, add_zero, zero_add]
          try (if qAD : A = D then ((try simp only [(eqn_ne (by omega) : eqn B C = 0), (eqn_ne (by omega) : eqn A C = 0), (eqn_ne (by omega) : eqn B D = 0), mul_zero, zero_mul, neg_zero, sub_zero, zero_sub, add_zero, zero_add]); try (if qIM : I = M then ((try simp only [(eqn_ne (by omega) : eqn J K = 0), (eqn_ne (by omega) : eqn I K = 0), (eqn_ne (by omega) : eqn J M = 0), mul_zero, zero_mul, neg_zero, sub_zero, zero_sub, add_zero, zero_add]); try ring) else ((try simp only [(eqn_ne qIM : eqn I M = 0), mul_zero, zero_mul, neg_zero, sub_zero, zero_sub, add_zero, zero_add]); try ring))) else ((try simp only [(eqn_ne qAD : eqn A D = 0), mul_zero, zero_mul, neg_zero, sub_zero, zero_sub, add_zero, zero_add]); try (if qIM : I = M then ((try simp only [(eqn_ne (by omega) : eqn J K = 0), (eqn_ne (by omega) : eqn I K = 0), (eqn_ne (by omega) : eqn J M = 0), mul_zero, zero_mul, neg_zero, sub_zero, zero_sub, add_zero, zero_add]); try ring) else ((try simp only [(eqn_ne qIM : eqn I M = 0), mul_zero, zero_mul, neg_zero, sub_zero, zero_sub, add_zero, zero_add]); try ring))))
        · skip
          wick L (occupiedSet up down na nb) with [nnA, mA, nnB, mB, hJ, hI, nnC, mC, nnD, mD, hM, hK, bJ, bI, bM, bK]
          try simp only [ite_eqn, if_true, if_false, eqn_comm B A, eqn_comm J A, eqn_comm I A, eqn_comm C A, eqn_comm D A, eqn_comm M A, eqn_comm K A, eqn_comm J B, eqn_comm I B, eqn_comm C B, eqn_comm D B, eqn_comm M B, eqn_comm K B, eqn_comm I J, eqn_comm C J, eqn_comm D J, eqn_comm M J, eqn_comm K J, eqn_comm C I, eqn_comm D I, eqn_comm M I, eqn_comm K I, eqn_comm D C, eqn_comm M C, eqn_comm K C, eqn_comm M D, eqn_comm K D, eqn_comm K M]
          try simp only [(eqn_ne (by omega) : eqn A J = 0), (eqn_ne (by omega) : eqn A I = 0), (eqn_ne (by omega) : eqn A M = 0), (eqn_ne (by omega) : eqn A K = 0), (eqn_ne (by omega) : eqn B J = 0), (eqn_ne (by omega) : eqn B I = 0), (eqn_ne (by omega) : eqn B M = 0), (eqn_ne (by omega) : eqn B K = 0), (eqn_ne (by omega) : eqn J C = 0), (eqn_ne (by omega) : eqn J D = 0), (eqn_ne (by omega) : eqn J M = 0), (eqn_ne (by omega) : eqn J K = 0), (eqn_ne (by omega) : eqn I C = 0), (eqn_ne (by omega) : eqn I D = 0), (eqn_ne (by omega) : eqn I M = 0), (eqn_ne (by omega) : eqn I K = 0), (eqn_ne (by omega) : eqn C M = 0), (eqn_ne (by omega) : eqn C K = 0), (eqn_ne (by omega) : eqn D M = 0), (eqn_ne (by omega) : eqn D K = 0), mul_zero, zero_mul, neg_zero, sub_zero, zero_sub, add_zero, zero_add]
          try (if qAD : A = D then ((try simp only [(eqn_ne (by omega) : eqn B C = 0), (eqn_ne (by omega) : eqn A C = 0), (eqn_ne (by omega) : eqn B D = 0), mul_zero, zero_mul, neg_zero, sub_zero, zero_sub, add_zero, zero_add]); try (if qIM : I = M then ((try simp only [(eqn_ne (by omega) : eqn J K = 0), (eqn_ne (by omega) : eqn I K = 0), (eqn_ne (by omega) : eqn J M = 0), mul_zero, zero_mul, neg_zero, sub_zero, zero_sub, add_zero, zero_add]); try ring) else ((try simp only [(eqn_ne qIM : eqn I M = 0), mul_zero, zero_mul, neg_zero, sub_zero, zero_sub, add_zero, zero_add]); try ring))) else ((try simp only [(eqn_ne qAD : eqn A D = 0), mul_zero, zero_mul, neg_zero, sub_zero, zero_sub, add_zero, zero_add]); try (if qIM : I = M then ((try simp only [(eqn_ne (by omega) : eqn J K = 0), (eqn_ne (by omega) : eqn I K = 0), (eqn_ne (by omega) : eqn J M = 0), mul_zero, zero_mul, neg_zero, sub_zero, zero_sub, add_zero, zero_add]); try ring) else ((try simp only [(eqn_ne qIM : eqn I M = 0), mul_zero, zero_mul, neg_zero, sub_zero, zero_sub, add_zero, zero_add]); try ring))))
    · skip
      by_cases bM : M < nb
      · skip
        by_cases bK : K < nb
        · skip
          wick L (occupiedSet up down na nb) with [nnA, mA, nnB, mB, hJ, hI, nnC, mC, nnD, mD, hM, hK, bJ, bI, bM, bK]
          try simp only [ite_eqn, if_true, if_false, eqn_comm B A, eqn_comm J A, eqn_comm I A, eqn_comm C A, eqn_comm D A, eqn_comm M A, eqn_comm K A, eqn_comm J B, eqn_comm I B, eqn_comm C B, eqn_comm D B, eqn_comm M B, eqn_comm K B, eqn_comm I J, eqn_comm C J, eqn_comm D J, eqn_comm M J, eqn_comm K J, eqn_comm C I, eqn_comm D I, eqn_comm M I, eqn_comm K I, eqn_comm D C, eqn_comm M C, eqn_comm K C, eqn_comm M D, eqn_comm K D, eqn_comm K M]
          try simp only [(eqn_ne (by omega) : eqn A J = 0), (eqn_ne (by omega) : eqn A I = 0), (eqn_ne (by omega) : eqn A M = 0), (eqn_ne (by omega) : eqn A K = 0), (eqn_ne (by omega) : eqn B J = 0), (eqn_ne (by omega) : eqn B I = 0), (eqn_ne (by omega) : eqn B M = 0), (eqn_ne (by omega) : eqn B K = 0), (eqn_ne (by omega) : eqn J I = 0), (eqn_ne (by omega) : eqn J C = 0), (eqn_ne (by omega) : eqn J D = 0), (eqn_ne (by omega) : eqn I C = 0), (eqn_ne (by omega) : eqn I D = 0), (eqn_ne (by omega) : eqn I M = 0), (eqn_ne (by omega) : eqn I K = 0), (eqn_ne (by omega) : eqn C M = 0), (eqn_ne (by omega) : eqn C K = 0), (eqn_ne (by omega) : eqn D M = 0), (eqn_ne (by omega) : eqn D K = 0), mul_zero, zero_mul, neg_zero, sub_zero, zero_sub, add_zero, zero_add]
          try (if qAD : A = D then ((try simp only [(eqn_ne (by omega) : eqn B C = 0), (eqn_ne (by omega) : eqn A C = 0), (eqn_ne (by omega) : eqn B D = 0), mul_zero, zero_mul, neg_zero, sub_zero, zero_sub, add_zero, zero_add]); try (if qIM : I = M then ((try simp only [(eqn_ne (by omega) : eqn J K = 0), (eqn_ne (by omega) : eqn I K = 0), (eqn_ne (by omega) : eqn J M = 0), mul_zero, zero_mul, neg_zero, sub_zero, zero_sub, add_zero, zero_add]); try ring) else ((try simp only [(eqn_ne qIM : eqn I M = 0), mul_zero, zero_mul, neg_zero, sub_zero, zero_sub, add_zero, zero_add]); try ring))) else ((try simp only [(eqn_ne qAD : eqn A D = 0), mul_zero, zero_mul, neg_zero, sub_zero, zero_sub, add_zero, zero_add]); try (if qIM : I = M then ((try simp only [(eqn_ne (by omega) : eqn J K = 0), (eqn_ne (by omega) : eqn I K = 0), (eqn_ne (by omega) : eqn J M = 0), mul_zero, zero_mul, neg_zero, sub_zero, zero_sub, add_zero, zero_add]); try ring) else ((try simp only [(eqn_ne qIM : eqn I M = 0), mul_zero, zero_mul, neg_zero, sub_zero, zero_sub, add_zero, zero_add]); try ring))))
        · skip
          wick L (occupiedSet up down na nb) with [nnA, mA, nnB, mB, hJ, hI, nnC, mC, nnD, mD, hM, hK, bJ, bI, bM, bK]
          try simp only [ite_eqn, if_true, if_false, eqn_comm B A, eqn_comm J A, eqn_comm I A, eqn_comm C A, eqn_comm D A, eqn_comm M A, eqn_comm K A, eqn_comm J B, eqn_comm I B, eqn_comm C B, eqn_comm D B, eqn_comm M B, eqn_comm K B, eqn_comm I J, eqn_comm C J, eqn_comm D J, eqn_comm M J, eqn_comm K J, eqn_comm C I, eqn_comm D I, eqn_comm M I, eqn_comm K I, eqn_comm D C, eqn_comm M C, eqn_comm K C, eqn_comm M D, eqn_comm K D, eqn_comm K M]
          try simp only [(eqn_ne (by omega) : eqn A J = 0), (eqn_ne (by omega) : eqn A I = 0), (eqn_ne (by omega) : eqn A M = 0), (eqn_ne (by omega) : eqn A K = 0), (eqn_ne (by omega) : eqn B J = 0), (eqn_ne (by omega) : eqn B I = 0), (eqn_ne (by omega) : eqn B M = 0), (eqn_ne (by omega) : eqn B K = 0), (eqn_ne (by omega) : eqn J I = 0), (eqn_ne (by omega) : eqn J C = 0), (eqn_ne (by omega) : eqn J D = 0), (eqn_ne (by omega) : eqn J K = 0), (eqn_ne (by omega) : eqn I C = 0), (eqn_ne (by omega) : eqn I D = 0), (eqn_ne (by omega) : eqn I M = 0), (eqn_ne (by omega) : eqn C M = 0), (eqn_ne (by omega) : eqn C K = 0), (eqn_ne (by omega) : eqn D M = 0), (eqn_ne (by omega) : eqn D K = 0), (eqn_ne (by omega) : eqn M K = 0), mul_zero, zero_mul, neg_zero, sub_zero, zero_sub, add_zero, zero_add]
          try (if qAD : A = D then ((try simp only [(eqn_ne (by omega) : eqn B C = 0), (eqn_ne (by omega) : eqn A C = 0), (eqn_ne (by omega) : eqn B D = 0), mul_zero, zero_mul, neg_zero, sub_zero, zero_sub, add_zero, zero_add]); try (if qIM : I = M then ((try simp only [(eqn_ne (by omega) : eqn J K = 0), (eqn_ne (by omega) : eqn I K = 0), (eqn_ne (by omega) : eqn J M = 0), mul_zero, zero_mul, neg_zero, sub_zero, zero_sub, add_zero, zero_add]); try ring) else ((try simp only [(eqn_ne qIM : eqn I M = 0), mul_zero, zero_mul, neg_zero, sub_zero, zero_sub, add_zero, zero_add]); try ring))) else ((try simp only [(eqn_ne qAD : eqn A D = 0), mul_zero, zero_mul, neg_zero, sub_zero, zero_sub, add_zero, zero_add]); try (if qIM : I = M then ((try simp only [(eqn_ne (by omega) : eqn J K = 0), (eqn_ne (by omega) : eqn I K = 0), (eqn_ne (by omega) : eqn J M = 0), mul_zero, zero_mul, neg_zero, sub_zero, zero_sub, add_zero, zero_add]); try ring) else ((try simp only [(eqn_ne qIM : eqn I M = 0), mul_zero, zero_mul, neg_zero, sub_zero, zero_sub, add_zero, zero_add]); try ring))))
      · skip
        by_cases bK : K < nb
        · skip
          wick L (occupiedSet up down na nb) with [nnA, mA, nnB, mB, hJ, hI, nnC, mC, nnD, mD, hM, hK, bJ, bI, bM, bK]
          try simp only [ite_eqn, if_true, if_false, eqn_comm B A, eqn_comm J A, eqn_comm I A, eqn_comm C A, eqn_comm D A, eqn_comm M A, eqn_comm K A, eqn_comm J B, eqn_comm I B, eqn_comm C B, eqn_comm D B, eqn_comm M B, eqn_comm K B, eqn_comm I J, eqn_comm C J, eqn_comm D J, eqn_comm M J, eqn_comm K J, eqn_comm C I, eqn_comm D I, eqn_comm M I, eqn_comm K I, eqn_comm D C, eqn_comm M C, eqn_comm K C, eqn_comm M D, eqn_comm K D, eqn_comm K M]
          try simp only [(eqn_ne (by omega) : eqn A J = 0), (eqn_ne (by omega) : eqn A I = 0), (eqn_ne (by omega) : eqn A M = 0), (eqn_ne (by omega) : eqn A K = 0), (eqn_ne (by omega) : eqn B J = 0), (eqn_ne (by omega) : eqn B I = 0), (eqn_ne (by omega) : eqn B M = 0), (eqn_ne (by omega) : eqn B K = 0), (eqn_ne (by omega) : eqn J I = 0), (eqn_ne (by omega) : eqn J C = 0), (eqn_ne (by omega) : eqn J D = 0), (eqn_ne (by omega) : eqn J M = 0), (eqn_ne (by omega) : eqn I C = 0), (eqn_ne (by omega) : eqn I D = 0), (eqn_ne (by omega) : eqn I K = 0), (eqn_ne (by omega) : eqn C M = 0), (eqn_ne (by omega) : eqn C K = 0), (eqn_ne (by omega) : eqn D M = 0), (eqn_ne (by omega) : eqn D K = 0), (eqn_ne (by omega) : eqn M K = 0), mul_zero, zero_mul, neg_zero, sub_zero, zero_sub, add_zero, zero_add]
          try (if qAD : A = D then ((try simp only [(eqn_ne (by omega) : eqn B C = 0), (eqn_ne (by omega) : eqn A C = 0), (eqn_ne (by omega) : eqn B D = 0), mul_zero, zero_mul, neg_zero, sub_zero, zero_sub, add_zero, zero_add]); try (if qIM : I = M then ((try simp only [(eqn_ne (by omega) : eqn J K = 0), (eqn_ne (by omega) : eqn I K = 0), (eqn_ne (by omega) : eqn J M = 0), mul_zero, zero_mul, neg_zero, sub_zero, zero_sub, add_zero, zero_add]); try ring) else ((try simp only [(eqn_ne qIM : eqn I M = 0), mul_zero, zero_mul, neg_zero, sub_zero, zero_sub, add_zero, zero_add]); try ring))) else ((try simp only [(eqn_ne qAD : eqn A D = 0), mul_zero, zero_mul, neg_zero, sub_zero, zero_sub, add_zero, zero_add]); try (if qIM : I = M then ((try simp only [(eqn_ne (by omega) : eqn J K = 0), (eqn_ne (by omega) : eqn I K = 0), (eqn_ne (by omega) : eqn J M = 0), mul_zero, zero_mul, neg_zero, sub_zero, zero_sub, add_zero, zero_add]); try ring) else ((try simp only [(eqn_ne qIM : eqn I M = 0), mul_zero, zero_mul, neg_zero, sub_zero, zero_sub, add_zero, zero_add]); try ring))))
        · skip
          wick L (occupiedSet up down na nb) with [nnA, mA, nnB, mB, hJ, hI, nnC, mC, nnD, mD, hM, hK, bJ, bI, bM, bK]
          try simp only [ite_eqn, if_true, if_false, eqn_comm B A, eqn_comm J A, eqn_comm I A, eqn_comm C A, eqn_comm D A, eqn_comm M A, eqn_comm K A, eqn_comm J B, eqn_comm I B, eqn_comm C B, eqn_comm D B, eqn_comm M B, eqn_comm K B, eqn_comm I J, eqn_comm C J, eqn_comm D J, eqn_comm M J, eqn_comm K J, eqn_comm C I, eqn_comm D I, eqn_comm M I, eqn_comm K I, eqn_comm D C, eqn_comm M C, eqn_comm K C, eqn_comm M D, eqn_comm K D, eqn_comm K M]
          try simp only [(eqn_ne (by omega) : eqn A J = 0), (eqn_ne (by omega) : eqn A I = 0), (eqn_ne (by omega) : eqn A M = 0), (eqn_ne (by omega) : eqn A K = 0), (eqn_ne (by omega) : eqn B J = 0), (eqn_ne (by omega) : eqn B I = 0), (eqn_ne (by omega) : eqn B M = 0), (eqn_ne (by omega) : eqn B K = 0), (eqn_ne (by omega) : eqn J I = 0), (eqn_ne (by omega) : eqn J C = 0), (eqn_ne (by omega) : eqn J D = 0), (eqn_ne (by omega) : eqn J M = 0), (eqn_ne (by omega) : eqn J K = 0), (eqn_ne (by omega) : eqn I C = 0), (eqn_ne (by omega) : eqn I D = 0), (eqn_ne (by omega) : eqn C M = 0), (eqn_ne (by omega) : eqn C K = 0), (eqn_ne (by omega) : eqn D M = 0), (eqn_ne (by omega) : eqn D K = 0), mul_zero, zero_mul, neg_zero, sub_zero, zero_sub, add_zero, zero_add]
          try (if qAD : A = D then ((try simp only [(eqn_ne (by omega) : eqn B C = 0), (eqn_ne (by omega) : eqn A C = 0), (eqn_ne (by omega) : eqn B D = 0), mul_zero, zero_mul, neg_zero, sub_zero, zero_sub, add_zero, zero_add]); try (if qIM : I = M then ((try simp only [(eqn_ne (by omega) : eqn J K = 0), (eqn_ne (by omega) : eqn I K = 0), (eqn_ne (by omega) : eqn J M = 0), mul_zero, zero_mul, neg_zero, sub_zero, zero_sub, add_zero, zero_add]); try ring) else ((try simp only [(eqn_ne qIM : eqn I M = 0), mul_zero, zero_mul, neg_zero, sub_zero, zero_sub, add_zero, zero_add]); try ring))) else ((try simp only [(eqn_ne qAD : eqn A D = 0), mul_zero, zero_mul, neg_zero, sub_zero, zero_sub, add_zero, zero_add]); try (if qIM : I = M then ((try simp only [(eqn_ne (by omega) : eqn J K = 0), (eqn_ne (by omega) : eqn I K = 0), (eqn_ne (by omega) : eqn J M = 0), mul_zero, zero_mul, neg_zero, sub_zero, zero_sub, add_zero, zero_add]); try ring) else ((try simp only [(eqn_ne qIM : eqn I M = 0), mul_zero, zero_mul, neg_zero, sub_zero, zero_sub, add_zero, zero_add]); try ring))))
  · skip
    by_cases bI : I < nb
    · skip
      by_cases bM : M < nb
      · skip
        by_cases bK : K < nb
        · skip
          wick L (occupiedSet up down na nb) with [nnA, mA, nnB, mB, hJ, hI, nnC, mC, nnD, mD, hM, hK, bJ, bI, bM, bK]
          try simp only [ite_eqn, if_true, if_false, eqn_comm B A, eqn_comm J A, eqn_comm I A, eqn_comm C A, eqn_comm D A, eqn_comm M A, eqn_comm K A, eqn_comm J B, eqn_comm I B, eqn_comm C B, eqn_comm D B, eqn_comm M B, eqn_comm K B, eqn_comm I J, eqn_comm C J, eqn_comm D J, eqn_comm M J, eqn_comm K J, eqn_comm C I, eqn_comm D I, eqn_comm M I, eqn_comm K I, eqn_comm D C, eqn_comm M C, eqn_comm K C, eqn_comm M D, eqn_comm K D, eqn_comm K M]
          try simp only [(eqn_ne (by omega) : eqn A J = 0), (eqn_ne (by omega) : eqn A I = 0), (eqn_ne (by omega) : eqn A M = 0), (eqn_ne (by omega) : eqn A K = 0), (eqn_ne (by omega) : eqn B J = 0), (eqn_ne (by omega) : eqn B I = 0), (eqn_ne (by omega) : eqn B M = 0), (eqn_ne (by omega) : eqn B K = 0), (eqn_ne (by omega) : eqn J I = 0), (eqn_ne (by omega) : eqn J C = 0), (eqn_ne (by omega) : eqn J D = 0), (eqn_ne (by omega) : eqn J M = 0), (eqn_ne (by omega) : eqn J K = 0), (eqn_ne (by omega) : eqn I C = 0), (eqn_ne (by omega) : eqn I D = 0), (eqn_ne (by omega) : eqn C M = 0), (eqn_ne (by omega) : eqn C K = 0), (eqn_ne (by omega) : eqn D M = 0), (eqn_ne (by omega) : eqn D K = 0), mul_zero, zero_mul, neg_zero, sub_zero, zero_sub, add_zero, zero_add]
          try (if qAD : A = D then ((try simp only [(eqn_ne (by omega) : eqn B C = 0), (eqn_ne (by omega) : eqn A C = 0), (eqn_ne (by omega) : eqn B D = 0), mul_zero, zero_mul, neg_zero, sub_zero, zero_sub, add_zero, zero_add]); try (if qIM : I = M then ((try simp only [(eqn_ne (by omega) : eqn J K = 0), (eqn_ne (by omega) : eqn I K = 0), (eqn_ne (by omega) : eqn J M = 0), mul_zero, zero_mul, neg_zero, sub_zero, zero_sub, add_zero, zero_add]); try ring) else ((try simp only [(eqn_ne qIM : eqn I M = 0), mul_zero, zero_mul, neg_zero, sub_zero, zero_sub, add_zero, zero_add]); try ring))) else ((try simp only [(eqn_ne qAD : eqn A D = 0), mul_zero, zero_mul, neg_zero, sub_zero, zero_sub, add_zero, zero_add]); try (if qIM : I = M then ((try simp only [(eqn_ne (by omega) : eqn J K = 0), (eqn_ne (by omega) : eqn I K = 0), (eqn_ne (by omega) : eqn J M = 0), mul_zero, zero_mul, neg_zero, sub_zero, zero_sub, add_zero, zero_add]); try ring) else ((try simp only [(eqn_ne qIM : eqn I M = 0), mul_zero, zero_mul, neg_zero, sub_zero, zero_sub, add_zero, zero_add]); try ring))))
        · skip
          wick L (occupiedSet up down na nb) with [nnA, mA, nnB, mB, hJ, hI, nnC, mC, nnD, mD, hM, hK, bJ, bI, bM, bK]
          try simp only [ite_eqn, if_true, if_false, eqn_comm B A, eqn_comm J A, eqn_comm I A, eqn_comm C A, eqn_comm D A, eqn_comm M A, eqn_comm K A, eqn_comm J B, eqn_comm I B, eqn_comm C B, eqn_comm D B, eqn_comm M B, eqn_comm K B, eqn_comm I J, eqn_comm C J, eqn_comm D J, eqn_comm M J, eqn_comm K J, eqn_comm C I, eqn_comm D I, eqn_comm M I, eqn_comm K I, eqn_comm D C, eqn_comm M C, eqn_comm K C, eqn_comm M D, eqn_comm K D, eqn_comm K M]
          try simp only [(eqn_ne (by omega) : eqn A J = 0), (eqn_ne (by omega) : eqn A I = 0), (eqn_ne (by omega) : eqn A M = 0), (eqn_ne (by omega) : eqn A K = 0), (eqn_ne (by omega) : eqn B J = 0), (eqn_ne (by omega) : eqn B I = 0), (eqn_ne (by omega) : eqn B M = 0), (eqn_ne (by omega) : eqn B K = 0), (eqn_ne (by omega) : eqn J I = 0), (eqn_ne (by omega) : eqn J C = 0), (eqn_ne (by omega) : eqn J D = 0), (eqn_ne (by omega) : eqn J M = 0), (eqn_ne (by omega) : eqn I C = 0), (eqn_ne (by omega) : eqn I D = 0), (eqn_ne (by omega) : eqn I K = 0), (eqn_ne (by omega) : eqn C M = 0), (eqn_ne (by omega) : eqn C K = 0), (eqn_ne (by omega) : eqn D M = 0), (eqn_ne (by omega) : eqn D K = 0), (eqn_ne (by omega) : eqn M K = 0), mul_zero, zero_mul, neg_zero, sub_zero, zero_sub, add_zero, zero_add]
          try (if qAD : A = D then ((try simp only [(eqn_ne (by omega) : eqn B C = 0), (eqn_ne (by omega) : eqn A C = 0), (eqn_ne (by omega) : eqn B D = 0), mul_zero, zero_mul, neg_zero, sub_zero, zero_sub, add_zero, zero_add]); try (if qIM : I = M then ((try simp only [(eqn_ne (by omega) : eqn J K = 0), (eqn_ne (by omega) : eqn I K = 0), (eqn_ne (by omega) : eqn J M = 0), mul_zero, zero_mul, neg_zero, sub_zero, zero_sub, add_zero, zero_add]); try ring) else ((try simp only [(eqn_ne qIM : eqn I M = 0), mul_zero, zero_mul, neg_zero, sub_zero, zero_sub, add_zero, zero_add]); try ring))) else ((try simp only [(eqn_ne qAD : eqn A D = 0), mul_zero, zero_mul, neg_zero, sub_zero, zero_sub, add_zero, zero_add]); try (if qIM : I = M then ((try simp only [(eqn_ne (by omega) : eqn J K = 0), (eqn_ne (by omega) : eqn I K = 0), (eqn_ne (by omega) : eqn J M = 0), mul_zero, zero_mul, neg_zero, sub_zero, zero_sub, add_zero, zero_add]); try ring) else ((try simp only [(eqn_ne qIM : eqn I M = 0), mul_zero, zero_mul, neg_zero, sub_zero, zero_sub, add_zero, zero_add]); try ring))))
      · skip
        by_cases bK : K < nb
        · skip
          wick L (occupiedSet up down na nb) with [nnA, mA, nnB, mB, hJ, hI, nnC, mC, nnD, mD, hM, hK, bJ, bI, bM, bK]
          try simp only [ite_eqn, if_true, if_false, eqn_comm B A, eqn_comm J A, eqn_comm I A, eqn_comm C A, eqn_comm D A, eqn_comm M A, eqn_comm K A, eqn_comm J B, eqn_comm I B, eqn_comm C B, eqn_comm D B, eqn_comm M B, eqn_comm K B, eqn_comm I J, eqn_comm C J, eqn_comm D J, eqn_comm M J, eqn_comm K J, eqn_comm C I, eqn_comm D I, eqn_comm M I, eqn_comm K I, eqn_comm D C, eqn_comm M C, eqn_comm K C, eqn_comm M D, eqn_comm K D, eqn_comm K M]
          try simp only [(eqn_ne (by omega) : eqn A J = 0), (eqn_ne (by omega) : eqn A I = 0), (eqn_ne (by omega) : eqn A M = 0), (eqn_ne (by omega) : eqn A K = 0), (eqn_ne (by omega) : eqn B J = 0), (eqn_ne (by omega) : eqn B I = 0), (eqn_ne (by omega) : eqn B M = 0), (eqn_ne (by omega) : eqn B K = 0), (eqn_ne (by omega) : eqn J I = 0), (eqn_ne (by omega) : eqn J C = 0), (eqn_ne (by omega) : eqn J D = 0), (eqn_ne (by omega) : eqn J K = 0), (eqn_ne (by omega) : eqn I C = 0), (eqn_ne (by omega) : eqn I D = 0), (eqn_ne (by omega) : eqn I M = 0), (eqn_ne (by omega) : eqn C M = 0), (eqn_ne (by omega) : eqn C K = 0), (eqn_ne (by omega) : eqn D M = 0), (eqn_ne (by omega) : eqn D K = 0), (eqn_ne (by omega) : eqn M K = 0), mul_zero, zero_mul, neg_zero, sub_zero, zero_sub, add_zero, zero_add]
          try (if qAD : A = D then ((try simp only [(eqn_ne (by omega) : eqn B C = 0), (eqn_ne (by omega) : eqn A C = 0), (eqn_ne (by omega) : eqn B D = 0), mul_zero, zero_mul, neg_zero, sub_zero, zero_sub, add_zero, zero_add]); try (if qIM : I = M then ((try simp only [(eqn_ne (by omega) : eqn J K = 0), (eqn_ne (by omega) : eqn I K = 0), (eqn_ne (by omega) : eqn J M = 0), mul_zero, zero_mul, neg_zero, sub_zero, zero_sub, add_zero, zero_add]); try ring) else ((try simp only [(eqn_ne qIM : eqn I M = 0), mul_zero, zero_mul, neg_zero, sub_zero, zero_sub, add_zero, zero_add]); try ring))) else ((try simp only [(eqn_ne qAD : eqn A D = 0), mul_zero, zero_mul, neg_zero, sub_zero, zero_sub, add_zero, zero_add]); try (if qIM : I = M then ((try simp only [(eqn_ne (by omega) : eqn J K = 0), (eqn_ne (by omega) : eqn I K = 0), (eqn_ne (by omega) : eqn J M = 0), mul_zero, zero_mul, neg_zero, sub_zero, zero_sub, add_zero, zero_add]); try ring) else ((try simp only [(eqn_ne qIM : eqn I M = 0), mul_zero, zero_mul, neg_zero, sub_zero, zero_sub, add_zero, zero_add]); try ring))))
        · skip
          wick L (occupiedSet up down na nb) with [nnA, mA, nnB, mB, hJ, hI, nnC, mC, nnD, mD, hM, hK, bJ, bI, bM, bK]
          try simp only [ite_eqn, if_true, if_false, eqn_comm B A, eqn_comm J A, eqn_comm I A, eqn_comm C A, eqn_comm D A, eqn_comm M A, eqn_comm K A, eqn_comm J B, eqn_comm I B, eqn_comm C B, eqn_comm D B, eqn_comm M B, eqn_comm K B, eqn_comm I J, eqn_comm C J, eqn_comm D J, eqn_comm M J, eqn_comm K J, eqn_comm C I, eqn_comm D I, eqn_comm M I, eqn_comm K I, eqn_comm D C, eqn_comm M C, eqn_comm K C, eqn_comm M D, eqn_comm K D, eqn_comm K M]
          try simp only [(eqn_ne (by omega) : eqn A J = 0), (eqn_ne (by omega) : eqn A I = 0), (eqn_ne (by omega) : eqn A M = 0), (eqn_ne (by omega) : eqn A K = 0), (eqn_ne (by omega) : eqn B J = 0), (eqn_ne (by omega) : eqn B I = 0), (eqn_ne (by omega) : eqn B M = 0), (eqn_ne (by omega) : eqn B K = 0), (eqn_ne (by omega) : eqn J I = 0), (eqn_ne (by omega) : eqn J C = 0), (eqn_ne (by omega) : eqn J D = 0), (eqn_ne (by omega) : eqn I C = 0), (eqn_ne (by omega) : eqn I D = 0), (eqn_ne (by omega) : eqn I M = 0), (eqn_ne (by omega) : eqn I K = 0), (eqn_ne (by omega) : eqn C M = 0), (eqn_ne (by omega) : eqn C K = 0), (eqn_ne (by omega) : eqn D M = 0), (eqn_ne (by omega) : eqn D K = 0), mul_zero, zero_mul, neg_zero, sub_zero, zero_sub, add_zero, zero_add]
          try (if qAD : A = D then ((try simp only [(eqn_ne (by omega) : eqn B C = 0), (eqn_ne (by omega) : eqn A C = 0), (eqn_ne (by omega) : eqn B D = 0), mul_zero, zero_mul, neg_zero, sub_zero, zero_sub, add_zero, zero_add]); try (if qIM : I = M then ((try simp only [(eqn_ne (by omega) : eqn J K = 0), (eqn_ne (by omega) : eqn I K = 0), (eqn_ne (by omega) : eqn J M = 0), mul_zero, zero_mul, neg_zero, sub_zero, zero_sub, add_zero, zero_add]); try ring) else ((try simp only [(eqn_ne qIM : eqn I M = 0), mul_zero, zero_mul, neg_zero, sub_zero, zero_sub, add_zero, zero_add]); try ring))) else ((try simp only [(eqn_ne qAD : eqn A D = 0), mul_zero, zero_mul, neg_zero, sub_zero, zero_sub, add_zero, zero_add]); try (if qIM : I = M then ((try simp only [(eqn_ne (by omega) : eqn J K = 0), (eqn_ne (by omega) : eqn I K = 0), (eqn_ne (by omega) : eqn J M = 0), mul_zero, zero_mul, neg_zero, sub_zero, zero_sub, add_zero, zero_add]); try ring) else ((try simp only [(eqn_ne qIM : eqn I M = 0), mul_zero, zero_mul, neg_zero, sub_zero, zero_sub, add_zero, zero_add]); try ring))))
    · skip
      by_cases bM : M < nb
      · skip
        by_cases bK : K < nb
        · skip
          wick L (occupiedSet up down na nb) with [nnA, mA, nnB, mB, hJ, hI, nnC, mC, nnD, mD, hM, hK, bJ, bI, bM, bK]
          try simp only [ite_eqn, if_true, if_false, eqn_comm B A, eqn_comm J A, eqn_comm I A, eqn_comm C A, eqn_comm D A, eqn_comm M A, eqn_comm K A, eqn_comm J B, eqn_comm I B, eqn_comm C B, eqn_comm D B, eqn_comm M B, eqn_comm K B, eqn_comm I J, eqn_comm C J, eqn_comm D J, eqn_comm M J, eqn_comm K J, eqn_comm C I, eqn_comm D I, eqn_comm M I, eqn_comm K I, eqn_comm D C, eqn_comm M C, eqn_comm K C, eqn_comm M D, eqn_comm K D, eqn_comm K M]
          try simp only [(eqn_ne (by omega) : eqn A J = 0), (eqn_ne (by omega) : eqn A I = 0), (eqn_ne (by omega) : eqn A M = 0), (eqn_ne (by omega) : eqn A K = 0), (eqn_ne (by omega) : eqn B J = 0), (eqn_ne (by omega) : eqn B I = 0), (eqn_ne (by omega) : eqn B M = 0), (eqn_ne (by omega) : eqn B K = 0), (eqn_ne (by omega) : eqn J C = 0), (eqn_ne (by omega) : eqn J D = 0), (eqn_ne (by omega) : eqn J M = 0), (eqn_ne (by omega) : eqn J K = 0), (eqn_ne (by omega) : eqn I C = 0), (eqn_ne (by omega) : eqn I D = 0), (eqn_ne (by omega) : eqn I M = 0), (eqn_ne (by omega) : eqn I K = 0), (eqn_ne (by omega) : eqn C M = 0), (eqn_ne (by omega) : eqn C K = 0), (eqn_ne (by omega) : eqn D M = 0), (eqn_ne (by omega) : eqn D K = 0), mul_zero, zero_mul, neg_zero, sub_zero, zero_sub, add_zero, zero_add]
          try (if qAD : A = D then ((try simp only [(eqn_ne (by omega) : eqn B C = 0), (eqn_ne (by omega) : eqn A C = 0), (eqn_ne (by omega) : eqn B D = 0), mul_zero, zero_mul, neg_zero, sub_zero, zero_sub, add_zero, zero_add]); try (if qIM : I = M then ((try simp only [(eqn_ne (by omega) : eqn J K = 0), (eqn_ne (by omega) : eqn I K = 0), (eqn_ne (by omega) : eqn J M = 0), mul_zero, zero_mul, neg_zero, sub_zero, zero_sub, add_zero, zero_add]); try ring) else ((try simp only [(eqn_ne qIM : eqn I M = 0), mul_zero, zero_mul, neg_zero, sub_zero, zero_sub, add_zero, zero_add]); try ring))) else ((try simp only [(eqn_ne qAD : eqn A D = 0), mul_zero, zero_mul, neg_zero, sub_zero, zero_sub, add_zero, zero_add]); try (if qIM : I = M then ((try simp only [(eqn_ne (by omega) : eqn J K = 0), (eqn_ne (by omega) : eqn I K = 0), (eqn_ne (by omega) : eqn J M = 0), mul_zero, zero_mul, neg_zero, sub_zero, zero_sub, add_zero, zero_add]); try ring) else ((try simp only [(eqn_ne qIM : eqn I M = 0), mul_zero, zero_mul, neg_zero, sub_zero, zero_sub, add_zero, zero_add]); try ring))))
        · skip
          wick L (occupiedSet up down na nb) with [nnA, mA, nnB, mB, hJ, hI, nnC, mC, nnD, mD, hM, hK, bJ, bI, bM, bK]
          try simp only [ite_eqn, if_true, if_false, eqn_comm B A, eqn_comm J A, eqn_comm I A, eqn_comm C A, eqn_comm D A, eqn_comm M A, eqn_comm K A, eqn_comm J B, eqn_comm I B, eqn_comm C B, eqn_comm D B, eqn_comm M B, eqn_comm K B, eqn_comm I J, eqn_comm C J, eqn_comm D J, eqn_comm M J, eqn_comm K J, eqn_comm C I, eqn_comm D I, eqn_comm M I, eqn_comm K I, eqn_comm D C, eqn_comm M C, eqn_comm K C, eqn_comm M D, eqn_comm K D, eqn_comm K M]
          try simp only [(eqn_ne (by omega) : eqn A J = 0), (eqn_ne (by omega) : eqn A I = 0), (eqn_ne (by omega) : eqn A M = 0), (eqn_ne (by omega) : eqn A K = 0), (eqn_ne (by omega) : eqn B J = 0), (eqn_ne (by omega) : eqn B I = 0), (eqn_ne (by omega) : eqn B M = 0), (eqn_ne (by omega) : eqn B K = 0), (eqn_ne (by omega) : eqn J C = 0), (eqn_ne (by omega) : eqn J D = 0), (eqn_ne (by omega) : eqn J M = 0), (eqn_ne (by omega) : eqn I C = 0), (eqn_ne (by omega) : eqn I D = 0), (eqn_ne (by omega) : eqn I M = 0), (eqn_ne (by omega) : eqn C M = 0), (eqn_ne (by omega) : eqn C K = 0), (eqn_ne (by omega) : eqn D M = 0), (eqn_ne (by omega) : eqn D K = 0), (eqn_ne (by omega) : eqn M K = 0), mul_zero, zero_mul, neg_zero, sub_zero, zero_sub, add_zero, zero_add]
          try (if qAD : A = D then ((try simp only [(eqn_ne (by omega) : eqn B C = 0), (eqn_ne (by omega) : eqn A C = 0), (eqn_ne (by omega) : eqn B D = 0), mul_zero, zero_mul, neg_zero, sub_zero, zero_sub, add_zero, zero_add]); try (if qIM : I = M then ((try simp only [(eqn_ne (by omega) : eqn J K = 0), (eqn_ne (by omega) : eqn I K = 0), (eqn_ne (by omega) : eqn J M = 0), mul_zero, zero_mul, neg_zero, sub_zero, zero_sub, add_zero, zero_add]); try ring) else ((try simp only [(eqn_ne qIM : eqn I M = 0), mul_zero, zero_mul, neg_zero, sub_zero, zero_sub, add_zero, zero_add]); try ring))) else ((try simp only [(eqn_ne qAD : eqn A D = 0), mul_zero, zero_mul, neg_zero, sub_zero, zero_sub, add_zero, zero_add]); try (if qIM : I = M then ((try simp only [(eqn_ne (by omega) : eqn J K = 0), (eqn_ne (by omega) : eqn I K = 0), (eqn_ne (by omega) : eqn J M = 0), mul_zero, zero_mul, neg_zero, sub_zero, zero_sub, add_zero, zero_add]); try ring) else ((try simp only [(eqn_ne qIM : eqn I M = 0), mul_zero, zero_mul, neg_zero, sub_zero, zero_sub, add_zero, zero_add]); try ring))))
      · skip
        by_cases bK : K < nb
        · skip
          wick L (occupiedSet up down na nb) with [nnA, mA, nnB, mB, hJ, hI, nnC, mC, nnD, mD, hM, hK, bJ, bI, bM, bK]
          try simp only [ite_eqn, if_true, if_false, eqn_comm B A, eqn_comm J A, eqn_comm I A, eqn_comm C A, eqn_comm D A, eqn_comm M A, eqn_comm K A, eqn_comm J B, eqn_comm I B, eqn_comm C B, eqn_comm D B, eqn_comm M B, eqn_comm K B, eqn_comm I J, eqn_comm C J, eqn_comm D J, eqn_comm M J, eqn_comm K J, eqn_comm C I, eqn_comm D I, eqn_comm M I, eqn_comm K I, eqn_comm D C, eqn_comm M C, eqn_comm K C, eqn_comm M D, eqn_comm K D, eqn_comm K M]
          try simp only [(eqn_ne (by omega) : eqn A J = 0), (eqn_ne (by omega) : eqn A I = 0), (eqn_ne (by omega) : eqn A M = 0), (eqn_ne (by omega) : eqn A K = 0), (eqn_ne (by omega) : eqn B J = 0), (eqn_ne (by omega) : eqn B I = 0), (eqn_ne (by omega) : eqn B M = 0), (eqn_ne (by omega) : eqn B K = 0), (eqn_ne (by omega) : eqn J C = 0), (eqn_ne (by omega) : eqn J D = 0), (eqn_ne (by omega) : eqn J K = 0), (eqn_ne (by omega) : eqn I C = 0), (eqn_ne (by omega) : eqn I D = 0), (eqn_ne (by omega) : eqn I K = 0), (eqn_ne (by omega) : eqn C M = 0), (eqn_ne (by omega) : eqn C K = 0), (eqn_ne (by omega) : eqn D M = 0), (eqn_ne (by omega) : eqn D K = 0), (eqn_ne (by omega) : eqn M K = 0), mul_zero, zero_mul, neg_zero, sub_zero, zero_sub, add_zero, zero_add]
          try (if qAD : A = D then ((try simp only [(eqn_ne (by omega) : eqn B C = 0), (eqn_ne (by omega) : eqn A C = 0), (eqn_ne (by omega) : eqn B D = 0), mul_zero, zero_mul, neg_zero, sub_zero, zero_sub, add_zero, zero_add]); try (if qIM : I = M then ((try simp only [(eqn_ne (by omega) : eqn J K = 0), (eqn_ne (by omega) : eqn I K = 0), (eqn_ne (by omega) : eqn J M = 0), mul_zero, zero_mul, neg_zero, sub_zero, zero_sub, add_zero, zero_add]); try ring) else ((try simp only [(eqn_ne qIM : eqn I M = 0), mul_zero, zero_mul, neg_zero, sub_zero, zero_sub, add_zero, zero_add]); try ring))) else ((try simp only [(eqn_ne qAD : eqn A D = 0), mul_zero, zero_mul, neg_zero, sub_zero, zero_sub, add_zero, zero_add]); try (if qIM : I = M then ((try simp only [(eqn_ne (by omega) : eqn J K = 0), (eqn_ne (by omega) : eqn I K = 0), (eqn_ne (by omega) : eqn J M = 0), mul_zero, zero_mul, neg_zero, sub_zero, zero_sub, add_zero, zero_add]); try ring) else ((try simp only [(eqn_ne qIM : eqn I M = 0), mul_zero, zero_mul, neg_zero, sub_zero, zero_sub, add_zero, zero_add]); try ring))))
        · skip
          wick L (occupiedSet up down na nb) with [nnA, mA, nnB, mB, hJ, hI, nnC, mC, nnD, mD, hM, hK, bJ, bI, bM, bK]
          try simp only [ite_eqn, if_true, if_false, eqn_comm B A, eqn_comm J A, eqn_comm I A, eqn_comm C A, eqn_comm D A, eqn_comm M A, eqn_comm K A, eqn_comm J B, eqn_comm I B, eqn_comm C B, eqn_comm D B, eqn_comm M B, eqn_comm K B, eqn_comm I J, eqn_comm C J, eqn_comm D J, eqn_comm M J, eqn_comm K J, eqn_comm C I, eqn_comm D I, eqn_comm M I, eqn_comm K I, eqn_comm D C, eqn_comm M C, eqn_comm K C, eqn_comm M D, eqn_comm K D, eqn_comm K M]
          try simp only [(eqn_ne (by omega) : eqn A J = 0), (eqn_ne (by omega) : eqn A I = 0), (eqn_ne (by omega) : eqn A M = 0), (eqn_ne (by omega) : eqn A K = 0), (eqn_ne (by omega) : eqn B J = 0), (eqn_ne (by omega) : eqn B I = 0), (eqn_ne (by omega) : eqn B M = 0), (eqn_ne (by omega) : eqn B K = 0), (eqn_ne (by omega) : eqn J C = 0), (eqn_ne (by omega) : eqn J D = 0), (eqn_ne (by omega) : eqn I C = 0), (eqn_ne (by omega) : eqn I D = 0), (eqn_ne (by omega) : eqn C M = 0), (eqn_ne (by omega) : eqn C K = 0), (eqn_ne (by omega) : eqn D M = 0), (eqn_ne (by omega) : eqn D K = 0), mul_zero, zero_mul, neg_zero, sub_zero, zero_sub, add_zero, zero_add]
          try (if qAD : A = D then ((try simp only [(eqn_ne (by omega) : eqn B C = 0), (eqn_ne (by omega) : eqn A C = 0), (eqn_ne (by omega) : eqn B D = 0), mul_zero, zero_mul, neg_zero, sub_zero, zero_sub, add_zero, zero_add]); try (if qIM : I = M then ((try simp only [(eqn_ne (by omega) : eqn J K = 0), (eqn_ne (by omega) : eqn I K = 0), (eqn_ne (by omega) : eqn J M = 0), mul_zero, zero_mul, neg_zero, sub_zero, zero_sub, add_zero, zero_add]); try ring) else ((try simp only [(eqn_ne qIM : eqn I M = 0), mul_zero, zero_mul, neg_zero, sub_zero, zero_sub, add_zero, zero_add]); try ring))) else ((try simp only [(eqn_ne qAD : eqn A D = 0), mul_zero, zero_mul, neg_zero, sub_zero, zero_sub, add_zero, zero_add]); try (if qIM : I = M then ((try simp only [(eqn_ne (by omega) : eqn J K = 0), (eqn_ne (by omega) : eqn I K = 0), (eqn_ne (by omega) : eqn J M = 0), mul_zero, zero_mul, neg_zero, sub_zero, zero_sub, add_zero, zero_add]); try ring) else ((try simp only [(eqn_ne qIM : eqn I M = 0), mul_zero, zero_mul, neg_zero, sub_zero, zero_sub, add_zero, zero_add]); try ring))))

theorem element_bb_bb (L : Labels up down) (hab : nb ≤ na) (hn : na ≤ n) {A B J I C D M K : ℕ}
    (hA : nb ≤ A) (gA : A < n) (hB : nb ≤ B) (gB : B < n) (hJ : J < nb) (hI : I < nb) (hC : nb ≤ C) (gC : C < n) (hD : nb ≤ D) (gD : D < n) (hM : M < nb) (hK : K < nb) (oAB : A < B) (oIJ : I < J) (oCD : C < D) (oKM : K < M) :
    inner (cre (down A) (cre (down B) (ann (down J) (ann (down I) (reference up down na nb)))))
        (spinSquared n up down (cre (down C) (cre (down D) (ann (down M) (ann (down K) (reference up down na nb)))))) =
      ((if A < na then 0 else 1) + (if B < na then 0 else 1) + ((((na : ℚ) - nb) / 2 + 1) * (((na : ℚ) - nb) / 2))) *
        (eqn I K * eqn A C * eqn J M * eqn B D) := by
  rw [inner_spinSquared (((((hasSz_reference (n := n) L hn (hab.trans hn)).ann_down L (a := K) (by omega)).ann_down L (a := M) (by omega)).cre_down L (a := D) (by omega)).cre_down L (a := C) (by omega))]
  simp only [raising_cre_down (by omega : A < n) L, raising_cre_down (by omega : B < n) L, raising_ann_down L, raising_cre_down (by omega : C < n) L, raising_cre_down (by omega : D < n) L, raising_reference L hab]
  have nnA : ¬ A < nb := by omega
  have nnB : ¬ B < nb := by omega
  have nnJ : J < na := by omega
  have nnI : I < na := by omega
  have nnC : ¬ C < nb := by omega
  have nnD : ¬ D < nb := by omega
  have nnM : M < na := by omega
  have nnK : K < na := by omega
  by_cases bA : A < na
  · skip
    by_cases bB : B < na
    · skip
      by_cases bC : C < na
      · skip
        by_cases bD : D < na
        · skip
          wick L (occupiedSet up down na nb) with [nnA, nnB, hJ, nnJ, hI, nnI, nnC, nnD, hM, nnM, hK, nnK, bA, bB, bC, bD]
          try simp only [ite_eqn, if_true, if_false, eqn_comm B A, eqn_comm J A, eqn_comm I A, eqn_comm C A, eqn_comm D A, eqn_comm M A, eqn_comm K A, eqn_comm J B, eqn_comm I B, eqn_comm C B, eqn_comm D B, eqn_comm M B, eqn_comm K B, eqn_comm I J, eqn_comm C J, eqn_comm D J, eqn_comm M J, eqn_comm K J, eqn_comm C I, eqn_comm D I, eqn_comm M I, eqn_comm K I, eqn_comm D C, eqn_comm M C, eqn_comm K C, eqn_comm M D, eqn_comm K D, eqn_comm K M]
          try simp only [(eqn_ne (by omega) : eqn A J = 0), (eqn_ne (by omega) : eqn A I = 0), (eqn_ne (by omega) : eqn A M = 0), (eqn_ne (by omega) : eqn A K = 0), (eqn_ne (by omega) : eqn B J = 0), (eqn_ne (by omega) : eqn B I = 0), (eqn_ne (by omega) : eqn B M = 0), (eqn_ne (by omega) : eqn B K = 0), (eqn_ne (by omega) : eqn J C = 0), (eqn_ne (by omega) : eqn J D = 0), (eqn_ne (by omega) : eqn I C = 0), (eqn_ne (by omega) : eqn I D = 0), (eqn_ne (by omega) : eqn C M = 0), (eqn_ne (by omega) : eqn C K = 0), (eqn_ne (by omega) : eqn D M = 0), (eqn_ne (by omega) : eqn D K = 0), mul_zero, zero_mul, neg_zero, sub_zero, zero_sub, add_zero, zero_add]
          try (if qAD : A = D then ((try simp only [(eqn_ne (by omega) : eqn B C = 0), (eqn_ne (by omega) : eqn A C = 0), (eqn_ne (by omega) : eqn B D = 0), mul_zero, zero_mul, neg_zero, sub_zero, zero_sub, add_zero, zero_add]); try (if qIM : I = M then ((try simp only [(eqn_ne (by omega) : eqn J K = 0), (eqn_ne (by omega) : eqn I K = 0), (eqn_ne (by omega) : eqn J M = 0), mul_zero, zero_mul, neg_zero, sub_zero, zero_sub, add_zero, zero_add]); try ring) else ((try simp only [(eqn_ne qIM : eqn I M = 0), mul_zero, zero_mul, neg_zero, sub_zero, zero_sub, add_zero, zero_add]); try ring))) else ((try simp only [(eqn_ne qAD : eqn A D = 0), mul_zero, zero_mul, neg_zero, sub_zero, zero_sub, add_zero, zero_add]); try (if qIM : I = M then ((try simp only [(eqn_ne (by omega) : eqn J K = 0), (eqn_ne (by omega) : eqn I K = 0), (eqn_ne (by omega) : eqn J M = 0), mul_zero, zero_mul, neg_zero, sub_zero, zero_sub, add_zero, zero_add]); try ring) else ((try simp only [(eqn_ne qIM : eqn I M = 0), mul_zero, zero_mul, neg_zero, sub_zero, zero_sub, add_zero, zero_add]); try ring))))
        · skip
          wick L (occupiedSet up down na nb) with [nnA, nnB, hJ, nnJ, hI, nnI, nnC, nnD, hM, nnM, hK, nnK, bA, bB, bC, bD]
          try simp only [ite_eqn, if_true, if_false, eqn_comm B A, eqn_comm J A, eqn_comm I A, eqn_comm C A, eqn_comm D A, eqn_comm M A, eqn_comm K A, eqn_comm J B, eqn_comm I B, eqn_comm C B, eqn_comm D B, eqn_comm M B, eqn_comm K B, eqn_comm I J, eqn_comm C J, eqn_comm D J, eqn_comm M J, eqn_comm K J, eqn_comm C I, eqn_comm D I, eqn_comm M I, eqn_comm K I, eqn_comm D C, eqn_comm M C, eqn_comm K C, eqn_comm M D, eqn_comm K D, eqn_comm K M]
          try simp only [(eqn_ne (by omega) : eqn A J = 0), (eqn_ne (by omega) : eqn A I = 0), (eqn_ne (by omega) : eqn A D = 0), (eqn_ne (by omega) : eqn A M = 0), (eqn_ne (by omega) : eqn A K = 0), (eqn_ne (by omega) : eqn B J = 0), (eqn_ne (by omega) : eqn B I = 0), (eqn_ne (by omega) : eqn B D = 0), (eqn_ne (by omega) : eqn B M = 0), (eqn_ne (by omega) : eqn B K = 0), (eqn_ne (by omega) : eqn J C = 0), (eqn_ne (by omega) : eqn J D = 0), (eqn_ne (by omega) : eqn I C = 0), (eqn_ne (by omega) : eqn I D = 0), (eqn_ne (by omega) : eqn C D = 0), (eqn_ne (by omega) : eqn C M = 0), (eqn_ne (by omega) : eqn C K = 0), (eqn_ne (by omega) : eqn D M = 0), (eqn_ne (by omega) : eqn D K = 0), mul_zero, zero_mul, neg_zero, sub_zero, zero_sub, add_zero, zero_add]
          try (if qAD : A = D then ((try simp only [(eqn_ne (by omega) : eqn B C = 0), (eqn_ne (by omega) : eqn A C = 0), (eqn_ne (by omega) : eqn B D = 0), mul_zero, zero_mul, neg_zero, sub_zero, zero_sub, add_zero, zero_add]); try (if qIM : I = M then ((try simp only [(eqn_ne (by omega) : eqn J K = 0), (eqn_ne (by omega) : eqn I K = 0), (eqn_ne (by omega) : eqn J M = 0), mul_zero, zero_mul, neg_zero, sub_zero, zero_sub, add_zero, zero_add]); try ring) else ((try simp only [(eqn_ne qIM : eqn I M = 0), mul_zero, zero_mul, neg_zero, sub_zero, zero_sub, add_zero, zero_add]); try ring))) else ((try simp only [(eqn_ne qAD : eqn A D = 0), mul_zero, zero_mul, neg_zero, sub_zero, zero_sub, add_zero, zero_add]); try (if qIM : I = M then ((try simp only [(eqn_ne (by omega) : eqn J K = 0), (eqn_ne (by omega) : eqn I K = 0), (eqn_ne (by omega) : eqn J M = 0), mul_zero, zero_mul, neg_zero, sub_zero, zero_sub, add_zero, zero_add]); try ring) else ((try simp only [(eqn_ne qIM : eqn I M = 0), mul_zero, zero_mul, neg_zero, sub_zero, zero_sub, add_zero, zero_add]); try ring))))
      · skip
        by_cases bD : D < na
        · skip
          wick L (occupiedSet up down na nb) with [nnA, nnB, hJ, nnJ, hI, nnI, nnC, nnD, hM, nnM, hK, nnK, bA, bB, bC, bD]
          try simp only [ite_eqn, if_true, if_false, eqn_comm B A, eqn_comm J A, eqn_comm I A, eqn_comm C A, eqn_comm D A, eqn_comm M A, eqn_comm K A, eqn_comm J B, eqn_comm I B, eqn_comm C B, eqn_comm D B, eqn_comm M B, eqn_comm K B, eqn_comm I J, eqn_comm C J, eqn_comm D J, eqn_comm M J, eqn_comm K J, eqn_comm C I, eqn_comm D I, eqn_comm M I, eqn_comm K I, eqn_comm D C, eqn_comm M C, eqn_comm K C, eqn_comm M D, eqn_comm K D, eqn_comm K M]
          try simp only [(eqn_ne (by omega) : eqn A J = 0), (eqn_ne (by omega) : eqn A I = 0), (eqn_ne (by omega) : eqn A C = 0), (eqn_ne (by omega) : eqn A M = 0), (eqn_ne (by omega) : eqn A K = 0), (eqn_ne (by omega) : eqn B J = 0), (eqn_ne (by omega) : eqn B I = 0), (eqn_ne (by omega) : eqn B C = 0), (eqn_ne (by omega) : eqn B M = 0), (eqn_ne (by omega) : eqn B K = 0), (eqn_ne (by omega) : eqn J C = 0), (eqn_ne (by omega) : eqn J D = 0), (eqn_ne (by omega) : eqn I C = 0), (eqn_ne (by omega) : eqn I D = 0), (eqn_ne (by omega) : eqn C D = 0), (eqn_ne (by omega) : eqn C M = 0), (eqn_ne (by omega) : eqn C K = 0), (eqn_ne (by omega) : eqn D M = 0), (eqn_ne (by omega) : eqn D K = 0), mul_zero, zero_mul, neg_zero, sub_zero, zero_sub, add_zero, zero_add]
          try (if qAD : A = D then ((try simp only [(eqn_ne (by omega) : eqn B C = 0), (eqn_ne (by omega) : eqn A C = 0), (eqn_ne (by omega) : eqn B D = 0), mul_zero, zero_mul, neg_zero, sub_zero, zero_sub, add_zero, zero_add]); try (if qIM : I = M then ((try simp only [(eqn_ne (by omega) : eqn J K = 0), (eqn_ne (by omega) : eqn I K = 0), (eqn_ne (by omega) : eqn J M = 0), mul_zero, zero_mul, neg_zero, sub_zero, zero_sub, add_zero, zero_add]); try ring) else ((try simp only [(eqn_ne qIM : eqn I M = 0), mul_zero, zero_mul, neg_zero, sub_zero, zero_sub, add_zero, zero_add]); try ring))) else ((try simp only [(eqn_ne qAD : eqn A D = 0), mul_zero, zero_mul, neg_zero, sub_zero, zero_sub, add_zero, zero_add]); try (if qIM : I = M then ((try simp only [(eqn_ne (by omega) : eqn J K = 0), (eqn_ne (by omega) : eqn I K = 0), (eqn_ne (by omega) : eqn J M = 0), mul_zero, zero_mul, neg_zero, sub_zero, zero_sub, add_zero, zero_add]); try ring) else ((try simp only [(eqn_ne qIM : eqn I M = 0), mul_zero, zero_mul, neg_zero, sub_zero, zero_sub, add_zero, zero_add]); try ring))))
        · skip
          wick L (occupiedSet up down na nb) with [nnA, nnB, hJ, nnJ, hI, nnI, nnC, nnD, hM, nnM, hK, nnK, bA, bB, bC, bD]
          try simp only [ite_eqn, if_true, if_false, eqn_comm B A, eqn_comm J A, eqn_comm I A, eqn_comm C A, eqn_comm D A, eqn_comm M A, eqn_comm K A, eqn_comm J B, eqn_comm I B, eqn_comm C B, eqn_comm D B, eqn_comm M B, eqn_comm K B, eqn_comm I J, eqn_comm C J, eqn_comm D J, eqn_comm M J, eqn_comm K J, eqn_comm C I, eqn_comm D I, eqn_comm M I, eqn_comm K I, eqn_comm D C, eqn_comm M C, eqn_comm K C, eqn_comm M D, eqn_comm K D, eqn_comm K M]
          try simp only [(eqn_ne (by omega) : eqn A J = 0), (eqn_ne (by omega) : eqn A I = 0), (eqn_ne (by omega) : eqn A C = 0), (eqn_ne (by omega) : eqn A D = 0), (eqn_ne (by omega) : eqn A M = 0), (eqn_ne (by omega) : eqn A K = 0), (eqn_ne (by omega) : eqn B J = 0), (eqn_ne (by omega) : eqn B I = 0), (eqn_ne (by omega) : eqn B C = 0), (eqn_ne (by omega) : eqn B D = 0), (eqn_ne (by omega) : eqn B M = 0), (eqn_ne (by omega) : eqn B K = 0), (eqn_ne (by omega) : eqn J C = 0), (eqn_ne (by omega) : eqn J D = 0), (eqn_ne (by omega) : eqn I C = 0), (eqn_ne (by omega) : eqn I D = 0), (eqn_ne (by omega) : eqn C M = 0), (eqn_ne (by omega) : eqn C K = 0), (eqn_ne (by omega) : eqn D M = 0), (eqn_ne (by omega) : eqn D K = 0), mul_zero, zero_mul, neg_zero, sub_zero, zero_sub, add_zero, zero_add]
          try (if qAD : A = D then ((try simp only [(eqn_ne (by omega) : eqn B C = 0), (eqn_ne (by omega) : eqn A C = 0), (eqn_ne (by omega) : eqn B D = 0), mul_zero, zero_mul, neg_zero, sub_zero, zero_sub, add_zero, zero_add]); try (if qIM : I = M then ((try simp only [(eqn_ne (by omega) : eqn J K = 0), (eqn_ne (by omega) : eqn I K = 0), (eqn_ne (by omega) : eqn J M = 0), mul_zero, zero_mul, neg_zero, sub_zero, zero_sub, add_zero, zero_add]); try ring) else ((try simp only [(eqn_ne qIM : eqn I M = 0), mul_zero, zero_mul, neg_zero, sub_zero, zero_sub, add_zero, zero_add]); try ring))) else ((try simp only [(eqn_ne qAD : eqn A D = 0), mul_zero, zero_mul, neg_zero, sub_zero, zero_sub, add_zero, zero_add]); try (if qIM : I = M then ((try simp only [(eqn_ne (by omega) : eqn J K = 0), (eqn_ne (by omega) : eqn I K = 0), (eqn_ne (by omega) : eqn J M = 0), mul_zero, zero_mul, neg_zero, sub_zero, zero_sub, add_zero, zero_add]); try ring) else ((try simp only [(eqn_ne qIM : eqn I M = 0), mul_zero, zero_mul, neg_zero, sub_zero, zero_sub, add_zero, zero_add]); try ring))))
    · skip
      by_cases bC : C < na
      · skip
        by_cases bD : D < na
        · skip
          wick L (occupiedSet up down na nb) with [nnA, nnB, hJ, nnJ, hI, nnI, nnC, nnD, hM, nnM, hK, nnK, bA, bB, bC, bD]
          try simp only [ite_eqn, if_true, if_false, eqn_comm B A, eqn_comm J A, eqn_comm I A, eqn_comm C A, eqn_comm D A, eqn_comm M A, eqn_comm K A, eqn_comm J B, eqn_comm I B, eqn_comm C B, eqn_comm D B, eqn_comm M B, eqn_comm K B, eqn_comm I J, eqn_comm C J, eqn_comm D J, eqn_comm M J, eqn_comm K J, eqn_comm C I, eqn_comm D I, eqn_comm M I, eqn_comm K I, eqn_comm D C, eqn_comm M C, eqn_comm K C, eqn_comm M D, eqn_comm K D, eqn_comm K M]
          try simp only [(eqn_ne (by omega) : eqn A B = 0), (eqn_ne (by omega) : eqn A J = 0), (eqn_ne (by omega) : eqn A I = 0), (eqn_ne (by omega) : eqn A M = 0), (eqn_ne (by omega) : eqn A K = 0), (eqn_ne (by omega) : eqn B J = 0), (eqn_ne (by omega) : eqn B I = 0), (eqn_ne (by omega) : eqn B C = 0), (eqn_ne (by omega) : eqn B D = 0), (eqn_ne (by omega) : eqn B M = 0), (eqn_ne (by omega) : eqn B K = 0), (eqn_ne (by omega) : eqn J C = 0), (eqn_ne (by omega) : eqn J D = 0), (eqn_ne (by omega) : eqn I C = 0), (eqn_ne (by omega) : eqn I D = 0), (eqn_ne (by omega) : eqn C M = 0), (eqn_ne (by omega) : eqn C K = 0), (eqn_ne (by omega) : eqn D M = 0), (eqn_ne (by omega) : eqn D K = 0), mul_zero, zero_mul, neg_zero, sub_zero, zero_sub, add_zero, zero_add]
          try (if qAD : A = D then ((try simp only [(eqn_ne (by omega) : eqn B C = 0), (eqn_ne (by omega) : eqn A C = 0), (eqn_ne (by omega) : eqn B D = 0), mul_zero, zero_mul, neg_zero, sub_zero, zero_sub, add_zero, zero_add]); try (if qIM : I = M then ((try simp only [(eqn_ne (by omega) : eqn J K = 0), (eqn_ne (by omega) : eqn I K = 0), (eqn_ne (by omega) : eqn J M = 0), mul_zero, zero_mul, neg_zero, sub_zero, zero_sub, add_zero, zero_add]); try ring) else ((try simp only [(eqn_ne qIM : eqn I M = 0), mul_zero, zero_mul, neg_zero, sub_zero, zero_sub, add_zero, zero_add]); try ring))) else ((try simp only [(eqn_ne qAD : eqn A D = 0), mul_zero, zero_mul, neg_zero, sub_zero, zero_sub, add_zero, zero_add]); try (if qIM : I = M then ((try simp only [(eqn_ne (by omega) : eqn J K = 0), (eqn_ne (by omega) : eqn I K = 0), (eqn_ne (by omega) : eqn J M = 0), mul_zero, zero_mul, neg_zero, sub_zero, zero_sub, add_zero, zero_add]); try ring) else ((try simp only [(eqn_ne qIM : eqn I M = 0), mul_zero, zero_mul, neg_zero, sub_zero, zero_sub, add_zero, zero_add]); try ring))))
        · skip
          wick L (occupiedSet up down na nb) with [nnA, nnB, hJ, nnJ, hI, nnI, nnC, nnD, hM, nnM, hK, nnK, bA, bB, bC, bD]
          try simp only [ite_eqn, if_true, if_false, eqn_comm B A, eqn_comm J A, eqn_comm I A, eqn_comm C A, eqn_comm D A, eqn_comm M A, eqn_comm K A, eqn_comm J B, eqn_comm I B, eqn_comm C B, eqn_comm D B, eqn_comm M B, eqn_comm K B, eqn_comm I J, eqn_comm C J, eqn_comm D J, eqn_comm M J, eqn_comm K J, eqn_comm C I, eqn_comm D I, eqn_comm M I, eqn_comm K I, eqn_comm D C, eqn_comm M C, eqn_comm K C, eqn_comm M D, eqn_comm K D, eqn_comm K M]
          try simp only [(eqn_ne (by omega) : eqn A B = 0), (eqn_ne (by omega) : eqn A J = 0), (eqn_ne (by omega) : eqn A I = 0), (eqn_ne (by omega) : eqn A D = 0), (eqn_ne (by omega) : eqn A M = 0), (eqn_ne (by omega) : eqn A K = 0), (eqn_ne (by omega) : eqn B J = 0), (eqn_ne (by omega) : eqn B I = 0), (eqn_ne (by omega) : eqn B C = 0), (eqn_ne (by omega) : eqn B M = 0), (eqn_ne (by omega) : eqn B K = 0), (eqn_ne (by omega) : eqn J C = 0), (eqn_ne (by omega) : eqn J D = 0), (eqn_ne (by omega) : eqn I C = 0), (eqn_ne (by omega) : eqn I D = 0), (eqn_ne (by omega) : eqn C D = 0), (eqn_ne (by omega) : eqn C M = 0), (eqn_ne (by omega) : eqn C K = 0), (eqn_ne (by omega) : eqn D M = 0), (eqn_ne (by omega) : eqn D K = 0), mul_zero, zero_mul, neg_zero, sub_zero, zero_sub, add_zero, zero_add]
          try (if qAD : A = D then ((try simp only [(eqn_ne (by omega) : eqn B C = 0), (eqn_ne (by omega) : eqn A C = 0), (eqn_ne (by omega) : eqn B D = 0), mul_zero, zero_mul, neg_zero, sub_zero, zero_sub, add_zero, zero_add]); try (if qIM : I = M then ((try simp only [(eqn_ne (by omega) : eqn J K = 0), (eqn_ne (by omega) : eqn I K = 0), (eqn_ne (by omega) : eqn J M = 0), mul_zero, zero_mul, neg_zero, sub_zero, zero_sub, add_zero, zero_add]); try ring) else ((try simp only [(eqn_ne qIM : eqn I M = 0), mul_zero, zero_mul, neg_zero, sub_zero, zero_sub, add_zero, zero_add]); try ring))) else ((try simp only [(eqn_ne qAD : eqn A D = 0), mul_zero, zero_mul, neg_zero, sub_zero, zero_sub, add_zero, zero_add]); try (if qIM : I = M then ((try simp only [(eqn_ne (by omega) : eqn J K = 0), (eqn_ne (by omega) : eqn I K = 0), (eqn_ne (by omega) : eqn J M = 0), mul_zero, zero_mul, neg_zero, sub_zero, zero_sub, add_zero, zero_add]); try ring) else ((try simp only [(eqn_ne qIM : eqn I M = 0), mul_zero, zero_mul, neg_zero, sub_zero, zero_sub, add_zero, zero_add]); try ring))))
      · skip
        by_cases bD : D < na
        · skip
          wick L (occupiedSet up down na nb) with [nnA, nnB, hJ, nnJ, hI, nnI, nnC, nnD, hM, nnM, hK, nnK, bA, bB, bC, bD]
          try simp only [ite_eqn, if_true, if_false, eqn_comm B A, eqn_comm J A, eqn_comm I A, eqn_comm C A, eqn_comm D A, eqn_comm M A, eqn_comm K A, eqn_comm J B, eqn_comm I B, eqn_comm C B, eqn_comm D B, eqn_comm M B, eqn_comm K B, eqn_comm I J, eqn_comm C J, eqn_comm D J, eqn_comm M J, eqn_comm K J, eqn_comm C I, eqn_comm D I, eqn_comm M I, eqn_comm K I, eqn_comm D C, eqn_comm M C, eqn_comm K C, eqn_comm M D, eqn_comm K D, eqn_comm K M]
          try simp only [(eqn_ne (by omega) : eqn A B = 0), (eqn_ne (by omega) : eqn A J = 0), (eqn_ne (by omega) : eqn A I = 0), (eqn_ne (by omega) : eqn A C = 0), (eqn_ne (by omega) : eqn A M = 0), (eqn_ne (by omega) : eqn A K = 0), (eqn_ne (by omega) : eqn B J = 0), (eqn_ne (by omega) : eqn B I = 0), (eqn_ne (by omega) : eqn B D = 0), (eqn_ne (by omega) : eqn B M = 0), (eqn_ne (by omega) : eqn B K = 0), (eqn_ne (by omega) : eqn J C = 0), (eqn_ne (by omega) : eqn J D = 0), (eqn_ne (by omega) : eqn I C = 0), (eqn_ne (by omega) : eqn I D = 0), (eqn_ne (by omega) : eqn C D = 0), (eqn_ne (by omega) : eqn C M = 0), (eqn_ne (by omega) : eqn C K = 0), (eqn_ne (by omega) : eqn D M = 0), (eqn_ne (by omega) : eqn D K = 0), mul_zero, zero_mul, neg_zero, sub_zero, zero_sub, add_zero, zero_add]
          try (if qAD : A = D then ((try simp only [(eqn_ne (by omega) : eqn B C = 0), (eqn_ne (by omega) : eqn A C = 0), (eqn_ne (by omega) : eqn B D = 0), mul_zero, zero_mul, neg_zero, sub_zero, zero_sub, add_zero, zero_add]); try (if qIM : I = M then ((try simp only [(eqn_ne (by omega) : eqn J K = 0), (eqn_ne (by omega) : eqn I K = 0), (eqn_ne (by omega) : eqn J M = 0), mul_zero, zero_mul, neg_zero, sub_zero, zero_sub, add_zero, zero_add]); try ring) else ((try simp only [(eqn_ne qIM : eqn I M = 0), mul_zero, zero_mul, neg_zero, sub_zero, zero_sub, add_zero, zero_add]); try ring))) else ((try simp only [(eqn_ne qAD : eqn A D = 0), mul_zero, zero_mul, neg_zero, sub_zero, zero_sub, add_zero, zero_add]); try (if qIM : I = M then ((try simp only [(eqn_ne (by omega) : eqn J K = 0), (eqn_ne (by omega) : eqn I K = 0), (eqn_ne (by omega) : eqn J M = 0), mul_zero, zero_mul, neg_zero, sub_zero, zero_sub, add_zero, zero_add]); try ring) else ((try simp only [(eqn_ne qIM : eqn I M = 0), mul_zero, zero_mul, neg_zero, sub_zero, zero_sub, add_zero, zero_add]); try ring))))
        · skip
          wick L (occupiedSet up down na nb) with [nnA, nnB, hJ, nnJ, hI, nnI, nnC, nnD, hM, nnM, hK, nnK, bA, bB, bC, bD]
          try simp only [ite_eqn, if_true, if_false, eqn_comm B A, eqn_comm J A, eqn_comm I A, eqn_comm C A, eqn_comm D A, eqn_comm M A, eqn_comm K A, eqn_comm J B, eqn_comm I B, eqn_comm C B, eqn_comm D B, eqn_comm M B, eqn_comm K B, eqn_comm I J, eqn_comm C J, eqn_comm D J, eqn_comm M J, eqn_comm K J, eqn_comm C I, eqn_comm D I, eqn_comm M I, eqn_comm K I, eqn_comm D C, eqn_comm M C, eqn_comm K C, eqn_comm M D, eqn_comm K D, eqn_comm K M]
          try simp only [(eqn_ne (by omega) : eqn A B = 0), (eqn_ne (by omega) : eqn A J = 0), (eqn_ne (by omega) : eqn A I = 0), (eqn_ne (by omega) : eqn A C = 0), (eqn_ne (by omega) : eqn A D = 0), (eqn_ne (by omega) : eqn A M = 0), (eqn_ne (by omega) : eqn A K = 0), (eqn_ne (by omega) : eqn B J = 0), (eqn_ne (by omega) : eqn B I = 0), (eqn_ne (by omega) : eqn B M = 0), (eqn_ne (by omega) : eqn B K = 0), (eqn_ne (by omega) : eqn J C = 0), (eqn_ne (by omega) : eqn J D = 0), (eqn_ne (by omega) : eqn I C = 0), (eqn_ne (by omega) : eqn I D = 0), (eqn_ne (by omega) : eqn C M = 0), (eqn_ne (by omega) : eqn C K = 0), (eqn_ne (by omega) : eqn D M = 0), (eqn_ne (by omega) : eqn D K = 0), mul_zero, zero_mul, neg_zero, sub_zero, zero_sub, add_zero, zero_add]
          try (if qAD : A = D then ((try simp only [(eqn_ne (by omega) : eqn B C = 0), (eqn_ne (by omega) : eqn A C = 0), (eqn_ne (by omega) : eqn B D = 0), mul_zero, zero_mul, neg_zero, sub_zero, zero_sub, add_zero, zero_add]); try (if qIM : I = M then ((try simp only [(eqn_ne (by omega) : eqn J K = 0), (eqn_ne (by omega) : eqn I K = 0), (eqn_ne (by omega) : eqn J M = 0), mul_zero, zero_mul, neg_zero, sub_zero, zero_sub, add_zero, zero_add]); try ring) else ((try simp only [(eqn_ne qIM : eqn I M = 0), mul_zero, zero_mul, neg_zero, sub_zero, zero_sub, add_zero, zero_add]); try ring))) else ((try simp only [(eqn_ne qAD : eqn A D = 0), mul_zero, zero_mul, neg_zero, sub_zero, zero_sub, add_zero, zero_add]); try (if qIM : I = M then ((try simp only [(eqn_ne (by omega) : eqn J K = 0), (eqn_ne (by omega) : eqn I K = 0), (eqn_ne (by omega) : eqn J M = 0), mul_zero, zero_mul, neg_zero, sub_zero, zero_sub, add_zero, zero_add]); try ring) else ((try simp only [(eqn_ne qIM : eqn I M = 0), mul_zero, zero_mul, neg_zero, sub_zero, zero_sub, add_zero, zero_add]); try ring))))
  · skip
    by_cases bB : B < na
    · skip
      by_cases bC : C < na
      · skip
        by_cases bD : D < na
        · skip
          wick L (occupiedSet up down na nb) with [nnA, nnB, hJ, nnJ, hI, nnI, nnC, nnD, hM, nnM, hK, nnK, bA, bB, bC, bD]
          try simp only [ite_eqn, if_true, if_false, eqn_comm B A, eqn_comm J A, eqn_comm I A, eqn_comm C A, eqn_comm D A, eqn_comm M A, eqn_comm K A, eqn_comm J B, eqn_comm I B, eqn_comm C B, eqn_comm D B, eqn_comm M B, eqn_comm K B, eqn_comm I J, eqn_comm C J, eqn_comm D J, eqn_comm M J, eqn_comm K J, eqn_comm C I, eqn_comm D I, eqn_comm M I, eqn_comm K I, eqn_comm D C, eqn_comm M C, eqn_comm K C, eqn_comm M D, eqn_comm K D, eqn_comm K M]
          try simp only [(eqn_ne (by omega) : eqn A B = 0), (eqn_ne (by omega) : eqn A J = 0), (eqn_ne (by omega) : eqn A I = 0), (eqn_ne (by omega) : eqn A C = 0), (eqn_ne (by omega) : eqn A D = 0), (eqn_ne (by omega) : eqn A M = 0), (eqn_ne (by omega) : eqn A K = 0), (eqn_ne (by omega) : eqn B J = 0), (eqn_ne (by omega) : eqn B I = 0), (eqn_ne (by omega) : eqn B M = 0), (eqn_ne (by omega) : eqn B K = 0), (eqn_ne (by omega) : eqn J C = 0), (eqn_ne (by omega) : eqn J D = 0), (eqn_ne (by omega) : eqn I C = 0), (eqn_ne (by omega) : eqn I D = 0), (eqn_ne (by omega) : eqn C M = 0), (eqn_ne (by omega) : eqn C K = 0), (eqn_ne (by omega) : eqn D M = 0), (eqn_ne (by omega) : eqn D K = 0), mul_zero, zero_mul, neg_zero, sub_zero, zero_sub, add_zero, zero_add]
          try (if qAD : A = D then ((try simp only [(eqn_ne (by omega) : eqn B C = 0), (eqn_ne (by omega) : eqn A C = 0), (eqn_ne (by omega) : eqn B D = 0), mul_zero, zero_mul, neg_zero, sub_zero, zero_sub, add_zero, zero_add]); try (if qIM : I = M then ((try simp only [(eqn_ne (by omega) : eqn J K = 0), (eqn_ne (by omega) : eqn I K = 0), (eqn_ne (by omega) : eqn J M = 0), mul_zero, zero_mul, neg_zero, sub_zero, zero_sub, add_zero, zero_add]); try ring) else ((try simp only [(eqn_ne qIM : eqn I M = 0), mul_zero, zero_mul, neg_zero, sub_zero, zero_sub, add_zero, zero_add]); try ring))) else ((try simp only [(eqn_ne qAD : eqn A D = 0), mul_zero, zero_mul, neg_zero, sub_zero, zero_sub, add_zero, zero_add]); try (if qIM : I = M then ((try simp only [(eqn_ne (by omega) : eqn J K = 0), (eqn_ne (by omega) : eqn I K = 0), (eqn_ne (by omega) : eqn J M = 0), mul_zero, zero_mul, neg_zero, sub_zero, zero_sub, add_zero, zero_add]); try ring) else ((try simp only [(eqn_ne qIM : eqn I M = 0), mul_zero, zero_mul, neg_zero, sub_zero, zero_sub, add_zero, zero_add]); try ring))))
        · skip
          wick L (occupiedSet up down na nb) with [nnA, nnB, hJ, nnJ, hI, nnI, nnC, nnD, hM, nnM, hK, nnK, bA, bB, bC, bD]
          try simp only [ite_eqn, if_true, if_false, eqn_comm B A, eqn_comm J A, eqn_comm I A, eqn_comm C A, eqn_comm D A, eqn_comm M A, eqn_comm K A, eqn_comm J B, eqn_comm I B, eqn_comm C B, eqn_comm D B, eqn_comm M B, eqn_comm K B, eqn_comm I J, eqn_comm C J, eqn_comm D J, eqn_comm M J, eqn_comm K J, eqn_comm C I, eqn_comm D I, eqn_comm M I, eqn_comm K I, eqn_comm D C, eqn_comm M C, eqn_comm K C, eqn_comm M D, eqn_comm K D, eqn_comm K M]
          try simp only [(eqn_ne (by omega) : eqn A B = 0), (eqn_ne (by omega) : eqn A J = 0), (eqn_ne (by omega) : eqn A I = 0), (eqn_ne (by omega) : eqn A C = 0), (eqn_ne (by omega) : eqn A M = 0), (eqn_ne (by omega) : eqn A K = 0), (eqn_ne (by omega) : eqn B J = 0), (eqn_ne (by omega) : eqn B I = 0), (eqn_ne (by omega) : eqn B D = 0), (eqn_ne (by omega) : eqn B M = 0), (eqn_ne (by omega) : eqn B K = 0), (eqn_ne (by omega) : eqn J C = 0), (eqn_ne (by omega) : eqn J D = 0), (eqn_ne (by omega) : eqn I C = 0), (eqn_ne (by omega) : eqn I D = 0), (eqn_ne (by omega) : eqn C D = 0), (eqn_ne (by omega) : eqn C M = 0), (eqn_ne (by omega) : eqn C K = 0), (eqn_ne (by omega) : eqn D M = 0), (eqn_ne (by omega) : eqn D K = 0), mul_zero, zero_mul, neg_zero, sub_zero, zero_sub, add_zero, zero_add]
          try (if qAD : A = D then ((try simp only [(eqn_ne (by omega) : eqn B C = 0), (eqn_ne (by omega) : eqn A C = 0), (eqn_ne (by omega) : eqn B D = 0), mul_zero, zero_mul, neg_zero, sub_zero, zero_sub, add_zero, zero_add]); try (if qIM : I = M then ((try simp only [(eqn_ne (by omega) : eqn J K = 0), (eqn_ne (by omega) : eqn I K = 0), (eqn_ne (by omega) : eqn J M = 0), mul_zero, zero_mul, neg_zero, sub_zero, zero_sub, add_zero, zero_add]); try ring) else ((try simp only [(eqn_ne qIM : eqn I M = 0), mul_zero, zero_mul, neg_zero, sub_zero, zero_sub, add_zero, zero_add]); try ring))) else ((try simp only [(eqn_ne qAD : eqn A D = 0), mul_zero, zero_mul, neg_zero, sub_zero, zero_sub, add_zero, zero_add]); try (if qIM : I = M then ((try simp only [(eqn_ne (by omega) : eqn J K = 0), (eqn_ne (by omega) : eqn I K = 0), (eqn_ne (by omega) : eqn J M = 0), mul_zero, zero_mul, neg_zero, sub_zero, zero_sub, add_zero, zero_add]); try ring) else ((try simp only [(eqn_ne qIM : eqn I M = 0), mul_zero, zero_mul, neg_zero, sub_zero, zero_sub, add_zero, zero_add]); try ring))))
      · skip
        by_cases bD : D < na
        · skip
          wick L (occupiedSet up down na nb) with [nnA, nnB, hJ, nnJ, hI, nnI, nnC, nnD, hM, nnM, hK, nnK, bA, bB, bC, bD]
          try simp only [ite_eqn, if_true, if_false, eqn_comm B A, eqn_comm J A, eqn_comm I A, eqn_comm C A, eqn_comm D A, eqn_comm M A, eqn_comm K A, eqn_comm J B, eqn_comm I B, eqn_comm C B, eqn_comm D B, eqn_comm M B, eqn_comm K B, eqn_comm I J, eqn_comm C J, eqn_comm D J, eqn_comm M J, eqn_comm K J, eqn_comm C I, eqn_comm D I, eqn_comm M I, eqn_comm K I, eqn_comm D C, eqn_comm M C, eqn_comm K C, eqn_comm M D, eqn_comm K D, eqn_comm K M]
          try simp only [(eqn_ne (by omega) : eqn A B = 0), (eqn_ne (by omega) : eqn A J = 0), (eqn_ne (by omega) : eqn A I = 0), (eqn_ne (by omega) : eqn A D = 0), (eqn_ne (by omega) : eqn A M = 0), (eqn_ne (by omega) : eqn A K = 0), (eqn_ne (by omega) : eqn B J = 0), (eqn_ne (by omega) : eqn B I = 0), (eqn_ne (by omega) : eqn B C = 0), (eqn_ne (by omega) : eqn B M = 0), (eqn_ne (by omega) : eqn B K = 0), (eqn_ne (by omega) : eqn J C = 0), (eqn_ne (by omega) : eqn J D = 0), (eqn_ne (by omega) : eqn I C = 0), (eqn_ne (by omega) : eqn I D = 0), (eqn_ne (by omega) : eqn C D = 0), (eqn_ne (by omega) : eqn C M = 0), (eqn_ne (by omega) : eqn C K = 0), (eqn_ne (by omega) : eqn D M = 0), (eqn_ne (by omega) : eqn D K = 0), mul_zero, zero_mul, neg_zero, sub_zero, zero_sub, add_zero, zero_add]
          try (if qAD : A = D then ((try simp only [(eqn_ne (by omega) : eqn B C = 0), (eqn_ne (by omega) : eqn A C = 0), (eqn_ne (by omega) : eqn B D = 0), mul_zero, zero_mul, neg_zero, sub_zero, zero_sub, add_zero, zero_add]); try (if qIM : I = M then ((try simp only [(eqn_ne (by omega) : eqn J K = 0), (eqn_ne (by omega) : eqn I K = 0), (eqn_ne (by omega) : eqn J M = 0), mul_zero, zero_mul, neg_zero, sub_zero, zero_sub, add_zero, zero_add]); try ring) else ((try simp only [(eqn_ne qIM : eqn I M = 0), mul_zero, zero_mul, neg_zero, sub_zero, zero_sub, add_zero, zero_add]); try ring))) else ((try simp only [(eqn_ne qAD : eqn A D = 0), mul_zero, zero_mul, neg_zero, sub_zero, zero_sub, add_zero, zero_add]); try (if qIM : I = M then ((try simp only [(eqn_ne (by omega) : eqn J K = 0), (eqn_ne (by omega) : eqn I K = 0), (eqn_ne (by omega) : eqn J M = 0), mul_zero, zero_mul, neg_zero, sub_zero, zero_sub, add_zero, zero_add]); try ring) else ((try simp only [(eqn_ne qIM : eqn I M = 0), mul_zero, zero_mul, neg_zero, sub_zero, zero_sub, add_zero, zero_add]); try ring))))
        · skip
          wick L (occupiedSet up down na nb) with [nnA, nnB, hJ, nnJ, hI, nnI, nnC, nnD, hM, nnM, hK, nnK, bA, bB, bC, bD]
          try simp only [ite_eqn, if_true, if_false, eqn_comm B A, eqn_comm J A, eqn_comm I A, eqn_comm C A, eqn_comm D A, eqn_comm M A, eqn_comm K A, eqn_comm J B, eqn_comm I B, eqn_comm C B, eqn_comm D B, eqn_comm M B, eqn_comm K B, eqn_comm I J, eqn_comm C J, eqn_comm D J, eqn_comm M J, eqn_comm K J, eqn_comm C I, eqn_comm D I, eqn_comm M I, eqn_comm K I, eqn_comm D C, eqn_comm M C, eqn_comm K C, eqn_comm M D, eqn_comm K D, eqn_comm K M]
          try simp only [(eqn_ne (by omega) : eqn A B = 0), (eqn_ne (by omega) : eqn A J = 0), (eqn_ne (by omega) : eqn A I = 0), (eqn_ne (by omega) : eqn A M = 0), (eqn_ne (by omega) : eqn A K = 0), (eqn_ne (by omega) : eqn B J = 0), (eqn_ne (by omega) : eqn B I = 0), (eqn_ne (by omega) : eqn B C = 0), (eqn_ne (by omega) : eqn B D = 0), (eqn_ne (by omega) : eqn B M = 0), (eqn_ne (by omega) : eqn B K = 0), (eqn_ne (by omega) : eqn J C = 0), (eqn_ne (by omega) : eqn J D = 0), (eqn_ne (by omega) : eqn I C = 0), (eqn_ne (by omega) : eqn I D = 0), (eqn_ne (by omega) : eqn C M = 0), (eqn_ne (by omega) : eqn C K = 0), (eqn_ne (by omega) : eqn D M = 0), (eqn_ne (by omega) : eqn D K = 0), mul_zero, zero_mul, neg_zero, sub_zero, zero_sub, add_zero, zero_add]
          try (if qAD : A = D then ((try simp only [(eqn_ne (by omega) : eqn B C = 0), (eqn_ne (by omega) : eqn A C = 0), (eqn_ne (by omega) : eqn B D = 0), mul_zero, zero_mul, neg_zero, sub_zero, zero_sub, add_zero, zero_add]); try (if qIM : I = M then ((try simp only [(eqn_ne (by omega) : eqn J K = 0), (eqn_ne (by omega) : eqn I K = 0), (eqn_ne (by omega) : eqn J M = 0), mul_zero, zero_mul, neg_zero, sub_zero, zero_sub, add_zero, zero_add]); try ring) else ((try simp only [(eqn_ne qIM : eqn I M = 0), mul_zero, zero_mul, neg_zero, sub_zero, zero_sub, add_zero, zero_add]); try ring))) else ((try simp only [(eqn_ne qAD : eqn A D = 0), mul_zero, zero_mul, neg_zero, sub_zero, zero_sub, add_zero, zero_add]); try (if qIM : I = M then ((try simp only [(eqn_ne (by omega) : eqn J K = 0), (eqn_ne (by omega) : eqn I K = 0), (eqn_ne (by omega) : eqn J M = 0), mul_zero, zero_mul, neg_zero, sub_zero, zero_sub, add_zero, zero_add]); try ring) else ((try simp only [(eqn_ne qIM : eqn I M = 0), mul_zero, zero_mul, neg_zero, sub_zero, zero_sub, add_zero, zero_add]); try ring))))
    · skip
      by_cases bC : C < na
      · skip
        by_cases bD : D < na
        · skip
          wick L (occupiedSet up down na nb) with [nnA, nnB, hJ, nnJ, hI, nnI, nnC, nnD, hM, nnM, hK, nnK, bA, bB, bC, bD]
          try simp only [ite_eqn, if_true, if_false, eqn_comm B A, eqn_comm J A, eqn_comm I A, eqn_comm C A, eqn_comm D A, eqn_comm M A, eqn_comm K A, eqn_comm J B, eqn_comm I B, eqn_comm C B, eqn_comm D B, eqn_comm M B, eqn_comm K B, eqn_comm I J, eqn_comm C J, eqn_comm D J, eqn_comm M J, eqn_comm K J, eqn_comm C I, eqn_comm D I, eqn_comm M I, eqn_comm K I, eqn_comm D C, eqn_comm M C, eqn_comm K C, eqn_comm M D, eqn_comm K D, eqn_comm K M]
          try simp only [(eqn_ne (by omega) : eqn A J = 0), (eqn_ne (by omega) : eqn A I = 0), (eqn_ne (by omega) : eqn A C = 0), (eqn_ne (by omega) : eqn A D = 0), (eqn_ne (by omega) : eqn A M = 0), (eqn_ne (by omega) : eqn A K = 0), (eqn_ne (by omega) : eqn B J = 0), (eqn_ne (by omega) : eqn B I = 0), (eqn_ne (by omega) : eqn B C = 0), (eqn_ne (by omega) : eqn B D = 0), (eqn_ne (by omega) : eqn B M = 0), (eqn_ne (by omega) : eqn B K = 0), (eqn_ne (by omega) : eqn J C = 0), (eqn_ne (by omega) : eqn J D = 0), (eqn_ne (by omega) : eqn I C = 0), (eqn_ne (by omega) : eqn I D = 0), (eqn_ne (by omega) : eqn C M = 0), (eqn_ne (by omega) : eqn C K = 0), (eqn_ne (by omega) : eqn D M = 0), (eqn_ne (by omega) : eqn D K = 0), mul_zero, zero_mul, neg_zero, sub_zero, zero_sub, add_zero, zero_add]
          try (if qAD : A = D then ((try simp only [(eqn_ne (by omega) : eqn B C = 0), (eqn_ne (by omega) : eqn A C = 0), (eqn_ne (by omega) : eqn B D = 0), mul_zero, zero_mul, neg_zero, sub_zero, zero_sub, add_zero, zero_add]); try (if qIM : I = M then ((try simp only [(eqn_ne (by omega) : eqn J K = 0), (eqn_ne (by omega) : eqn I K = 0), (eqn_ne (by omega) : eqn J M = 0), mul_zero, zero_mul, neg_zero, sub_zero, zero_sub, add_zero, zero_add]); try ring) else ((try simp only [(eqn_ne qIM : eqn I M = 0), mul_zero, zero_mul, neg_zero, sub_zero, zero_sub, add_zero, zero_add]); try ring))) else ((try simp only [(eqn_ne qAD : eqn A D = 0), mul_zero, zero_mul, neg_zero, sub_zero, zero_sub, add_zero, zero_add]); try (if qIM : I = M then ((try simp only [(eqn_ne (by omega) : eqn J K = 0), (eqn_ne (by omega) : eqn I K = 0), (eqn_ne (by omega) : eqn J M = 0), mul_zero, zero_mul, neg_zero, sub_zero, zero_sub, add_zero, zero_add]); try ring) else ((try simp only [(eqn_ne qIM : eqn I M = 0), mul_zero, zero_mul, neg_zero, sub_zero, zero_sub, add_zero, zero_add]); try ring))))
        · skip
          wick L (occupiedSet up down na nb) with [nnA, nnB, hJ, nnJ, hI, nnI, nnC, nnD, hM, nnM, hK, nnK, bA, bB, bC, bD]
          try simp only [ite_eqn, if_true, if_false, eqn_comm B A, eqn_comm J A, eqn_comm I A, eqn_comm C A, eqn_comm D A, eqn_comm M A, eqn_comm K A, eqn_comm J B, eqn_comm I B, eqn_comm C B, eqn_comm D B, eqn_comm M B, eqn_comm K B, eqn_comm I J, eqn_comm C J, eqn_comm D J, eqn_comm M J, eqn_comm K J, eqn_comm C I, eqn_comm D I, eqn_comm M I, eqn_comm K I, eqn_comm D C, eqn_comm M C, eqn_comm K C, eqn_comm M D, eqn_comm K D, eqn_comm K M]
          try simp only [(eqn_ne (by omega) : eqn A J = 0), (eqn_ne (by omega) : eqn A I = 0), (eqn_ne (by omega) : eqn A C = 0), (eqn_ne (by omega) : eqn A M = 0), (eqn_ne (by omega) : eqn A K = 0), (eqn_ne (by omega) : eqn B J = 0), (eqn_ne (by omega) : eqn B I = 0), (eqn_ne (by omega) : eqn B C = 0), (eqn_ne (by omega) : eqn B M = 0), (eqn_ne (by omega) : eqn B K = 0), (eqn_ne (by omega) : eqn J C = 0), (eqn_ne (by omega) : eqn J D = 0), (eqn_ne (by omega) : eqn I C = 0), (eqn_ne (by omega) : eqn I D = 0), (eqn_ne (by omega) : eqn C D = 0), (eqn_ne (by omega) : eqn C M = 0), (eqn_ne (by omega) : eqn C K = 0), (eqn_ne (by omega) : eqn D M = 0), (eqn_ne (by omega) : eqn D K = 0), mul_zero, zero_mul, neg_zero, sub_zero, zero_sub, add_zero, zero_add]
          try (if qAD : A = D then ((try simp only [(eqn_ne (by omega) : eqn B C = 0), (eqn_ne (by omega) : eqn A C = 0), (eqn_ne (by omega) : eqn B D = 0), mul_zero, zero_mul, neg_zero, sub_zero, zero_sub, add_zero, zero_add]); try (if qIM : I = M then ((try simp only [(eqn_ne (by omega) : eqn J K = 0), (eqn_ne (by omega) : eqn I K = 0), (eqn_ne (by omega) : eqn J M = 0), mul_zero, zero_mul, neg_zero, sub_zero, zero_sub, add_zero, zero_add]); try ring) else ((try simp only [(eqn_ne qIM : eqn I M = 0), mul_zero, zero_mul, neg_zero, sub_zero, zero_sub, add_zero, zero_add]); try ring))) else ((try simp only [(eqn_ne qAD : eqn A D = 0), mul_zero, zero_mul, neg_zero, sub_zero, zero_sub, add_zero, zero_add]); try (if qIM : I = M then ((try simp only [(eqn_ne (by omega) : eqn J K = 0), (eqn_ne (by omega) : eqn I K = 0), (eqn_ne (by omega) : eqn J M = 0), mul_zero, zero_mul, neg_zero, sub_zero, zero_sub, add_zero, zero_add]); try ring) else ((try simp only [(eqn_ne qIM : eqn I M = 0), mul_zero, zero_mul, neg_zero, sub_zero, zero_sub, add_zero, zero_add]); try ring))))
      · skip
        by_cases bD : D < na
        · skip
          wick L (occupiedSet up down na nb) with [nnA, nnB, hJ, nnJ, hI, nnI, nnC, nnD, hM, nnM, hK, nnK, bA, bB, bC, bD]
          try simp only [ite_eqn, if_true, if_false, eqn_comm B A, eqn_comm J A, eqn_comm I A, eqn_comm C A, eqn_comm D A, eqn_comm M A, eqn_comm K A, eqn_comm J B, eqn_comm I B, eqn_comm C B, eqn_comm D B, eqn_comm M B, eqn_comm K B, eqn_comm I J, eqn_comm C J, eqn_comm D J, eqn_comm M J, eqn_comm K J, eqn_comm C I, eqn_comm D I, eqn_comm M I, eqn_comm K I, eqn_comm D C, eqn_comm M C, eqn_comm K C, eqn_comm M D, eqn_comm K D, eqn_comm K M]
          try simp only [(eqn_ne (by omega) : eqn A J = 0), (eqn_ne (by omega) : eqn A I = 0), (eqn_ne (by omega) : eqn A D = 0), (eqn_ne (by omega) : eqn A M = 0), (eqn_ne (by omega) : eqn A K = 0), (eqn_ne (by omega) : eqn B J = 0), (eqn_ne (by omega) : eqn B I = 0), (eqn_ne (by omega) : eqn B D = 0), (eqn_ne (by omega) : eqn B M = 0), (eqn_ne (by omega) : eqn B K = 0), (eqn_ne (by omega) : eqn J C = 0), (eqn_ne (by omega) : eqn J D = 0), (eqn_ne (by omega) : eqn I C = 0), (eqn_ne (by omega) : eqn I D = 0), (eqn_ne (by omega) : eqn C D = 0), (eqn_ne (by omega) : eqn C M = 0), (eqn_ne (by omega) : eqn C K = 0), (eqn_ne (by omega) : eqn D M = 0), (eqn_ne (by omega) : eqn D K = 0), mul_zero, zero_mul, neg_zero, sub_zero, zero_sub, add_zero, zero_add]
          try (if qAD : A = D then ((try simp only [(eqn_ne (by omega) : eqn B C = 0), (eqn_ne (by omega) : eqn A C = 0), (eqn_ne (by omega) : eqn B D = 0), mul_zero, zero_mul, neg_zero, sub_zero, zero_sub, add_zero, zero_add]); try (if qIM : I = M then ((try simp only [(eqn_ne (by omega) : eqn J K = 0), (eqn_ne (by omega) : eqn I K = 0), (eqn_ne (by omega) : eqn J M = 0), mul_zero, zero_mul, neg_zero, sub_zero, zero_sub, add_zero, zero_add]); try ring) else ((try simp only [(eqn_ne qIM : eqn I M = 0), mul_zero, zero_mul, neg_zero, sub_zero, zero_sub, add_zero, zero_add]); try ring))) else ((try simp only [(eqn_ne qAD : eqn A D = 0), mul_zero, zero_mul, neg_zero, sub_zero, zero_sub, add_zero, zero_add]); try (if qIM : I = M then ((try simp only [(eqn_ne (by omega) : eqn J K = 0), (eqn_ne (by omega) : eqn I K = 0), (eqn_ne (by omega) : eqn J M = 0), mul_zero, zero_mul, neg_zero, sub_zero, zero_sub, add_zero, zero_add]); try ring) else ((try simp only [(eqn_ne qIM : eqn I M = 0), mul_zero, zero_mul, neg_zero, sub_zero, zero_sub, add_zero, zero_add]); try ring))))
        · skip
          wick L (occupiedSet up down na nb) with [nnA, nnB, hJ, nnJ, hI, nnI, nnC, nnD, hM, nnM, hK, nnK, bA, bB, bC, bD]
          try simp only [ite_eqn, if_true, if_false, eqn_comm B A, eqn_comm J A, eqn_comm I A, eqn_comm C A, eqn_comm D A, eqn_comm M A, eqn_comm K A, eqn_comm J B, eqn_comm I B, eqn_comm C B, eqn_comm D B, eqn_comm M B, eqn_comm K B, eqn_comm I J, eqn_comm C J, eqn_comm D J, eqn_comm M J, eqn_comm K J, eqn_comm C I, eqn_comm D I, eqn_comm M I, eqn_comm K I, eqn_comm D C, eqn_comm M C, eqn_comm K C, eqn_comm M D, eqn_comm K D, eqn_comm K M]
          try simp only [(eqn_ne (by omega) : eqn A J = 0), (eqn_ne (by omega) : eqn A I = 0), (eqn_ne (by omega) : eqn A M = 0), (eqn_ne (by omega) : eqn A K = 0), (eqn_ne (by omega) : eqn B J = 0), (eqn_ne (by omega) : eqn B I = 0), (eqn_ne (by omega) : eqn B M = 0), (eqn_ne (by omega) : eqn B K = 0), (eqn_ne (by omega) : eqn J C = 0), (eqn_ne (by omega) : eqn J D = 0), (eqn_ne (by omega) : eqn I C = 0), (eqn_ne (by omega) : eqn I D = 0), (eqn_ne (by omega) : eqn C M = 0), (eqn_ne (by omega) : eqn C K = 0), (eqn_ne (by omega) : eqn D M = 0), (eqn_ne (by omega) : eqn D K = 0), mul_zero, zero_mul, neg_zero, sub_zero, zero_sub, add_zero, zero_add]
          try (if qAD : A = D then ((try simp only [(eqn_ne (by omega) : eqn B C = 0), (eqn_ne (by omega) : eqn A C = 0), (eqn_ne (by omega) : eqn B D = 0), mul_zero, zero_mul, neg_zero, sub_zero, zero_sub, add_zero, zero_add]); try (if qIM : I = M then ((try simp only [(eqn_ne (by omega) : eqn J K = 0), (eqn_ne (by omega) : eqn I K = 0), (eqn_ne (by omega) : eqn J M = 0), mul_zero, zero_mul, neg_zero, sub_zero, zero_sub, add_zero, zero_add]); try ring) else ((try simp only [(eqn_ne qIM : eqn I M = 0), mul_zero, zero_mul, neg_zero, sub_zero, zero_sub, add_zero, zero_add]); try ring))) else ((try simp only [(eqn_ne qAD : eqn A D = 0), mul_zero, zero_mul, neg_zero, sub_zero, zero_sub, add_zero, zero_add]); try (if qIM : I = M then ((try simp only [(eqn_ne (by omega) : eqn J K = 0), (eqn_ne (by omega) : eqn I K = 0), (eqn_ne (by omega) : eqn J M = 0), mul_zero, zero_mul, neg_zero, sub_zero, zero_sub, add_zero, zero_add]); try ring) else ((try simp only [(eqn_ne qIM : eqn I M = 0), mul_zero, zero_mul, neg_zero, sub_zero, zero_sub, add_zero, zero_add]); try ring))))

end Ccpy.SpinMatrix
