import Verif.Lemmas.CrCcUnit
import Verif.Lemmas.CrCcSums
import Verif.Lemmas.CrCcLeftValue

/-! The denominators of the CR-CC(2,3) kernels. -/

set_option linter.unusedSimpArgs false

namespace Ccpy.CrCc
open Ccpy.Fock Ccpy.Tensor Ccpy.Engine Ccpy.HbarCcsd Ccpy.Ccsdt Ccpy.PSpace Ccpy.Rdm Ccpy.Ccsd
open Ccpy.EomCcsd (excitation)
open Finset (range Ico)

theorem diagonal_lt (f : List ℕ → ℚ) {a b : ℕ} (h : a < b) : diagonal f b a = f [a, b, a, b] := if_neg (by omega)

theorem list_sum (n : ℕ) (f : ℕ → ℚ) : ((List.range n).map f).sum = ∑ x ∈ range n, f x := rfl

theorem vaa : hbar.aa.oovv = stored.aa.oovv := rfl
theorem vab : hbar.ab.oovv = stored.ab.oovv := rfl
theorem vbb : hbar.bb.oovv = stored.bb.oovv := rfl

section
variable (s : Setup) (m : Memory) {Y : Dressed} (hY : dressed s m amplitudes hbar = Y) {i j k a b c : ℕ}
include hY

theorem denom_a (hA : Y.Anti) (hab : a < b) (hac : a < c) (hbc : b < c) :
    (argsA s m amplitudes excitation hbar stored).denomD (i + 1) (j + 1) (k + 1) (a + 1) (b + 1) (c + 1) = diffA Y (dimsOf s) a b c i j k := by
  have oaa : ∀ i j, Y.aa_oooo i j i j = Y.aa_oooo j i j i := fun i j => by rw [hA.aa_oooo_l, hA.aa_oooo_r, neg_neg]
  have obb : ∀ i j, Y.bb_oooo i j i j = Y.bb_oooo j i j i := fun i j => by rw [hA.bb_oooo_l, hA.bb_oooo_r, neg_neg]
  subst hY
  simp only [ArgsA.denomD, ArgsA.denomC, ArgsA.denomB, argsA, one2, one3, one4, axes2, axes4, Nat.add_sub_cancel, diagonal_lt _ hab, diagonal_lt _ hac, diagonal_lt _ hbc,
    d3aaaV, d3aaaO, d3aabV, d3aabO, d3abbV, d3abbO, d3bbbV, d3bbbO, list_sum]
  simp only [diffA, oaa i j, oaa i k, oaa j k]
  simp only [dressed, PSpace.dimsOf, vaa, vab, vbb]
  ring

theorem denom_b (hA : Y.Anti) (hab : a < b) :
    (argsB s m amplitudes excitation hbar stored).denomD (i + 1) (j + 1) (k + 1) (a + 1) (b + 1) (c + 1) = diffB Y (dimsOf s) a b c i j k := by
  have oaa : ∀ i j, Y.aa_oooo i j i j = Y.aa_oooo j i j i := fun i j => by rw [hA.aa_oooo_l, hA.aa_oooo_r, neg_neg]
  have obb : ∀ i j, Y.bb_oooo i j i j = Y.bb_oooo j i j i := fun i j => by rw [hA.bb_oooo_l, hA.bb_oooo_r, neg_neg]
  subst hY
  simp only [ArgsB.denomD, ArgsB.denomC, ArgsB.denomB, argsB, one2, one3, one4, axes2, axes4, Nat.add_sub_cancel, diagonal_lt _ hab,
    d3aaaV, d3aaaO, d3aabV, d3aabO, d3abbV, d3abbO, d3bbbV, d3bbbO, list_sum]
  simp only [diffB, oaa i j]
  simp only [dressed, PSpace.dimsOf, vaa, vab, vbb]
  ring

theorem denom_c (hA : Y.Anti) (hbc : b < c) :
    (argsC s m amplitudes excitation hbar stored).denomD (i + 1) (j + 1) (k + 1) (a + 1) (b + 1) (c + 1) = diffC Y (dimsOf s) a b c i j k := by
  have oaa : ∀ i j, Y.aa_oooo i j i j = Y.aa_oooo j i j i := fun i j => by rw [hA.aa_oooo_l, hA.aa_oooo_r, neg_neg]
  have obb : ∀ i j, Y.bb_oooo i j i j = Y.bb_oooo j i j i := fun i j => by rw [hA.bb_oooo_l, hA.bb_oooo_r, neg_neg]
  subst hY
  simp only [ArgsC.denomD, ArgsC.denomC, ArgsC.denomB, argsC, one2, one3, one4, axes2, axes4, Nat.add_sub_cancel, diagonal_lt _ hbc,
    d3aaaV, d3aaaO, d3aabV, d3aabO, d3abbV, d3abbO, d3bbbV, d3bbbO, list_sum]
  simp only [diffC, obb j k]
  simp only [dressed, PSpace.dimsOf, vaa, vab, vbb]
  ring

theorem denom_d (hA : Y.Anti) (hab : a < b) (hac : a < c) (hbc : b < c) :
    (argsD s m amplitudes excitation hbar stored).denomD (i + 1) (j + 1) (k + 1) (a + 1) (b + 1) (c + 1) = diffD Y (dimsOf s) a b c i j k := by
  have oaa : ∀ i j, Y.aa_oooo i j i j = Y.aa_oooo j i j i := fun i j => by rw [hA.aa_oooo_l, hA.aa_oooo_r, neg_neg]
  have obb : ∀ i j, Y.bb_oooo i j i j = Y.bb_oooo j i j i := fun i j => by rw [hA.bb_oooo_l, hA.bb_oooo_r, neg_neg]
  subst hY
  simp only [ArgsD.denomD, ArgsD.denomC, ArgsD.denomB, argsD, one2, one3, one4, axes2, axes4, Nat.add_sub_cancel, diagonal_lt _ hab, diagonal_lt _ hac, diagonal_lt _ hbc,
    d3aaaV, d3aaaO, d3aabV, d3aabO, d3abbV, d3abbO, d3bbbV, d3bbbO, list_sum]
  simp only [diffD, obb i j, obb i k, obb j k]
  simp only [dressed, PSpace.dimsOf, vaa, vab, vbb]
  ring

end

end Ccpy.CrCc
