import Verif.Lemmas.PSpaceLinear

/-! What the blocks of `update_t3c_p` add, for a pair of rows. -/

set_option linter.unusedSimpArgs false

namespace Ccpy.PSpace
open Ccpy.Fock
open Finset (range)

/-- The terms that are linear in the amplitudes of `t3c`, with the indices in order. -/
def linC_t3c (X : Dressed) (d : Dims) (t : Tens) (a b c i j k : ℕ) : ℚ :=
  -(∑ m ∈ range d.oa, X.a_oo m i * t a b c m j k)
    - pick2 (fun j k => ∑ m ∈ range d.ob, X.b_oo m j * t a b c i m k) j k
    + (∑ e ∈ range d.ua, X.a_vv a e * t e b c i j k)
    + pick2 (fun b c => ∑ e ∈ range d.ub, X.b_vv b e * t a e c i j k) b c
    + 1 / 2 * (∑ m ∈ range d.ob, ∑ n ∈ range d.ob, X.bb_oooo m n j k * t a b c i m n)
    + pick2 (fun j k => ∑ m ∈ range d.oa, ∑ n ∈ range d.ob, X.ab_oooo m n i j * t a b c m n k) j k
    + 1 / 2 * (∑ e ∈ range d.ub, ∑ f ∈ range d.ub, X.bb_vvvv b c e f * t a e f i j k)
    + pick2 (fun b c => ∑ e ∈ range d.ua, ∑ f ∈ range d.ub, X.ab_vvvv a b e f * t e f c i j k) b c
    + (∑ m ∈ range d.oa, ∑ e ∈ range d.ua, X.aa_voov a m i e * t e b c m j k)
    + pick2 (fun j k => pick2 (fun b c => ∑ m ∈ range d.ob, ∑ e ∈ range d.ub, X.bb_voov b m j e * t a e c i m k) b c) j k
    - pick2 (fun b c => ∑ m ∈ range d.oa, ∑ e ∈ range d.ub, X.ab_ovov m b i e * t a e c m j k) b c
    - pick2 (fun j k => ∑ m ∈ range d.ob, ∑ e ∈ range d.ua, X.ab_vovo a m e j * t e b c i m k) j k

theorem linC_t3c_linear (X : Dressed) (d : Dims) (a b c i j k : ℕ) : IsLinear fun t => linC_t3c X d t a b c i j k := by
  linear [linC_t3c]

theorem elements_t3cBlocks (d : Dims) (X : Dressed) (ho : ∀ m n i j, X.bb_oooo n m i j = -X.bb_oooo m n i j)
    (ho' : ∀ m n i j, X.bb_oooo m n j i = -X.bb_oooo m n i j) (hv : ∀ m n i j, X.bb_vvvv n m i j = -X.bb_vvvv m n i j)
    (hv' : ∀ m n i j, X.bb_vvvv m n j i = -X.bb_vvvv m n i j)
    {a b c i j k A B C L M N : ℕ} (hbc : b < c) (hjk : j < k) (hA : A < d.ua) (hBC : B < C) (hC : C < d.ub) (hL : L < d.oa) (hMN : M < N) (hN : N < d.ob) :
    elements (t3cBlocks d X.argsC) [a + 1, b + 1, c + 1, i + 1, j + 1, k + 1] [A + 1, B + 1, C + 1, L + 1, M + 1, N + 1]
      = linC_t3c X d (fun a b c i j k => same1 a A * alternating2 b c B C * (same1 i L * alternating2 j k M N)) a b c i j k := by
  have hB := hBC.trans hC
  have hM := hMN.trans hN
  have e0 : ∀ a b c i j k : ℕ, ∑ m ∈ range d.oa, X.a_oo m i * (same1 a A * alternating2 b c B C * (same1 m L * alternating2 j k M N))
      = same1 a A * alternating2 b c B C * (X.a_oo L i * alternating2 j k M N) := by
    intro a b c i j k
    rw [sum_in_right, sum_delta_mul hL]
  have e1 : ∀ a b c i j k : ℕ, ∑ m ∈ range d.ob, X.b_oo m j * (same1 a A * alternating2 b c B C * (same1 i L * alternating2 m k M N))
      = same1 a A * alternating2 b c B C * (same1 i L * (X.b_oo M j * same1 k N - X.b_oo N j * same1 k M)) := by
    intro a b c i j k
    rw [sum_in_right, sum_mul_alternating2_first hM hN]
  have e2 : ∀ a b c i j k : ℕ, ∑ e ∈ range d.ua, X.a_vv a e * (same1 e A * alternating2 b c B C * (same1 i L * alternating2 j k M N))
      = (X.a_vv a A * alternating2 b c B C) * (same1 i L * alternating2 j k M N) := by
    intro a b c i j k
    rw [sum_in_left, sum_delta_mul hA]
  have e3 : ∀ a b c i j k : ℕ, ∑ e ∈ range d.ub, X.b_vv b e * (same1 a A * alternating2 e c B C * (same1 i L * alternating2 j k M N))
      = (same1 a A * (X.b_vv b B * same1 c C - X.b_vv b C * same1 c B)) * (same1 i L * alternating2 j k M N) := by
    intro a b c i j k
    rw [sum_in_left, sum_mul_alternating2_first hB hC]
  have e4 : ∀ a b c i j k : ℕ, ∑ m ∈ range d.ob, ∑ n ∈ range d.ob, X.bb_oooo m n j k * (same1 a A * alternating2 b c B C * (same1 i L * alternating2 m n M N))
      = same1 a A * alternating2 b c B C * (same1 i L * (X.bb_oooo M N j k - X.bb_oooo N M j k)) := by
    intro a b c i j k
    rw [sum_sum_in_right, sum_pair_right hM hN]
  have e5 : ∀ a b c i j k : ℕ, ∑ m ∈ range d.oa, ∑ n ∈ range d.ob, X.ab_oooo m n i j * (same1 a A * alternating2 b c B C * (same1 m L * alternating2 n k M N))
      = same1 a A * alternating2 b c B C * (X.ab_oooo L M i j * same1 k N - X.ab_oooo L N i j * same1 k M) := by
    intro a b c i j k
    rw [sum_sum_in_right, sum_pair_zy_first hM hN hL]
  have e6 : ∀ a b c i j k : ℕ, ∑ e ∈ range d.ub, ∑ f ∈ range d.ub, X.bb_vvvv b c e f * (same1 a A * alternating2 e f B C * (same1 i L * alternating2 j k M N))
      = (same1 a A * (X.bb_vvvv b c B C - X.bb_vvvv b c C B)) * (same1 i L * alternating2 j k M N) := by
    intro a b c i j k
    rw [sum_sum_in_left, sum_pair_right hB hC]
  have e7 : ∀ a b c i j k : ℕ, ∑ e ∈ range d.ua, ∑ f ∈ range d.ub, X.ab_vvvv a b e f * (same1 e A * alternating2 f c B C * (same1 i L * alternating2 j k M N))
      = (X.ab_vvvv a b A B * same1 c C - X.ab_vvvv a b A C * same1 c B) * (same1 i L * alternating2 j k M N) := by
    intro a b c i j k
    rw [sum_sum_in_left, sum_pair_zy_first hB hC hA]
  have e8 : ∀ a b c i j k : ℕ, ∑ m ∈ range d.oa, ∑ e ∈ range d.ua, X.aa_voov a m i e * (same1 e A * alternating2 b c B C * (same1 m L * alternating2 j k M N))
      = (X.aa_voov a L i A * alternating2 b c B C) * alternating2 j k M N := by
    intro a b c i j k
    rw [sum_sum_both]; simp only [sum_delta_mul hA]; exact sum_delta_mul hL (fun m => (X.aa_voov a m i A * alternating2 b c B C)) _
  have e9 : ∀ a b c i j k : ℕ, ∑ m ∈ range d.ob, ∑ e ∈ range d.ub, X.bb_voov b m j e * (same1 a A * alternating2 e c B C * (same1 i L * alternating2 m k M N))
      = same1 i L * ((same1 a A * (X.bb_voov b M j B * same1 c C - X.bb_voov b M j C * same1 c B)) * same1 k N - (same1 a A * (X.bb_voov b N j B * same1 c C - X.bb_voov b N j C * same1 c B)) * same1 k M) := by
    intro a b c i j k
    rw [sum_sum_both]; simp only [sum_mul_alternating2_first hB hC]; exact sum_mul_alternating2_first hM hN (fun m => (same1 a A * (X.bb_voov b m j B * same1 c C - X.bb_voov b m j C * same1 c B))) _ _
  have e10 : ∀ a b c i j k : ℕ, ∑ m ∈ range d.oa, ∑ e ∈ range d.ub, X.ab_ovov m b i e * (same1 a A * alternating2 e c B C * (same1 m L * alternating2 j k M N))
      = (same1 a A * (X.ab_ovov L b i B * same1 c C - X.ab_ovov L b i C * same1 c B)) * alternating2 j k M N := by
    intro a b c i j k
    rw [sum_sum_both]; simp only [sum_mul_alternating2_first hB hC]; exact sum_delta_mul hL (fun m => (same1 a A * (X.ab_ovov m b i B * same1 c C - X.ab_ovov m b i C * same1 c B))) _
  have e11 : ∀ a b c i j k : ℕ, ∑ m ∈ range d.ob, ∑ e ∈ range d.ua, X.ab_vovo a m e j * (same1 e A * alternating2 b c B C * (same1 i L * alternating2 m k M N))
      = same1 i L * ((X.ab_vovo a M A j * alternating2 b c B C) * same1 k N - (X.ab_vovo a N A j * alternating2 b c B C) * same1 k M) := by
    intro a b c i j k
    rw [sum_sum_both]; simp only [sum_delta_mul hA]; exact sum_mul_alternating2_first hM hN (fun m => (X.ab_vovo a m A j * alternating2 b c B C)) _ _
  simp only [linC_t3c, pick2]
  simp only [e0, e1, e2, e3, e4, e5, e6, e7, e8, e9, e10, e11]
  try simp only [alternating2_ordered hbc hBC, alternating2_ordered hjk hMN, ho M N, hv' _ _ B C, ho' _ _ j k, hv b c]
  simp only [elements, t3cBlocks, Block.element, t3cBlock1, t3cBlock2, t3cBlock3, t3cBlock4, t3cBlock5, t3cBlock6, t3cBlock7, t3cBlock8, t3cBlock9, t3cBlock10, t3cBlock11, t3cBlock12, t3cBlock13, t3cBlock14, t3cBlock15, List.map_cons, List.map_nil,
    List.sum_cons, List.sum_nil, Case.element, column, List.cons.injEq, and_true, Nat.add_right_cancel_iff, List.getD_cons_zero,
    List.getD_cons_succ, Nat.reduceSub, ite_and_delta, ite_delta, delta_succ, delta_comm A a, delta_comm B a, delta_comm C a, delta_comm A b, delta_comm B b, delta_comm C b, delta_comm A c, delta_comm B c, delta_comm C c, delta_comm L i, delta_comm M i, delta_comm N i, delta_comm L j, delta_comm M j, delta_comm N j, delta_comm L k, delta_comm M k, delta_comm N k, Dressed.argsC, one2, one4,
    Nat.add_sub_cancel, ho M N, hv' _ _ B C, ho' _ _ j k, hv b c]
  have z_bc_CB := delta_reversed hbc hBC
  have z_jk_NM := delta_reversed hjk hMN
  linear_combination (same1 b B * same1 c C * same1 a A * X.a_oo L i) * z_jk_NM
    - (same1 i L * same1 k N * same1 j M * X.a_vv a A) * z_bc_CB

/-- The terms that are linear in the amplitudes of `t3d`, with the indices in order. -/
def linC_t3d (X : Dressed) (d : Dims) (t : Tens) (a b c i j k : ℕ) : ℚ :=
  (∑ m ∈ range d.ob, ∑ e ∈ range d.ub, X.ab_voov a m i e * t b c e j k m)

theorem linC_t3d_linear (X : Dressed) (d : Dims) (a b c i j k : ℕ) : IsLinear fun t => linC_t3d X d t a b c i j k := by
  linear [linC_t3d]

theorem elements_t3cBlocksT3d (d : Dims) (X : Dressed)
    {a b c i j k A B C L M N : ℕ} (hbc : b < c) (hjk : j < k) (hAB : A < B) (hBC : B < C) (hC : C < d.ub) (hLM : L < M) (hMN : M < N) (hN : N < d.ob) :
    elements (t3cBlocksT3d d X.argsC) [a + 1, b + 1, c + 1, i + 1, j + 1, k + 1] [A + 1, B + 1, C + 1, L + 1, M + 1, N + 1]
      = linC_t3d X d (fun a b c i j k => alternating3 a b c A B C * alternating3 i j k L M N) a b c i j k := by
  have hB := hBC.trans hC
  have hA := hAB.trans hB
  have hM := hMN.trans hN
  have hL := hLM.trans hM
  have hAC := hAB.trans hBC
  have hLN := hLM.trans hMN
  have e0 : ∀ a b c i j k : ℕ, ∑ m ∈ range d.ob, ∑ e ∈ range d.ub, X.ab_voov a m i e * (alternating3 b c e A B C * alternating3 j k m L M N)
      = (X.ab_voov a N i C * alternating2 b c A B - X.ab_voov a N i B * alternating2 b c A C + X.ab_voov a N i A * alternating2 b c B C) * alternating2 j k L M - (X.ab_voov a M i C * alternating2 b c A B - X.ab_voov a M i B * alternating2 b c A C + X.ab_voov a M i A * alternating2 b c B C) * alternating2 j k L N + (X.ab_voov a L i C * alternating2 b c A B - X.ab_voov a L i B * alternating2 b c A C + X.ab_voov a L i A * alternating2 b c B C) * alternating2 j k M N := by
    intro a b c i j k
    rw [sum_sum_both]; simp only [sum_alternating3 hA hB hC]; exact sum_alternating3 hL hM hN (fun m => (X.ab_voov a m i C * alternating2 b c A B - X.ab_voov a m i B * alternating2 b c A C + X.ab_voov a m i A * alternating2 b c B C)) _ _
  simp only [linC_t3d, pick2]
  simp only [e0]
  try simp only [alternating2_ordered hbc hAB, alternating2_ordered hbc hAC, alternating2_ordered hbc hBC, alternating2_ordered hjk hLM, alternating2_ordered hjk hLN, alternating2_ordered hjk hMN]
  simp only [elements, t3cBlocksT3d, Block.element, t3cBlock16, t3cBlock17, t3cBlock18, t3cBlock19, t3cBlock20, t3cBlock21, t3cBlock22, t3cBlock23, t3cBlock24, List.map_cons, List.map_nil,
    List.sum_cons, List.sum_nil, Case.element, column, List.cons.injEq, and_true, Nat.add_right_cancel_iff, List.getD_cons_zero,
    List.getD_cons_succ, Nat.reduceSub, ite_and_delta, ite_delta, delta_succ, delta_comm A a, delta_comm B a, delta_comm C a, delta_comm A b, delta_comm B b, delta_comm C b, delta_comm A c, delta_comm B c, delta_comm C c, delta_comm L i, delta_comm M i, delta_comm N i, delta_comm L j, delta_comm M j, delta_comm N j, delta_comm L k, delta_comm M k, delta_comm N k, Dressed.argsC, one2, one4,
    Nat.add_sub_cancel]
  ring

/-- The terms that are linear in the amplitudes of `t3b`, with the indices in order. -/
def linC_t3b (X : Dressed) (d : Dims) (t : Tens) (a b c i j k : ℕ) : ℚ :=
  pick2 (fun j k => pick2 (fun b c => ∑ m ∈ range d.oa, ∑ e ∈ range d.ua, X.ab_ovvo m b e j * t a e c i m k) b c) j k

theorem linC_t3b_linear (X : Dressed) (d : Dims) (a b c i j k : ℕ) : IsLinear fun t => linC_t3b X d t a b c i j k := by
  linear [linC_t3b]

theorem elements_t3cBlocksT3b (d : Dims) (X : Dressed)
    {a b c i j k A B C L M N : ℕ} (hbc : b < c) (hjk : j < k) (hAB : A < B) (hB : B < d.ua) (hC : C < d.ub) (hLM : L < M) (hM : M < d.oa) (hN : N < d.ob) :
    elements (t3cBlocksT3b d X.argsC) [a + 1, b + 1, c + 1, i + 1, j + 1, k + 1] [A + 1, B + 1, C + 1, L + 1, M + 1, N + 1]
      = linC_t3b X d (fun a b c i j k => alternating2 a b A B * same1 c C * (alternating2 i j L M * same1 k N)) a b c i j k := by
  have hA := hAB.trans hB
  have hL := hLM.trans hM
  have e0 : ∀ a b c i j k : ℕ, ∑ m ∈ range d.oa, ∑ e ∈ range d.ua, X.ab_ovvo m b e j * (alternating2 a e A B * same1 c C * (alternating2 i m L M * same1 k N))
      = (((X.ab_ovvo M b B j * same1 a A - X.ab_ovvo M b A j * same1 a B) * same1 c C) * same1 i L - ((X.ab_ovvo L b B j * same1 a A - X.ab_ovvo L b A j * same1 a B) * same1 c C) * same1 i M) * same1 k N := by
    intro a b c i j k
    rw [sum_sum_both]; simp only [sum_alternating2_mul hA hB]; exact sum_alternating2_mul hL hM (fun m => ((X.ab_ovvo m b B j * same1 a A - X.ab_ovvo m b A j * same1 a B) * same1 c C)) _ _
  simp only [linC_t3b, pick2]
  simp only [e0]
  try simp only [alternating2_ordered hbc hAB, alternating2_ordered hjk hLM]
  simp only [elements, t3cBlocksT3b, Block.element, t3cBlock25, t3cBlock26, t3cBlock27, t3cBlock28, List.map_cons, List.map_nil,
    List.sum_cons, List.sum_nil, Case.element, column, List.cons.injEq, and_true, Nat.add_right_cancel_iff, List.getD_cons_zero,
    List.getD_cons_succ, Nat.reduceSub, ite_and_delta, ite_delta, delta_succ, delta_comm A a, delta_comm B a, delta_comm C a, delta_comm A b, delta_comm B b, delta_comm C b, delta_comm A c, delta_comm B c, delta_comm C c, delta_comm L i, delta_comm M i, delta_comm N i, delta_comm L j, delta_comm M j, delta_comm N j, delta_comm L k, delta_comm M k, delta_comm N k, Dressed.argsC, one2, one4,
    Nat.add_sub_cancel]
  ring

end Ccpy.PSpace
