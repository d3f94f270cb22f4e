import Verif.Lemmas.PSpaceLinear

/-! What the blocks of `update_t3b_p` add, for a pair of rows. -/

set_option linter.unusedSimpArgs false

namespace Ccpy.PSpace
open Ccpy.Fock
open Finset (range)

/-- The terms that are linear in the amplitudes of `t3b`, with the indices in order. -/
def linB_t3b (X : Dressed) (d : Dims) (t : Tens) (a b c i j k : ℕ) : ℚ :=
  -pick2 (fun i j => ∑ m ∈ range d.oa, X.a_oo m i * t a b c m j k) i j
    - (∑ m ∈ range d.ob, X.b_oo m k * t a b c i j m)
    + pick2 (fun a b => ∑ e ∈ range d.ua, X.a_vv a e * t e b c i j k) a b
    + (∑ e ∈ range d.ub, X.b_vv c e * t a b e i j k)
    + 1 / 2 * (∑ m ∈ range d.oa, ∑ n ∈ range d.oa, X.aa_oooo m n i j * t a b c m n k)
    + pick2 (fun i j => ∑ m ∈ range d.oa, ∑ n ∈ range d.ob, X.ab_oooo m n j k * t a b c i m n) i j
    + 1 / 2 * (∑ e ∈ range d.ua, ∑ f ∈ range d.ua, X.aa_vvvv a b e f * t e f c i j k)
    + pick2 (fun a b => ∑ e ∈ range d.ua, ∑ f ∈ range d.ub, X.ab_vvvv b c e f * t a e f i j k) a b
    + pick2 (fun i j => pick2 (fun a b => ∑ m ∈ range d.oa, ∑ e ∈ range d.ua, X.aa_voov a m i e * t e b c m j k) a b) i j
    + (∑ m ∈ range d.ob, ∑ e ∈ range d.ub, X.bb_voov c m k e * t a b e i j m)
    - pick2 (fun a b => ∑ m ∈ range d.ob, ∑ e ∈ range d.ua, X.ab_vovo a m e k * t e b c i j m) a b
    - pick2 (fun i j => ∑ m ∈ range d.oa, ∑ e ∈ range d.ub, X.ab_ovov m c i e * t a b e m j k) i j

theorem linB_t3b_linear (X : Dressed) (d : Dims) (a b c i j k : ℕ) : IsLinear fun t => linB_t3b X d t a b c i j k := by
  linear [linB_t3b]

theorem elements_t3bBlocks (d : Dims) (X : Dressed) (ho : ∀ m n i j, X.aa_oooo n m i j = -X.aa_oooo m n i j)
    (ho' : ∀ m n i j, X.aa_oooo m n j i = -X.aa_oooo m n i j) (hv : ∀ m n i j, X.aa_vvvv n m i j = -X.aa_vvvv m n i j)
    (hv' : ∀ m n i j, X.aa_vvvv m n j i = -X.aa_vvvv m n i j)
    {a b c i j k A B C L M N : ℕ} (hab : a < b) (hij : i < j) (hAB : A < B) (hB : B < d.ua) (hC : C < d.ub) (hLM : L < M) (hM : M < d.oa) (hN : N < d.ob) :
    elements (t3bBlocks d X.argsB) [a + 1, b + 1, c + 1, i + 1, j + 1, k + 1] [A + 1, B + 1, C + 1, L + 1, M + 1, N + 1]
      = linB_t3b X d (fun a b c i j k => alternating2 a b A B * same1 c C * (alternating2 i j L M * same1 k N)) a b c i j k := by
  have hA := hAB.trans hB
  have hL := hLM.trans hM
  have e0 : ∀ a b c i j k : ℕ, ∑ m ∈ range d.oa, X.a_oo m i * (alternating2 a b A B * same1 c C * (alternating2 m j L M * same1 k N))
      = alternating2 a b A B * same1 c C * ((X.a_oo L i * same1 j M - X.a_oo M i * same1 j L) * same1 k N) := by
    intro a b c i j k
    rw [sum_in_right, sum_alternating2_first_mul hL hM]
  have e1 : ∀ a b c i j k : ℕ, ∑ m ∈ range d.ob, X.b_oo m k * (alternating2 a b A B * same1 c C * (alternating2 i j L M * same1 m N))
      = alternating2 a b A B * same1 c C * (X.b_oo N k * alternating2 i j L M) := by
    intro a b c i j k
    rw [sum_in_right, sum_mul_delta hN]
  have e2 : ∀ a b c i j k : ℕ, ∑ e ∈ range d.ua, X.a_vv a e * (alternating2 e b A B * same1 c C * (alternating2 i j L M * same1 k N))
      = ((X.a_vv a A * same1 b B - X.a_vv a B * same1 b A) * same1 c C) * (alternating2 i j L M * same1 k N) := by
    intro a b c i j k
    rw [sum_in_left, sum_alternating2_first_mul hA hB]
  have e3 : ∀ a b c i j k : ℕ, ∑ e ∈ range d.ub, X.b_vv c e * (alternating2 a b A B * same1 e C * (alternating2 i j L M * same1 k N))
      = (X.b_vv c C * alternating2 a b A B) * (alternating2 i j L M * same1 k N) := by
    intro a b c i j k
    rw [sum_in_left, sum_mul_delta hC]
  have e4 : ∀ a b c i j k : ℕ, ∑ m ∈ range d.oa, ∑ n ∈ range d.oa, X.aa_oooo m n i j * (alternating2 a b A B * same1 c C * (alternating2 m n L M * same1 k N))
      = alternating2 a b A B * same1 c C * ((X.aa_oooo L M i j - X.aa_oooo M L i j) * same1 k N) := by
    intro a b c i j k
    rw [sum_sum_in_right, sum_pair_left hL hM]
  have e5 : ∀ a b c i j k : ℕ, ∑ m ∈ range d.oa, ∑ n ∈ range d.ob, X.ab_oooo m n j k * (alternating2 a b A B * same1 c C * (alternating2 i m L M * same1 n N))
      = alternating2 a b A B * same1 c C * (X.ab_oooo M N j k * same1 i L - X.ab_oooo L N j k * same1 i M) := by
    intro a b c i j k
    rw [sum_sum_in_right, sum_pair_yz hL hM hN]
  have e6 : ∀ a b c i j k : ℕ, ∑ e ∈ range d.ua, ∑ f ∈ range d.ua, X.aa_vvvv a b e f * (alternating2 e f A B * same1 c C * (alternating2 i j L M * same1 k N))
      = ((X.aa_vvvv a b A B - X.aa_vvvv a b B A) * same1 c C) * (alternating2 i j L M * same1 k N) := by
    intro a b c i j k
    rw [sum_sum_in_left, sum_pair_left hA hB]
  have e7 : ∀ a b c i j k : ℕ, ∑ e ∈ range d.ua, ∑ f ∈ range d.ub, X.ab_vvvv b c e f * (alternating2 a e A B * same1 f C * (alternating2 i j L M * same1 k N))
      = (X.ab_vvvv b c B C * same1 a A - X.ab_vvvv b c A C * same1 a B) * (alternating2 i j L M * same1 k N) := by
    intro a b c i j k
    rw [sum_sum_in_left, sum_pair_yz hA hB hC]
  have e8 : ∀ a b c i j k : ℕ, ∑ m ∈ range d.oa, ∑ e ∈ range d.ua, X.aa_voov a m i e * (alternating2 e b A B * same1 c C * (alternating2 m j L M * same1 k N))
      = (((X.aa_voov a L i A * same1 b B - X.aa_voov a L i B * same1 b A) * same1 c C) * same1 j M - ((X.aa_voov a M i A * same1 b B - X.aa_voov a M i B * same1 b A) * same1 c C) * same1 j L) * same1 k N := by
    intro a b c i j k
    rw [sum_sum_both]; simp only [sum_alternating2_first_mul hA hB]; exact sum_alternating2_first_mul hL hM (fun m => ((X.aa_voov a m i A * same1 b B - X.aa_voov a m i B * same1 b A) * same1 c C)) _ _
  have e9 : ∀ a b c i j k : ℕ, ∑ m ∈ range d.ob, ∑ e ∈ range d.ub, X.bb_voov c m k e * (alternating2 a b A B * same1 e C * (alternating2 i j L M * same1 m N))
      = (X.bb_voov c N k C * alternating2 a b A B) * alternating2 i j L M := by
    intro a b c i j k
    rw [sum_sum_both]; simp only [sum_mul_delta hC]; exact sum_mul_delta hN (fun m => (X.bb_voov c m k C * alternating2 a b A B)) _
  have e10 : ∀ a b c i j k : ℕ, ∑ m ∈ range d.ob, ∑ e ∈ range d.ua, X.ab_vovo a m e k * (alternating2 e b A B * same1 c C * (alternating2 i j L M * same1 m N))
      = ((X.ab_vovo a N A k * same1 b B - X.ab_vovo a N B k * same1 b A) * same1 c C) * alternating2 i j L M := by
    intro a b c i j k
    rw [sum_sum_both]; simp only [sum_alternating2_first_mul hA hB]; exact sum_mul_delta hN (fun m => ((X.ab_vovo a m A k * same1 b B - X.ab_vovo a m B k * same1 b A) * same1 c C)) _
  have e11 : ∀ a b c i j k : ℕ, ∑ m ∈ range d.oa, ∑ e ∈ range d.ub, X.ab_ovov m c i e * (alternating2 a b A B * same1 e C * (alternating2 m j L M * same1 k N))
      = ((X.ab_ovov L c i C * alternating2 a b A B) * same1 j M - (X.ab_ovov M c i C * alternating2 a b A B) * same1 j L) * same1 k N := by
    intro a b c i j k
    rw [sum_sum_both]; simp only [sum_mul_delta hC]; exact sum_alternating2_first_mul hL hM (fun m => (X.ab_ovov m c i C * alternating2 a b A B)) _ _
  simp only [linB_t3b, pick2]
  simp only [e0, e1, e2, e3, e4, e5, e6, e7, e8, e9, e10, e11]
  try simp only [alternating2_ordered hab hAB, alternating2_ordered hij hLM, ho L M, hv' _ _ A B, ho' _ _ i j, hv a b]
  simp only [elements, t3bBlocks, Block.element, t3bBlock1, t3bBlock2, t3bBlock3, t3bBlock4, t3bBlock5, t3bBlock6, t3bBlock7, t3bBlock8, t3bBlock9, t3bBlock10, t3bBlock11, t3bBlock12, t3bBlock13, t3bBlock14, t3bBlock15, List.map_cons, List.map_nil,
    List.sum_cons, List.sum_nil, Case.element, column, List.cons.injEq, and_true, Nat.add_right_cancel_iff, List.getD_cons_zero,
    List.getD_cons_succ, Nat.reduceSub, ite_and_delta, ite_delta, delta_succ, delta_comm A a, delta_comm B a, delta_comm C a, delta_comm A b, delta_comm B b, delta_comm C b, delta_comm A c, delta_comm B c, delta_comm C c, delta_comm L i, delta_comm M i, delta_comm N i, delta_comm L j, delta_comm M j, delta_comm N j, delta_comm L k, delta_comm M k, delta_comm N k, Dressed.argsB, one2, one4,
    Nat.add_sub_cancel, ho L M, hv' _ _ A B, ho' _ _ i j, hv a b]
  have z_ab_BA := delta_reversed hab hAB
  have z_ij_ML := delta_reversed hij hLM
  linear_combination (same1 a A * same1 b B * same1 c C * X.b_oo N k) * z_ij_ML
    - (same1 k N * same1 j M * same1 i L * X.b_vv c C) * z_ab_BA

/-- The terms that are linear in the amplitudes of `t3a`, with the indices in order. -/
def linB_t3a (X : Dressed) (d : Dims) (t : Tens) (a b c i j k : ℕ) : ℚ :=
  (∑ m ∈ range d.oa, ∑ e ∈ range d.ua, X.ab_ovvo m c e k * t a b e i j m)

theorem linB_t3a_linear (X : Dressed) (d : Dims) (a b c i j k : ℕ) : IsLinear fun t => linB_t3a X d t a b c i j k := by
  linear [linB_t3a]

theorem elements_t3bBlocksT3a (d : Dims) (X : Dressed)
    {a b c i j k A B C L M N : ℕ} (hab : a < b) (hij : i < j) (hAB : A < B) (hBC : B < C) (hC : C < d.ua) (hLM : L < M) (hMN : M < N) (hN : N < d.oa) :
    elements (t3bBlocksT3a d X.argsB) [a + 1, b + 1, c + 1, i + 1, j + 1, k + 1] [A + 1, B + 1, C + 1, L + 1, M + 1, N + 1]
      = linB_t3a X d (fun a b c i j k => alternating3 a b c A B C * alternating3 i j k L M N) a b c i j k := by
  have hB := hBC.trans hC
  have hA := hAB.trans hB
  have hM := hMN.trans hN
  have hL := hLM.trans hM
  have hAC := hAB.trans hBC
  have hLN := hLM.trans hMN
  have e0 : ∀ a b c i j k : ℕ, ∑ m ∈ range d.oa, ∑ e ∈ range d.ua, X.ab_ovvo m c e k * (alternating3 a b e A B C * alternating3 i j m L M N)
      = (X.ab_ovvo N c C k * alternating2 a b A B - X.ab_ovvo N c B k * alternating2 a b A C + X.ab_ovvo N c A k * alternating2 a b B C) * alternating2 i j L M - (X.ab_ovvo M c C k * alternating2 a b A B - X.ab_ovvo M c B k * alternating2 a b A C + X.ab_ovvo M c A k * alternating2 a b B C) * alternating2 i j L N + (X.ab_ovvo L c C k * alternating2 a b A B - X.ab_ovvo L c B k * alternating2 a b A C + X.ab_ovvo L c A k * alternating2 a b B C) * alternating2 i j M N := by
    intro a b c i j k
    rw [sum_sum_both]; simp only [sum_alternating3 hA hB hC]; exact sum_alternating3 hL hM hN (fun m => (X.ab_ovvo m c C k * alternating2 a b A B - X.ab_ovvo m c B k * alternating2 a b A C + X.ab_ovvo m c A k * alternating2 a b B C)) _ _
  simp only [linB_t3a, pick2]
  simp only [e0]
  try simp only [alternating2_ordered hab hAB, alternating2_ordered hab hAC, alternating2_ordered hab hBC, alternating2_ordered hij hLM, alternating2_ordered hij hLN, alternating2_ordered hij hMN]
  simp only [elements, t3bBlocksT3a, Block.element, t3bBlock16, t3bBlock17, t3bBlock18, t3bBlock19, t3bBlock20, t3bBlock21, t3bBlock22, t3bBlock23, t3bBlock24, List.map_cons, List.map_nil,
    List.sum_cons, List.sum_nil, Case.element, column, List.cons.injEq, and_true, Nat.add_right_cancel_iff, List.getD_cons_zero,
    List.getD_cons_succ, Nat.reduceSub, ite_and_delta, ite_delta, delta_succ, delta_comm A a, delta_comm B a, delta_comm C a, delta_comm A b, delta_comm B b, delta_comm C b, delta_comm A c, delta_comm B c, delta_comm C c, delta_comm L i, delta_comm M i, delta_comm N i, delta_comm L j, delta_comm M j, delta_comm N j, delta_comm L k, delta_comm M k, delta_comm N k, Dressed.argsB, one2, one4,
    Nat.add_sub_cancel]
  ring

/-- The terms that are linear in the amplitudes of `t3c`, with the indices in order. -/
def linB_t3c (X : Dressed) (d : Dims) (t : Tens) (a b c i j k : ℕ) : ℚ :=
  pick2 (fun i j => pick2 (fun a b => ∑ m ∈ range d.ob, ∑ e ∈ range d.ub, X.ab_voov a m i e * t b e c j m k) a b) i j

theorem linB_t3c_linear (X : Dressed) (d : Dims) (a b c i j k : ℕ) : IsLinear fun t => linB_t3c X d t a b c i j k := by
  linear [linB_t3c]

theorem elements_t3bBlocksT3c (d : Dims) (X : Dressed)
    {a b c i j k A B C L M N : ℕ} (hab : a < b) (hij : i < j) (hA : A < d.ua) (hBC : B < C) (hC : C < d.ub) (hL : L < d.oa) (hMN : M < N) (hN : N < d.ob) :
    elements (t3bBlocksT3c d X.argsB) [a + 1, b + 1, c + 1, i + 1, j + 1, k + 1] [A + 1, B + 1, C + 1, L + 1, M + 1, N + 1]
      = linB_t3c X d (fun a b c i j k => same1 a A * alternating2 b c B C * (same1 i L * alternating2 j k M N)) a b c i j k := by
  have hB := hBC.trans hC
  have hM := hMN.trans hN
  have e0 : ∀ a b c i j k : ℕ, ∑ m ∈ range d.ob, ∑ e ∈ range d.ub, X.ab_voov a m i e * (same1 b A * alternating2 e c B C * (same1 j L * alternating2 m k M N))
      = same1 j L * ((same1 b A * (X.ab_voov a M i B * same1 c C - X.ab_voov a M i C * same1 c B)) * same1 k N - (same1 b A * (X.ab_voov a N i B * same1 c C - X.ab_voov a N i C * same1 c B)) * same1 k M) := by
    intro a b c i j k
    rw [sum_sum_both]; simp only [sum_mul_alternating2_first hB hC]; exact sum_mul_alternating2_first hM hN (fun m => (same1 b A * (X.ab_voov a m i B * same1 c C - X.ab_voov a m i C * same1 c B))) _ _
  simp only [linB_t3c, pick2]
  simp only [e0]
  try simp only [alternating2_ordered hab hBC, alternating2_ordered hij hMN]
  simp only [elements, t3bBlocksT3c, Block.element, t3bBlock25, t3bBlock26, t3bBlock27, t3bBlock28, List.map_cons, List.map_nil,
    List.sum_cons, List.sum_nil, Case.element, column, List.cons.injEq, and_true, Nat.add_right_cancel_iff, List.getD_cons_zero,
    List.getD_cons_succ, Nat.reduceSub, ite_and_delta, ite_delta, delta_succ, delta_comm A a, delta_comm B a, delta_comm C a, delta_comm A b, delta_comm B b, delta_comm C b, delta_comm A c, delta_comm B c, delta_comm C c, delta_comm L i, delta_comm M i, delta_comm N i, delta_comm L j, delta_comm M j, delta_comm N j, delta_comm L k, delta_comm M k, delta_comm N k, Dressed.argsB, one2, one4,
    Nat.add_sub_cancel]
  ring

end Ccpy.PSpace
