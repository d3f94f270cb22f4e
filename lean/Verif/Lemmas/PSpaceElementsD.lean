import Verif.Lemmas.PSpaceAlgebra

/-! What the blocks of `update_t3d_p` add, for a pair of rows. -/

set_option linter.unusedSimpArgs false

namespace Ccpy.PSpace
open Ccpy.Fock

/-- The terms of the triples equation that are linear in the amplitudes of the same spin, with the indices in order. -/
def linBBB (X : Dressed) (d : Dims) (t : ℕ → ℕ → ℕ → ℕ → ℕ → ℕ → ℚ) (a b c i j k : ℕ) : ℚ :=
  -pick3 (fun i j k => ∑ m ∈ Finset.range d.ob, X.b_oo m k * t a b c i j m) i j k
    + pick3 (fun a b c => ∑ e ∈ Finset.range d.ub, X.b_vv c e * t a b e i j k) a b c
    + 1 / 2 * pick3 (fun i j k => ∑ m ∈ Finset.range d.ob, ∑ n ∈ Finset.range d.ob, X.bb_oooo m n i j * t a b c m n k) i j k
    + 1 / 2 * pick3 (fun a b c => ∑ e ∈ Finset.range d.ub, ∑ f ∈ Finset.range d.ub, X.bb_vvvv a b e f * t e f c i j k) a b c
    + pick3 (fun a b c => pick3 (fun i j k => ∑ m ∈ Finset.range d.ob, ∑ e ∈ Finset.range d.ub, X.bb_voov c m k e * t a b e i j m)
        i j k) a b c

/-- The term that is linear in the amplitudes of the other list. -/
def crossBBB (X : Dressed) (d : Dims) (t : ℕ → ℕ → ℕ → ℕ → ℕ → ℕ → ℚ) (a b c i j k : ℕ) : ℚ :=
  pick3 (fun a b c => pick3 (fun i j k => ∑ m ∈ Finset.range d.oa, ∑ e ∈ Finset.range d.ua, X.ab_ovvo m c e k * t e a b m i j)
    i j k) a b c

theorem elements_t3d (d : Dims) (X : Dressed) (ho : ∀ m n i j, X.bb_oooo n m i j = -X.bb_oooo m n i j)
    (ho' : ∀ m n i j, X.bb_oooo m n j i = -X.bb_oooo m n i j) (hv : ∀ m n i j, X.bb_vvvv n m i j = -X.bb_vvvv m n i j)
    (hv' : ∀ m n i j, X.bb_vvvv m n j i = -X.bb_vvvv m n i j)
    {a b c i j k A B C L M N : ℕ} (hab : a < b) (hbc : b < c) (hij : i < j) (hjk : j < k)
    (hAB : A < B) (hBC : B < C) (hC : C < d.ub) (hLM : L < M) (hMN : M < N) (hN : N < d.ob) :
    elements (t3dBlocks d X.argsD) [a + 1, b + 1, c + 1, i + 1, j + 1, k + 1] [A + 1, B + 1, C + 1, L + 1, M + 1, N + 1]
      = linBBB X d (fun a b c i j k => alternating3 a b c A B C * alternating3 i j k L M N) a b c i j k := by
  have hB : B < d.ub := by omega
  have hA : A < d.ub := by omega
  have hM : M < d.ob := by omega
  have hL : L < d.ob := by omega
  have e₁ : ∀ (f : ℕ → ℚ) (u : ℚ) x y, ∑ m ∈ Finset.range d.ob, f m * (u * alternating3 x y m L M N)
      = u * (f N * alternating2 x y L M - f M * alternating2 x y L N + f L * alternating2 x y M N) := by
    intro f u x y
    rw [← sum_alternating3 hL hM hN, Finset.mul_sum]
    exact Finset.sum_congr rfl fun _ _ => by ring
  have e₂ : ∀ (f : ℕ → ℚ) (u : ℚ) x y, ∑ m ∈ Finset.range d.ub, f m * (alternating3 x y m A B C * u)
      = (f C * alternating2 x y A B - f B * alternating2 x y A C + f A * alternating2 x y B C) * u := by
    intro f u x y
    rw [← sum_alternating3 hA hB hC, Finset.sum_mul]
    exact Finset.sum_congr rfl fun _ _ => by ring
  have e₃ : ∀ (f : ℕ → ℕ → ℚ) (u : ℚ) x, ∑ m ∈ Finset.range d.ob, ∑ n ∈ Finset.range d.ob, f m n * (u * alternating3 m n x L M N)
      = u * ((f M N - f N M) * same1 x L - (f L N - f N L) * same1 x M + (f L M - f M L) * same1 x N) := by
    intro f u x
    rw [← sum_sum_alternating3_first hL hM hN, Finset.mul_sum]
    refine Finset.sum_congr rfl fun _ _ => ?_
    rw [Finset.mul_sum]
    exact Finset.sum_congr rfl fun _ _ => by ring
  have e₄ : ∀ (f : ℕ → ℕ → ℚ) (u : ℚ) x, ∑ m ∈ Finset.range d.ub, ∑ n ∈ Finset.range d.ub, f m n * (alternating3 m n x A B C * u)
      = ((f B C - f C B) * same1 x A - (f A C - f C A) * same1 x B + (f A B - f B A) * same1 x C) * u := by
    intro f u x
    rw [← sum_sum_alternating3_first hA hB hC, Finset.sum_mul]
    refine Finset.sum_congr rfl fun _ _ => ?_
    rw [Finset.sum_mul]
    exact Finset.sum_congr rfl fun _ _ => by ring
  have e₅ : ∀ (f : ℕ → ℕ → ℚ) x y x' y', ∑ m ∈ Finset.range d.ob, ∑ e ∈ Finset.range d.ub,
        f m e * (alternating3 x y e A B C * alternating3 x' y' m L M N)
      = (f N C * alternating2 x y A B - f N B * alternating2 x y A C + f N A * alternating2 x y B C) * alternating2 x' y' L M
        - (f M C * alternating2 x y A B - f M B * alternating2 x y A C + f M A * alternating2 x y B C) * alternating2 x' y' L N
        + (f L C * alternating2 x y A B - f L B * alternating2 x y A C + f L A * alternating2 x y B C) * alternating2 x' y' M N := by
    intro f x y x' y'
    simp only [e₂]
    rw [sum_alternating3 hL hM hN (fun m => f m C * alternating2 x y A B - f m B * alternating2 x y A C + f m A * alternating2 x y B C)]
  have hac := hab.trans hbc
  have hik := hij.trans hjk
  have hAC := hAB.trans hBC
  have hLN := hLM.trans hMN
  simp only [linBBB, pick3, e₅]
  simp only [e₁, e₂, e₃, e₄, alternating3_ordered hab hbc hAB hBC, alternating3_ordered hij hjk hLM hMN,
    alternating2_ordered hab hAB, alternating2_ordered hab hAC, alternating2_ordered hab hBC, alternating2_ordered hac hAB, alternating2_ordered hac hAC, alternating2_ordered hac hBC, alternating2_ordered hbc hAB, alternating2_ordered hbc hAC, alternating2_ordered hbc hBC, alternating2_ordered hij hLM, alternating2_ordered hij hLN, alternating2_ordered hij hMN, alternating2_ordered hik hLM, alternating2_ordered hik hLN, alternating2_ordered hik hMN, alternating2_ordered hjk hLM, alternating2_ordered hjk hLN, alternating2_ordered hjk hMN,
    ho L M, ho L N, ho M N, hv' _ _ A B, hv' _ _ A C, hv' _ _ B C]
  simp only [elements, t3dBlocks, Block.element, t3dBlock1, t3dBlock2, t3dBlock3, t3dBlock4, t3dBlock5, t3dBlock6, t3dBlock7, t3dBlock8, t3dBlock9, t3dBlock10, t3dBlock11, t3dBlock12, t3dBlock13, t3dBlock14, t3dBlock15, List.map_cons, List.map_nil,
    List.sum_cons, List.sum_nil, Case.element, column, List.cons.injEq, and_true, Nat.add_right_cancel_iff, List.getD_cons_zero,
    List.getD_cons_succ, Nat.reduceSub, ite_and_delta, ite_delta, delta_succ, delta_comm A a, delta_comm B a, delta_comm C a, delta_comm A b, delta_comm B b, delta_comm C b, delta_comm A c, delta_comm B c, delta_comm C c, delta_comm L i, delta_comm M i, delta_comm N i, delta_comm L j, delta_comm M j, delta_comm N j, delta_comm L k, delta_comm M k, delta_comm N k, Dressed.argsD, one2, one4,
    Nat.add_sub_cancel, ho L M, ho L N, ho M N, hv' _ _ A B, hv' _ _ A C, hv' _ _ B C, ho' _ _ i j, ho' _ _ i k, ho' _ _ j k,
    hv a b, hv a c, hv b c]
  have z_ab_BA := delta_reversed hab hAB
  have z_ab_CA := delta_reversed hab hAC
  have z_ab_CB := delta_reversed hab hBC
  have z_ac_BA := delta_reversed hac hAB
  have z_ac_CA := delta_reversed hac hAC
  have z_ac_CB := delta_reversed hac hBC
  have z_bc_BA := delta_reversed hbc hAB
  have z_bc_CA := delta_reversed hbc hAC
  have z_bc_CB := delta_reversed hbc hBC
  have z_ij_ML := delta_reversed hij hLM
  have z_ij_NL := delta_reversed hij hLN
  have z_ij_NM := delta_reversed hij hMN
  have z_ik_NM := delta_reversed hik hMN
  have z_jk_NM := delta_reversed hjk hMN
  linear_combination (same1 a A * same1 b B * same1 c C * X.b_oo L k) * z_ij_NM
    + (same1 a A * same1 b B * same1 c C * X.b_oo L i) * z_jk_NM
    + (same1 a A * same1 b B * same1 c C * X.b_oo N k) * z_ij_ML
    - (same1 a A * same1 b B * same1 c C * X.b_oo L j) * z_ik_NM
    - (same1 a A * same1 b B * same1 c C * X.b_oo M k) * z_ij_NL
    - (same1 k N * same1 j M * same1 i L * X.b_vv c A) * z_ab_CB
    - (same1 k N * same1 j M * same1 i L * X.b_vv a C) * z_bc_BA
    - (same1 k N * same1 j M * same1 i L * X.b_vv b B) * z_ac_CA
    - (same1 k N * same1 j M * same1 i L * X.b_vv a A) * z_bc_CB
    + (same1 k N * same1 j M * same1 i L * X.b_vv a B) * z_bc_CA
    + (same1 k N * same1 j M * same1 i L * X.b_vv c B) * z_ab_CA
    + (same1 k N * same1 j M * same1 i L * X.b_vv b A) * z_ac_CB
    + (same1 k N * same1 j M * same1 i L * X.b_vv b C) * z_ac_BA
    - (same1 k N * same1 j M * same1 i L * X.b_vv c C) * z_ab_BA

theorem elements_t3dBlocksT3c (d : Dims) (X : Dressed)
    {a b c i j k A B C L M N : ℕ} (hab : a < b) (hbc : b < c) (hij : i < j) (hjk : j < k) (hBC : B < C) (hA : A < d.ua) (hMN : M < N) (hL : L < d.oa) :
    elements (t3dBlocksT3c d X.argsD) [a + 1, b + 1, c + 1, i + 1, j + 1, k + 1] [A + 1, B + 1, C + 1, L + 1, M + 1, N + 1]
      = crossBBB X d (fun a b c i j k => same1 a A * alternating2 b c B C * (same1 i L * alternating2 j k M N)) a b c i j k := by
  have e₆ : ∀ (f : ℕ → ℕ → ℚ) (x y x' y' : ℕ), ∑ m ∈ Finset.range d.oa, ∑ e ∈ Finset.range d.ua,
        f m e * (same1 e A * alternating2 x y B C * (same1 m L * alternating2 x' y' M N))
      = f L A * alternating2 x y B C * alternating2 x' y' M N := by
    intro f x y x' y'
    have e : ∀ m, ∑ e ∈ Finset.range d.ua, f m e * (same1 e A * alternating2 x y B C * (same1 m L * alternating2 x' y' M N))
        = f m A * alternating2 x y B C * alternating2 x' y' M N * same1 m L := by
      intro m
      rw [← sum_delta hA (fun e => f m e * alternating2 x y B C * alternating2 x' y' M N), Finset.sum_mul]
      exact Finset.sum_congr rfl fun _ _ => by ring
    simp only [e]
    exact sum_delta hL (fun m => f m A * alternating2 x y B C * alternating2 x' y' M N)
  have hac := hab.trans hbc
  have hik := hij.trans hjk
  simp only [crossBBB, pick3, e₆]
  simp only [alternating2_ordered hab hBC, alternating2_ordered hac hBC, alternating2_ordered hbc hBC, alternating2_ordered hij hMN, alternating2_ordered hik hMN, alternating2_ordered hjk hMN]
  simp only [elements, t3dBlocksT3c, Block.element, t3dBlock16, List.map_cons, List.map_nil,
    List.sum_cons, List.sum_nil, Case.element, column, List.cons.injEq, and_true, Nat.add_right_cancel_iff, List.getD_cons_zero,
    List.getD_cons_succ, Nat.reduceSub, ite_and_delta, ite_delta, delta_succ, Dressed.argsD, one2, one4,
    Nat.add_sub_cancel]
  ring

end Ccpy.PSpace
