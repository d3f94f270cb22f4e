import Verif.Lemmas.PSpaceAlgebra

/-! What the blocks of `update_t3a_p` add, for a pair of rows. -/

set_option linter.unusedSimpArgs false

namespace Ccpy.PSpace
open Ccpy.Fock

/-- The terms of the triples equation that are linear in the amplitudes of the same spin, with the indices in order. -/
def linAAA (X : Dressed) (d : Dims) (t : ℕ → ℕ → ℕ → ℕ → ℕ → ℕ → ℚ) (a b c i j k : ℕ) : ℚ :=
  -pick3 (fun i j k => ∑ m ∈ Finset.range d.oa, X.a_oo m k * t a b c i j m) i j k
    + pick3 (fun a b c => ∑ e ∈ Finset.range d.ua, X.a_vv c e * t a b e i j k) a b c
    + 1 / 2 * pick3 (fun i j k => ∑ m ∈ Finset.range d.oa, ∑ n ∈ Finset.range d.oa, X.aa_oooo m n i j * t a b c m n k) i j k
    + 1 / 2 * pick3 (fun a b c => ∑ e ∈ Finset.range d.ua, ∑ f ∈ Finset.range d.ua, X.aa_vvvv a b e f * t e f c i j k) a b c
    + pick3 (fun a b c => pick3 (fun i j k => ∑ m ∈ Finset.range d.oa, ∑ e ∈ Finset.range d.ua, X.aa_voov c m k e * t a b e i j m)
        i j k) a b c

/-- The term that is linear in the amplitudes of the other list. -/
def crossAAA (X : Dressed) (d : Dims) (t : ℕ → ℕ → ℕ → ℕ → ℕ → ℕ → ℚ) (a b c i j k : ℕ) : ℚ :=
  pick3 (fun a b c => pick3 (fun i j k => ∑ m ∈ Finset.range d.ob, ∑ e ∈ Finset.range d.ub, X.ab_voov c m k e * t a b e i j m)
    i j k) a b c

theorem elements_t3a (d : Dims) (X : Dressed) (ho : ∀ m n i j, X.aa_oooo n m i j = -X.aa_oooo m n i j)
    (ho' : ∀ m n i j, X.aa_oooo m n j i = -X.aa_oooo m n i j) (hv : ∀ m n i j, X.aa_vvvv n m i j = -X.aa_vvvv m n i j)
    (hv' : ∀ m n i j, X.aa_vvvv m n j i = -X.aa_vvvv m n i j)
    {a b c i j k A B C L M N : ℕ} (hab : a < b) (hbc : b < c) (hij : i < j) (hjk : j < k)
    (hAB : A < B) (hBC : B < C) (hC : C < d.ua) (hLM : L < M) (hMN : M < N) (hN : N < d.oa) :
    elements (t3aBlocks d X.argsA) [a + 1, b + 1, c + 1, i + 1, j + 1, k + 1] [A + 1, B + 1, C + 1, L + 1, M + 1, N + 1]
      = linAAA X d (fun a b c i j k => alternating3 a b c A B C * alternating3 i j k L M N) a b c i j k := by
  have hB : B < d.ua := by omega
  have hA : A < d.ua := by omega
  have hM : M < d.oa := by omega
  have hL : L < d.oa := by omega
  have e₁ : ∀ (f : ℕ → ℚ) (u : ℚ) x y, ∑ m ∈ Finset.range d.oa, f m * (u * alternating3 x y m L M N)
      = u * (f N * alternating2 x y L M - f M * alternating2 x y L N + f L * alternating2 x y M N) := by
    intro f u x y
    rw [← sum_alternating3 hL hM hN, Finset.mul_sum]
    exact Finset.sum_congr rfl fun _ _ => by ring
  have e₂ : ∀ (f : ℕ → ℚ) (u : ℚ) x y, ∑ m ∈ Finset.range d.ua, f m * (alternating3 x y m A B C * u)
      = (f C * alternating2 x y A B - f B * alternating2 x y A C + f A * alternating2 x y B C) * u := by
    intro f u x y
    rw [← sum_alternating3 hA hB hC, Finset.sum_mul]
    exact Finset.sum_congr rfl fun _ _ => by ring
  have e₃ : ∀ (f : ℕ → ℕ → ℚ) (u : ℚ) x, ∑ m ∈ Finset.range d.oa, ∑ n ∈ Finset.range d.oa, f m n * (u * alternating3 m n x L M N)
      = u * ((f M N - f N M) * same1 x L - (f L N - f N L) * same1 x M + (f L M - f M L) * same1 x N) := by
    intro f u x
    rw [← sum_sum_alternating3_first hL hM hN, Finset.mul_sum]
    refine Finset.sum_congr rfl fun _ _ => ?_
    rw [Finset.mul_sum]
    exact Finset.sum_congr rfl fun _ _ => by ring
  have e₄ : ∀ (f : ℕ → ℕ → ℚ) (u : ℚ) x, ∑ m ∈ Finset.range d.ua, ∑ n ∈ Finset.range d.ua, f m n * (alternating3 m n x A B C * u)
      = ((f B C - f C B) * same1 x A - (f A C - f C A) * same1 x B + (f A B - f B A) * same1 x C) * u := by
    intro f u x
    rw [← sum_sum_alternating3_first hA hB hC, Finset.sum_mul]
    refine Finset.sum_congr rfl fun _ _ => ?_
    rw [Finset.sum_mul]
    exact Finset.sum_congr rfl fun _ _ => by ring
  have e₅ : ∀ (f : ℕ → ℕ → ℚ) x y x' y', ∑ m ∈ Finset.range d.oa, ∑ e ∈ Finset.range d.ua,
        f m e * (alternating3 x y e A B C * alternating3 x' y' m L M N)
      = (f N C * alternating2 x y A B - f N B * alternating2 x y A C + f N A * alternating2 x y B C) * alternating2 x' y' L M
        - (f M C * alternating2 x y A B - f M B * alternating2 x y A C + f M A * alternating2 x y B C) * alternating2 x' y' L N
        + (f L C * alternating2 x y A B - f L B * alternating2 x y A C + f L A * alternating2 x y B C) * alternating2 x' y' M N := by
    intro f x y x' y'
    simp only [e₂]
    rw [sum_alternating3 hL hM hN (fun m => f m C * alternating2 x y A B - f m B * alternating2 x y A C + f m A * alternating2 x y B C)]
  have hac := hab.trans hbc
  have hik := hij.trans hjk
  have hAC := hAB.trans hBC
  have hLN := hLM.trans hMN
  simp only [linAAA, pick3, e₅]
  simp only [e₁, e₂, e₃, e₄, alternating3_ordered hab hbc hAB hBC, alternating3_ordered hij hjk hLM hMN,
    alternating2_ordered hab hAB, alternating2_ordered hab hAC, alternating2_ordered hab hBC, alternating2_ordered hac hAB, alternating2_ordered hac hAC, alternating2_ordered hac hBC, alternating2_ordered hbc hAB, alternating2_ordered hbc hAC, alternating2_ordered hbc hBC, alternating2_ordered hij hLM, alternating2_ordered hij hLN, alternating2_ordered hij hMN, alternating2_ordered hik hLM, alternating2_ordered hik hLN, alternating2_ordered hik hMN, alternating2_ordered hjk hLM, alternating2_ordered hjk hLN, alternating2_ordered hjk hMN,
    ho L M, ho L N, ho M N, hv' _ _ A B, hv' _ _ A C, hv' _ _ B C]
  simp only [elements, t3aBlocks, Block.element, t3aBlock1, t3aBlock2, t3aBlock3, t3aBlock4, t3aBlock5, t3aBlock6, t3aBlock7, t3aBlock8, t3aBlock9, t3aBlock10, t3aBlock11, t3aBlock12, t3aBlock13, t3aBlock14, t3aBlock15, List.map_cons, List.map_nil,
    List.sum_cons, List.sum_nil, Case.element, column, List.cons.injEq, and_true, Nat.add_right_cancel_iff, List.getD_cons_zero,
    List.getD_cons_succ, Nat.reduceSub, ite_and_delta, ite_delta, delta_succ, delta_comm A a, delta_comm B a, delta_comm C a, delta_comm A b, delta_comm B b, delta_comm C b, delta_comm A c, delta_comm B c, delta_comm C c, delta_comm L i, delta_comm M i, delta_comm N i, delta_comm L j, delta_comm M j, delta_comm N j, delta_comm L k, delta_comm M k, delta_comm N k, Dressed.argsA, one2, one4,
    Nat.add_sub_cancel, ho L M, ho L N, ho M N, hv' _ _ A B, hv' _ _ A C, hv' _ _ B C, ho' _ _ i j, ho' _ _ i k, ho' _ _ j k,
    hv a b, hv a c, hv b c]
  have z_ab_BA := delta_reversed hab hAB
  have z_ab_CA := delta_reversed hab hAC
  have z_ab_CB := delta_reversed hab hBC
  have z_ac_BA := delta_reversed hac hAB
  have z_ac_CA := delta_reversed hac hAC
  have z_ac_CB := delta_reversed hac hBC
  have z_bc_BA := delta_reversed hbc hAB
  have z_bc_CA := delta_reversed hbc hAC
  have z_bc_CB := delta_reversed hbc hBC
  have z_ij_ML := delta_reversed hij hLM
  have z_ij_NL := delta_reversed hij hLN
  have z_ij_NM := delta_reversed hij hMN
  have z_ik_NM := delta_reversed hik hMN
  have z_jk_NM := delta_reversed hjk hMN
  linear_combination (same1 a A * same1 b B * same1 c C * X.a_oo L k) * z_ij_NM
    + (same1 a A * same1 b B * same1 c C * X.a_oo L i) * z_jk_NM
    + (same1 a A * same1 b B * same1 c C * X.a_oo N k) * z_ij_ML
    - (same1 a A * same1 b B * same1 c C * X.a_oo L j) * z_ik_NM
    - (same1 a A * same1 b B * same1 c C * X.a_oo M k) * z_ij_NL
    - (same1 k N * same1 j M * same1 i L * X.a_vv c A) * z_ab_CB
    - (same1 k N * same1 j M * same1 i L * X.a_vv a C) * z_bc_BA
    - (same1 k N * same1 j M * same1 i L * X.a_vv b B) * z_ac_CA
    - (same1 k N * same1 j M * same1 i L * X.a_vv a A) * z_bc_CB
    + (same1 k N * same1 j M * same1 i L * X.a_vv a B) * z_bc_CA
    + (same1 k N * same1 j M * same1 i L * X.a_vv c B) * z_ab_CA
    + (same1 k N * same1 j M * same1 i L * X.a_vv b A) * z_ac_CB
    + (same1 k N * same1 j M * same1 i L * X.a_vv b C) * z_ac_BA
    - (same1 k N * same1 j M * same1 i L * X.a_vv c C) * z_ab_BA

theorem elements_t3aBlocksT3b (d : Dims) (X : Dressed)
    {a b c i j k A B C L M N : ℕ} (hab : a < b) (hbc : b < c) (hij : i < j) (hjk : j < k) (hAB : A < B) (hC : C < d.ub) (hLM : L < M) (hN : N < d.ob) :
    elements (t3aBlocksT3b d X.argsA) [a + 1, b + 1, c + 1, i + 1, j + 1, k + 1] [A + 1, B + 1, C + 1, L + 1, M + 1, N + 1]
      = crossAAA X d (fun a b c i j k => alternating2 a b A B * same1 c C * (alternating2 i j L M * same1 k N)) a b c i j k := by
  have e₆ : ∀ (f : ℕ → ℕ → ℚ) (x y x' y' : ℕ), ∑ m ∈ Finset.range d.ob, ∑ e ∈ Finset.range d.ub,
        f m e * (alternating2 x y A B * same1 e C * (alternating2 x' y' L M * same1 m N))
      = f N C * alternating2 x y A B * alternating2 x' y' L M := by
    intro f x y x' y'
    have e : ∀ m, ∑ e ∈ Finset.range d.ub, f m e * (alternating2 x y A B * same1 e C * (alternating2 x' y' L M * same1 m N))
        = f m C * alternating2 x y A B * alternating2 x' y' L M * same1 m N := by
      intro m
      rw [← sum_delta hC (fun e => f m e * alternating2 x y A B * alternating2 x' y' L M), Finset.sum_mul]
      exact Finset.sum_congr rfl fun _ _ => by ring
    simp only [e]
    exact sum_delta hN (fun m => f m C * alternating2 x y A B * alternating2 x' y' L M)
  have hac := hab.trans hbc
  have hik := hij.trans hjk
  simp only [crossAAA, pick3, e₆]
  simp only [alternating2_ordered hab hAB, alternating2_ordered hac hAB, alternating2_ordered hbc hAB, alternating2_ordered hij hLM, alternating2_ordered hik hLM, alternating2_ordered hjk hLM]
  simp only [elements, t3aBlocksT3b, Block.element, t3aBlock16, List.map_cons, List.map_nil,
    List.sum_cons, List.sum_nil, Case.element, column, List.cons.injEq, and_true, Nat.add_right_cancel_iff, List.getD_cons_zero,
    List.getD_cons_succ, Nat.reduceSub, ite_and_delta, ite_delta, delta_succ, Dressed.argsA, one2, one4,
    Nat.add_sub_cancel]
  ring

end Ccpy.PSpace
