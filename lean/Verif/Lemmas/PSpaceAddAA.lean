import Verif.Lemmas.PSpaceLinear
import Verif.Lemmas.PSpacePlaces
import Verif.Model.PSpaceDoubles

/-! What the loops over the lists of triple excitations add to the residuals of the double excitations. -/

set_option linter.unusedSimpArgs false
set_option linter.unusedVariables false

namespace Ccpy.PSpace
open Ccpy.Fock
open Finset (range)

/-- The statements of one diagram. -/
def g_t2a_t3a_h1a_ov (H1A_ov : Arr2) (q : List ℕ) (x y z w : ℕ) : ℚ :=
  let a := column q 1; let b := column q 2; let e := column q 3; let i := column q 4; let j := column q 5; let m := column q 6
  same1 x a * (same1 y b * (same1 z i * (same1 w j * (H1A_ov m e)))) + same1 x a * (same1 y b * (same1 z m * (same1 w j * (-H1A_ov i e)))) + same1 x a * (same1 y b * (same1 z i * (same1 w m * (-H1A_ov j e)))) + same1 x e * (same1 y b * (same1 z i * (same1 w j * (-H1A_ov m a)))) + same1 x e * (same1 y b * (same1 z m * (same1 w j * (H1A_ov i a)))) + same1 x e * (same1 y b * (same1 z i * (same1 w m * (H1A_ov j a)))) + same1 x a * (same1 y e * (same1 z i * (same1 w j * (-H1A_ov m b)))) + same1 x a * (same1 y e * (same1 z m * (same1 w j * (H1A_ov i b)))) + same1 x a * (same1 y e * (same1 z i * (same1 w m * (H1A_ov j b))))

/-- The contraction that the statements stand for. -/
def t2a_t3a_h1a_ov (H1A_ov : Arr2) (d : Dims) (t : Tens) (a b i j : ℕ) : ℚ :=
  1 / 4 * ∑ m ∈ range d.oa, ∑ e ∈ range d.ua, H1A_ov m e * t a b e i j m

theorem t2a_t3a_h1a_ov_linear (H1A_ov : Arr2) (d : Dims) (a b i j : ℕ) : IsLinear fun t => t2a_t3a_h1a_ov H1A_ov d t a b i j - t2a_t3a_h1a_ov H1A_ov d t b a i j - t2a_t3a_h1a_ov H1A_ov d t a b j i + t2a_t3a_h1a_ov H1A_ov d t b a j i := by
  linear [t2a_t3a_h1a_ov]

theorem t2a_t3a_h1a_ov_over (H1A_ov : Arr2) (d : Dims) {src : List (List ℕ × ℚ)} (fits : Fits src (ListedAAA d.ua d.oa)) (a b i j : ℕ) :
    over src (fun q => g_t2a_t3a_h1a_ov (one2 H1A_ov) q (a + 1) (b + 1) (i + 1) (j + 1) - g_t2a_t3a_h1a_ov (one2 H1A_ov) q (b + 1) (a + 1) (i + 1) (j + 1) - g_t2a_t3a_h1a_ov (one2 H1A_ov) q (a + 1) (b + 1) (j + 1) (i + 1) + g_t2a_t3a_h1a_ov (one2 H1A_ov) q (b + 1) (a + 1) (j + 1) (i + 1))
      = t2a_t3a_h1a_ov H1A_ov d (TripleList.ofThree src) a b i j - t2a_t3a_h1a_ov H1A_ov d (TripleList.ofThree src) b a i j - t2a_t3a_h1a_ov H1A_ov d (TripleList.ofThree src) a b j i + t2a_t3a_h1a_ov H1A_ov d (TripleList.ofThree src) b a j i := by
  refine over_three fits (t2a_t3a_h1a_ov_linear H1A_ov d a b i j) ?_
  intro A B C L M N hAB hBC hC hLM hMN hN
  have hB := hBC.trans hC; have hA := hAB.trans hB; have hM := hMN.trans hN; have hL := hLM.trans hM
  simp only [t2a_t3a_h1a_ov]
  simp only [sum_sum_both]
  simp only [sum_alternating3 hA hB hC]
  simp only [sum_alternating3 hL hM hN]
  simp only [g_t2a_t3a_h1a_ov, column, List.getD_cons_zero, List.getD_cons_succ, Nat.reduceSub, delta_succ, one2, Nat.add_sub_cancel, alternating2]
  ring

/-- The statements of one diagram. -/
def g_t2a_t3a_h2a_ooov (H2A_ooov : Arr4) (q : List ℕ) (x y z w : ℕ) : ℚ :=
  let a := column q 1; let b := column q 2; let f := column q 3; let m := column q 4; let j := column q 5; let n := column q 6
  same1 x a * (same1 y b * (same1 w j * (-H2A_ooov m n z f))) + same1 x a * (same1 y b * (same1 w m * (H2A_ooov j n z f))) + same1 x a * (same1 y b * (same1 w n * (H2A_ooov m j z f))) + same1 x f * (same1 y b * (same1 w j * (H2A_ooov m n z a))) + same1 x f * (same1 y b * (same1 w m * (-H2A_ooov j n z a))) + same1 x f * (same1 y b * (same1 w n * (-H2A_ooov m j z a))) + same1 x a * (same1 y f * (same1 w j * (H2A_ooov m n z b))) + same1 x a * (same1 y f * (same1 w m * (-H2A_ooov j n z b))) + same1 x a * (same1 y f * (same1 w n * (-H2A_ooov m j z b)))

/-- The contraction that the statements stand for. -/
def t2a_t3a_h2a_ooov (H2A_ooov : Arr4) (d : Dims) (t : Tens) (a b i j : ℕ) : ℚ :=
  -(1 / 4) * ∑ m ∈ range d.oa, ∑ n ∈ range d.oa, ∑ f ∈ range d.ua, H2A_ooov m n i f * t a b f m j n

theorem t2a_t3a_h2a_ooov_linear (H2A_ooov : Arr4) (d : Dims) (a b i j : ℕ) : IsLinear fun t => t2a_t3a_h2a_ooov H2A_ooov d t a b i j - t2a_t3a_h2a_ooov H2A_ooov d t b a i j - t2a_t3a_h2a_ooov H2A_ooov d t a b j i + t2a_t3a_h2a_ooov H2A_ooov d t b a j i := by
  linear [t2a_t3a_h2a_ooov]

theorem t2a_t3a_h2a_ooov_over (H2A_ooov : Arr4) (d : Dims) (o_h2a_ooov : ∀ p q r s, H2A_ooov q p r s = -H2A_ooov p q r s) {src : List (List ℕ × ℚ)} (fits : Fits src (ListedAAA d.ua d.oa)) (a b i j : ℕ) :
    over src (fun q => g_t2a_t3a_h2a_ooov (one4 H2A_ooov) q (a + 1) (b + 1) (i + 1) (j + 1) - g_t2a_t3a_h2a_ooov (one4 H2A_ooov) q (b + 1) (a + 1) (i + 1) (j + 1) - g_t2a_t3a_h2a_ooov (one4 H2A_ooov) q (a + 1) (b + 1) (j + 1) (i + 1) + g_t2a_t3a_h2a_ooov (one4 H2A_ooov) q (b + 1) (a + 1) (j + 1) (i + 1))
      = t2a_t3a_h2a_ooov H2A_ooov d (TripleList.ofThree src) a b i j - t2a_t3a_h2a_ooov H2A_ooov d (TripleList.ofThree src) b a i j - t2a_t3a_h2a_ooov H2A_ooov d (TripleList.ofThree src) a b j i + t2a_t3a_h2a_ooov H2A_ooov d (TripleList.ofThree src) b a j i := by
  refine over_three fits (t2a_t3a_h2a_ooov_linear H2A_ooov d a b i j) ?_
  intro A B C L M N hAB hBC hC hLM hMN hN
  have hB := hBC.trans hC; have hA := hAB.trans hB; have hM := hMN.trans hN; have hL := hLM.trans hM
  simp only [t2a_t3a_h2a_ooov]
  simp only [sum3_left]
  simp only [sum_alternating3 hA hB hC]
  simp only [sum_sum_alternating3_outer hL hM hN]
  simp only [g_t2a_t3a_h2a_ooov, column, List.getD_cons_zero, List.getD_cons_succ, Nat.reduceSub, delta_succ, one4, Nat.add_sub_cancel, o_h2a_ooov L M, o_h2a_ooov L N, o_h2a_ooov M N, alternating2]
  ring

/-- The statements of one diagram. -/
def g_t2a_t3a_h2a_vovv (H2A_vovv : Arr4) (q : List ℕ) (x y z w : ℕ) : ℚ :=
  let e := column q 1; let b := column q 2; let f := column q 3; let i := column q 4; let j := column q 5; let n := column q 6
  same1 y b * (same1 z i * (same1 w j * (H2A_vovv x n e f))) + same1 y b * (same1 z n * (same1 w j * (-H2A_vovv x i e f))) + same1 y b * (same1 z i * (same1 w n * (-H2A_vovv x j e f))) + same1 y e * (same1 z i * (same1 w j * (-H2A_vovv x n b f))) + same1 y e * (same1 z n * (same1 w j * (H2A_vovv x i b f))) + same1 y e * (same1 z i * (same1 w n * (H2A_vovv x j b f))) + same1 y f * (same1 z i * (same1 w j * (-H2A_vovv x n e b))) + same1 y f * (same1 z n * (same1 w j * (H2A_vovv x i e b))) + same1 y f * (same1 z i * (same1 w n * (H2A_vovv x j e b)))

/-- The contraction that the statements stand for. -/
def t2a_t3a_h2a_vovv (H2A_vovv : Arr4) (d : Dims) (t : Tens) (a b i j : ℕ) : ℚ :=
  1 / 4 * ∑ n ∈ range d.oa, ∑ e ∈ range d.ua, ∑ f ∈ range d.ua, H2A_vovv a n e f * t e b f i j n

theorem t2a_t3a_h2a_vovv_linear (H2A_vovv : Arr4) (d : Dims) (a b i j : ℕ) : IsLinear fun t => t2a_t3a_h2a_vovv H2A_vovv d t a b i j - t2a_t3a_h2a_vovv H2A_vovv d t b a i j - t2a_t3a_h2a_vovv H2A_vovv d t a b j i + t2a_t3a_h2a_vovv H2A_vovv d t b a j i := by
  linear [t2a_t3a_h2a_vovv]

theorem t2a_t3a_h2a_vovv_over (H2A_vovv : Arr4) (d : Dims) (v_h2a_vovv : ∀ p q r s, H2A_vovv p q s r = -H2A_vovv p q r s) {src : List (List ℕ × ℚ)} (fits : Fits src (ListedAAA d.ua d.oa)) (a b i j : ℕ) :
    over src (fun q => g_t2a_t3a_h2a_vovv (one4 H2A_vovv) q (a + 1) (b + 1) (i + 1) (j + 1) - g_t2a_t3a_h2a_vovv (one4 H2A_vovv) q (b + 1) (a + 1) (i + 1) (j + 1) - g_t2a_t3a_h2a_vovv (one4 H2A_vovv) q (a + 1) (b + 1) (j + 1) (i + 1) + g_t2a_t3a_h2a_vovv (one4 H2A_vovv) q (b + 1) (a + 1) (j + 1) (i + 1))
      = t2a_t3a_h2a_vovv H2A_vovv d (TripleList.ofThree src) a b i j - t2a_t3a_h2a_vovv H2A_vovv d (TripleList.ofThree src) b a i j - t2a_t3a_h2a_vovv H2A_vovv d (TripleList.ofThree src) a b j i + t2a_t3a_h2a_vovv H2A_vovv d (TripleList.ofThree src) b a j i := by
  refine over_three fits (t2a_t3a_h2a_vovv_linear H2A_vovv d a b i j) ?_
  intro A B C L M N hAB hBC hC hLM hMN hN
  have hB := hBC.trans hC; have hA := hAB.trans hB; have hM := hMN.trans hN; have hL := hLM.trans hM
  simp only [t2a_t3a_h2a_vovv]
  simp only [sum3_right]
  simp only [sum_sum_alternating3_outer hA hB hC]
  simp only [sum_alternating3 hL hM hN]
  simp only [g_t2a_t3a_h2a_vovv, column, List.getD_cons_zero, List.getD_cons_succ, Nat.reduceSub, delta_succ, one4, Nat.add_sub_cancel, v_h2a_vovv _ _ A B, v_h2a_vovv _ _ A C, v_h2a_vovv _ _ B C, alternating2]
  ring

/-- The statements of one diagram. -/
def g_t2a_t3b_h1b_ov (H1B_ov : Arr2) (q : List ℕ) (x y z w : ℕ) : ℚ :=
  let a := column q 1; let b := column q 2; let e := column q 3; let i := column q 4; let j := column q 5; let m := column q 6
  same1 x a * (same1 y b * (same1 z i * (same1 w j * (H1B_ov m e))))

/-- The contraction that the statements stand for. -/
def t2a_t3b_h1b_ov (H1B_ov : Arr2) (d : Dims) (t : Tens) (a b i j : ℕ) : ℚ :=
  1 / 4 * ∑ m ∈ range d.ob, ∑ e ∈ range d.ub, H1B_ov m e * t a b e i j m

theorem t2a_t3b_h1b_ov_linear (H1B_ov : Arr2) (d : Dims) (a b i j : ℕ) : IsLinear fun t => t2a_t3b_h1b_ov H1B_ov d t a b i j - t2a_t3b_h1b_ov H1B_ov d t b a i j - t2a_t3b_h1b_ov H1B_ov d t a b j i + t2a_t3b_h1b_ov H1B_ov d t b a j i := by
  linear [t2a_t3b_h1b_ov]

theorem t2a_t3b_h1b_ov_over (H1B_ov : Arr2) (d : Dims) {src : List (List ℕ × ℚ)} (fits : Fits src (ListedAAB d.ua d.ub d.oa d.ob)) (a b i j : ℕ) :
    over src (fun q => g_t2a_t3b_h1b_ov (one2 H1B_ov) q (a + 1) (b + 1) (i + 1) (j + 1) - g_t2a_t3b_h1b_ov (one2 H1B_ov) q (b + 1) (a + 1) (i + 1) (j + 1) - g_t2a_t3b_h1b_ov (one2 H1B_ov) q (a + 1) (b + 1) (j + 1) (i + 1) + g_t2a_t3b_h1b_ov (one2 H1B_ov) q (b + 1) (a + 1) (j + 1) (i + 1))
      = t2a_t3b_h1b_ov H1B_ov d (TripleList.ofTwoOne src) a b i j - t2a_t3b_h1b_ov H1B_ov d (TripleList.ofTwoOne src) b a i j - t2a_t3b_h1b_ov H1B_ov d (TripleList.ofTwoOne src) a b j i + t2a_t3b_h1b_ov H1B_ov d (TripleList.ofTwoOne src) b a j i := by
  refine over_twoOne fits (t2a_t3b_h1b_ov_linear H1B_ov d a b i j) ?_
  intro A B C L M N hAB hB hC hLM hM hN
  have hA := hAB.trans hB; have hL := hLM.trans hM
  simp only [t2a_t3b_h1b_ov]
  simp only [sum_sum_both]
  simp only [sum_mul_delta hC]
  simp only [sum_mul_delta hN]
  simp only [g_t2a_t3b_h1b_ov, column, List.getD_cons_zero, List.getD_cons_succ, Nat.reduceSub, delta_succ, one2, Nat.add_sub_cancel, alternating2]
  ring

/-- The statements of one diagram. -/
def g_t2a_t3b_h2b_ooov (H2B_ooov : Arr4) (q : List ℕ) (x y z w : ℕ) : ℚ :=
  let a := column q 1; let b := column q 2; let f := column q 3; let m := column q 4; let j := column q 5; let n := column q 6
  same1 x a * (same1 y b * (same1 w j * (-H2B_ooov m n z f))) + same1 x a * (same1 y b * (same1 w m * (H2B_ooov j n z f)))

/-- The contraction that the statements stand for. -/
def t2a_t3b_h2b_ooov (H2B_ooov : Arr4) (d : Dims) (t : Tens) (a b i j : ℕ) : ℚ :=
  -(1 / 2) * ∑ m ∈ range d.oa, ∑ n ∈ range d.ob, ∑ f ∈ range d.ub, H2B_ooov m n i f * t a b f m j n

theorem t2a_t3b_h2b_ooov_linear (H2B_ooov : Arr4) (d : Dims) (a b i j : ℕ) : IsLinear fun t => t2a_t3b_h2b_ooov H2B_ooov d t a b i j - t2a_t3b_h2b_ooov H2B_ooov d t b a i j - t2a_t3b_h2b_ooov H2B_ooov d t a b j i + t2a_t3b_h2b_ooov H2B_ooov d t b a j i := by
  linear [t2a_t3b_h2b_ooov]

theorem t2a_t3b_h2b_ooov_over (H2B_ooov : Arr4) (d : Dims) {src : List (List ℕ × ℚ)} (fits : Fits src (ListedAAB d.ua d.ub d.oa d.ob)) (a b i j : ℕ) :
    over src (fun q => g_t2a_t3b_h2b_ooov (one4 H2B_ooov) q (a + 1) (b + 1) (i + 1) (j + 1) - g_t2a_t3b_h2b_ooov (one4 H2B_ooov) q (b + 1) (a + 1) (i + 1) (j + 1) - g_t2a_t3b_h2b_ooov (one4 H2B_ooov) q (a + 1) (b + 1) (j + 1) (i + 1) + g_t2a_t3b_h2b_ooov (one4 H2B_ooov) q (b + 1) (a + 1) (j + 1) (i + 1))
      = t2a_t3b_h2b_ooov H2B_ooov d (TripleList.ofTwoOne src) a b i j - t2a_t3b_h2b_ooov H2B_ooov d (TripleList.ofTwoOne src) b a i j - t2a_t3b_h2b_ooov H2B_ooov d (TripleList.ofTwoOne src) a b j i + t2a_t3b_h2b_ooov H2B_ooov d (TripleList.ofTwoOne src) b a j i := by
  refine over_twoOne fits (t2a_t3b_h2b_ooov_linear H2B_ooov d a b i j) ?_
  intro A B C L M N hAB hB hC hLM hM hN
  have hA := hAB.trans hB; have hL := hLM.trans hM
  simp only [t2a_t3b_h2b_ooov]
  simp only [sum3_left]
  simp only [sum_mul_delta hC]
  simp only [sum_pair_yz_first hL hM hN]
  simp only [g_t2a_t3b_h2b_ooov, column, List.getD_cons_zero, List.getD_cons_succ, Nat.reduceSub, delta_succ, one4, Nat.add_sub_cancel, alternating2]
  ring

/-- The statements of one diagram. -/
def g_t2a_t3b_h2b_vovv (H2B_vovv : Arr4) (q : List ℕ) (x y z w : ℕ) : ℚ :=
  let e := column q 1; let b := column q 2; let f := column q 3; let i := column q 4; let j := column q 5; let n := column q 6
  same1 y b * (same1 z i * (same1 w j * (H2B_vovv x n e f))) + same1 y e * (same1 z i * (same1 w j * (-H2B_vovv x n b f)))

/-- The contraction that the statements stand for. -/
def t2a_t3b_h2b_vovv (H2B_vovv : Arr4) (d : Dims) (t : Tens) (a b i j : ℕ) : ℚ :=
  1 / 2 * ∑ n ∈ range d.ob, ∑ e ∈ range d.ua, ∑ f ∈ range d.ub, H2B_vovv a n e f * t e b f i j n

theorem t2a_t3b_h2b_vovv_linear (H2B_vovv : Arr4) (d : Dims) (a b i j : ℕ) : IsLinear fun t => t2a_t3b_h2b_vovv H2B_vovv d t a b i j - t2a_t3b_h2b_vovv H2B_vovv d t b a i j - t2a_t3b_h2b_vovv H2B_vovv d t a b j i + t2a_t3b_h2b_vovv H2B_vovv d t b a j i := by
  linear [t2a_t3b_h2b_vovv]

theorem t2a_t3b_h2b_vovv_over (H2B_vovv : Arr4) (d : Dims) {src : List (List ℕ × ℚ)} (fits : Fits src (ListedAAB d.ua d.ub d.oa d.ob)) (a b i j : ℕ) :
    over src (fun q => g_t2a_t3b_h2b_vovv (one4 H2B_vovv) q (a + 1) (b + 1) (i + 1) (j + 1) - g_t2a_t3b_h2b_vovv (one4 H2B_vovv) q (b + 1) (a + 1) (i + 1) (j + 1) - g_t2a_t3b_h2b_vovv (one4 H2B_vovv) q (a + 1) (b + 1) (j + 1) (i + 1) + g_t2a_t3b_h2b_vovv (one4 H2B_vovv) q (b + 1) (a + 1) (j + 1) (i + 1))
      = t2a_t3b_h2b_vovv H2B_vovv d (TripleList.ofTwoOne src) a b i j - t2a_t3b_h2b_vovv H2B_vovv d (TripleList.ofTwoOne src) b a i j - t2a_t3b_h2b_vovv H2B_vovv d (TripleList.ofTwoOne src) a b j i + t2a_t3b_h2b_vovv H2B_vovv d (TripleList.ofTwoOne src) b a j i := by
  refine over_twoOne fits (t2a_t3b_h2b_vovv_linear H2B_vovv d a b i j) ?_
  intro A B C L M N hAB hB hC hLM hM hN
  have hA := hAB.trans hB; have hL := hLM.trans hM
  simp only [t2a_t3b_h2b_vovv]
  simp only [sum3_right]
  simp only [sum_pair_yz_first hA hB hC]
  simp only [sum_mul_delta hN]
  simp only [g_t2a_t3b_h2b_vovv, column, List.getD_cons_zero, List.getD_cons_succ, Nat.reduceSub, delta_succ, one4, Nat.add_sub_cancel, alternating2]
  ring

/-- What the loops over the lists add to the residual, after the exchange. -/
theorem listsT2a_eq {H1A_ov : Arr2} {H1B_ov : Arr2} {H2A_ooov : Arr4} {H2A_vovv : Arr4} {H2B_ooov : Arr4} {H2B_vovv : Arr4} (d : Dims) (o_h2a_ooov : ∀ p q r s, H2A_ooov q p r s = -H2A_ooov p q r s) (v_h2a_vovv : ∀ p q r s, H2A_vovv p q s r = -H2A_vovv p q r s) {t3a t3b : Buffer} (t3a_fits : Fits (t3a.excits.zip t3a.amps) (ListedAAA d.ua d.oa)) (t3b_fits : Fits (t3b.excits.zip t3b.amps) (ListedAAB d.ua d.ub d.oa d.ob))
    (r : Arr4) (a b i j : ℕ) :
    listsT2a (one2 H1A_ov) (one2 H1B_ov) (one4 H2A_ooov) (one4 H2A_vovv) (one4 H2B_ooov) (one4 H2B_vovv) t3a t3b r (a + 1) (b + 1) (i + 1) (j + 1) - listsT2a (one2 H1A_ov) (one2 H1B_ov) (one4 H2A_ooov) (one4 H2A_vovv) (one4 H2B_ooov) (one4 H2B_vovv) t3a t3b r (b + 1) (a + 1) (i + 1) (j + 1) - listsT2a (one2 H1A_ov) (one2 H1B_ov) (one4 H2A_ooov) (one4 H2A_vovv) (one4 H2B_ooov) (one4 H2B_vovv) t3a t3b r (a + 1) (b + 1) (j + 1) (i + 1) + listsT2a (one2 H1A_ov) (one2 H1B_ov) (one4 H2A_ooov) (one4 H2A_vovv) (one4 H2B_ooov) (one4 H2B_vovv) t3a t3b r (b + 1) (a + 1) (j + 1) (i + 1)
      = (r (a + 1) (b + 1) (i + 1) (j + 1) - r (b + 1) (a + 1) (i + 1) (j + 1) - r (a + 1) (b + 1) (j + 1) (i + 1) + r (b + 1) (a + 1) (j + 1) (i + 1))
      + (t2a_t3a_h1a_ov H1A_ov d (TripleList.ofThree (t3a.excits.zip t3a.amps)) a b i j - t2a_t3a_h1a_ov H1A_ov d (TripleList.ofThree (t3a.excits.zip t3a.amps)) b a i j - t2a_t3a_h1a_ov H1A_ov d (TripleList.ofThree (t3a.excits.zip t3a.amps)) a b j i + t2a_t3a_h1a_ov H1A_ov d (TripleList.ofThree (t3a.excits.zip t3a.amps)) b a j i)
      + (t2a_t3a_h2a_ooov H2A_ooov d (TripleList.ofThree (t3a.excits.zip t3a.amps)) a b i j - t2a_t3a_h2a_ooov H2A_ooov d (TripleList.ofThree (t3a.excits.zip t3a.amps)) b a i j - t2a_t3a_h2a_ooov H2A_ooov d (TripleList.ofThree (t3a.excits.zip t3a.amps)) a b j i + t2a_t3a_h2a_ooov H2A_ooov d (TripleList.ofThree (t3a.excits.zip t3a.amps)) b a j i)
      + (t2a_t3a_h2a_vovv H2A_vovv d (TripleList.ofThree (t3a.excits.zip t3a.amps)) a b i j - t2a_t3a_h2a_vovv H2A_vovv d (TripleList.ofThree (t3a.excits.zip t3a.amps)) b a i j - t2a_t3a_h2a_vovv H2A_vovv d (TripleList.ofThree (t3a.excits.zip t3a.amps)) a b j i + t2a_t3a_h2a_vovv H2A_vovv d (TripleList.ofThree (t3a.excits.zip t3a.amps)) b a j i)
      + (t2a_t3b_h1b_ov H1B_ov d (TripleList.ofTwoOne (t3b.excits.zip t3b.amps)) a b i j - t2a_t3b_h1b_ov H1B_ov d (TripleList.ofTwoOne (t3b.excits.zip t3b.amps)) b a i j - t2a_t3b_h1b_ov H1B_ov d (TripleList.ofTwoOne (t3b.excits.zip t3b.amps)) a b j i + t2a_t3b_h1b_ov H1B_ov d (TripleList.ofTwoOne (t3b.excits.zip t3b.amps)) b a j i)
      + (t2a_t3b_h2b_ooov H2B_ooov d (TripleList.ofTwoOne (t3b.excits.zip t3b.amps)) a b i j - t2a_t3b_h2b_ooov H2B_ooov d (TripleList.ofTwoOne (t3b.excits.zip t3b.amps)) b a i j - t2a_t3b_h2b_ooov H2B_ooov d (TripleList.ofTwoOne (t3b.excits.zip t3b.amps)) a b j i + t2a_t3b_h2b_ooov H2B_ooov d (TripleList.ofTwoOne (t3b.excits.zip t3b.amps)) b a j i)
      + (t2a_t3b_h2b_vovv H2B_vovv d (TripleList.ofTwoOne (t3b.excits.zip t3b.amps)) a b i j - t2a_t3b_h2b_vovv H2B_vovv d (TripleList.ofTwoOne (t3b.excits.zip t3b.amps)) b a i j - t2a_t3b_h2b_vovv H2B_vovv d (TripleList.ofTwoOne (t3b.excits.zip t3b.amps)) a b j i + t2a_t3b_h2b_vovv H2B_vovv d (TripleList.ofTwoOne (t3b.excits.zip t3b.amps)) b a j i) := by
  have e : ∀ x y z w, listsT2a (one2 H1A_ov) (one2 H1B_ov) (one4 H2A_ooov) (one4 H2A_vovv) (one4 H2B_ooov) (one4 H2B_vovv) t3a t3b r x y z w = r x y z w + over (t3a.excits.zip t3a.amps) (fun q => g_t2a_t3a_h1a_ov (one2 H1A_ov) q x y z w + g_t2a_t3a_h2a_ooov (one4 H2A_ooov) q x y z w + g_t2a_t3a_h2a_vovv (one4 H2A_vovv) q x y z w) + over (t3b.excits.zip t3b.amps) (fun q => g_t2a_t3b_h1b_ov (one2 H1B_ov) q x y z w + g_t2a_t3b_h2b_ooov (one4 H2B_ooov) q x y z w + g_t2a_t3b_h2b_vovv (one4 H2B_vovv) q x y z w) := by
    intro x y z w
    unfold listsT2a
    dsimp only
    rw [foldl_add (fun q x y z w => g_t2a_t3b_h1b_ov (one2 H1B_ov) q x y z w + g_t2a_t3b_h2b_ooov (one4 H2B_ooov) q x y z w + g_t2a_t3b_h2b_vovv (one4 H2B_vovv) q x y z w), foldl_add (fun q x y z w => g_t2a_t3a_h1a_ov (one2 H1A_ov) q x y z w + g_t2a_t3a_h2a_ooov (one4 H2A_ooov) q x y z w + g_t2a_t3a_h2a_vovv (one4 H2A_vovv) q x y z w)]
    all_goals (intro I x' x y z w; simp only [addElement4_eq, addSlice_eq, addSlice2_eq, addSlice3_eq, addSlice4_eq, g_t2a_t3a_h1a_ov, g_t2a_t3a_h2a_ooov, g_t2a_t3a_h2a_vovv, g_t2a_t3b_h1b_ov, g_t2a_t3b_h2b_ooov, g_t2a_t3b_h2b_vovv]; ring)
  have k0 := t2a_t3a_h1a_ov_over H1A_ov d t3a_fits a b i j
  have k1 := t2a_t3a_h2a_ooov_over H2A_ooov d o_h2a_ooov t3a_fits a b i j
  have k2 := t2a_t3a_h2a_vovv_over H2A_vovv d v_h2a_vovv t3a_fits a b i j
  have k3 := t2a_t3b_h1b_ov_over H1B_ov d t3b_fits a b i j
  have k4 := t2a_t3b_h2b_ooov_over H2B_ooov d t3b_fits a b i j
  have k5 := t2a_t3b_h2b_vovv_over H2B_vovv d t3b_fits a b i j
  simp only [e, over_add, over_sub] at k0 k1 k2 k3 k4 k5 ⊢
  linarith

end Ccpy.PSpace
