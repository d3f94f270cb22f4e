import Verif.Lemmas.PSpaceLinear
import Verif.Lemmas.PSpacePlaces
import Verif.Model.PSpaceDoubles

/-! What the loops over the lists of triple excitations add to the residuals of the double excitations. -/

set_option linter.unusedSimpArgs false
set_option linter.unusedVariables false

namespace Ccpy.PSpace
open Ccpy.Fock
open Finset (range)

/-- The statements of one diagram. -/
def g_t2c_t3c_h1a_ov (H1A_ov : Arr2) (q : List ℕ) (x y z w : ℕ) : ℚ :=
  let e := column q 1; let a := column q 2; let b := column q 3; let m := column q 4; let i := column q 5; let j := column q 6
  same1 x a * (same1 y b * (same1 z i * (same1 w j * (H1A_ov m e))))

/-- The contraction that the statements stand for. -/
def t2c_t3c_h1a_ov (H1A_ov : Arr2) (d : Dims) (t : Tens) (a b i j : ℕ) : ℚ :=
  1 / 4 * ∑ m ∈ range d.oa, ∑ e ∈ range d.ua, H1A_ov m e * t e a b m i j

theorem t2c_t3c_h1a_ov_linear (H1A_ov : Arr2) (d : Dims) (a b i j : ℕ) : IsLinear fun t => t2c_t3c_h1a_ov H1A_ov d t a b i j - t2c_t3c_h1a_ov H1A_ov d t b a i j - t2c_t3c_h1a_ov H1A_ov d t a b j i + t2c_t3c_h1a_ov H1A_ov d t b a j i := by
  linear [t2c_t3c_h1a_ov]

theorem t2c_t3c_h1a_ov_over (H1A_ov : Arr2) (d : Dims) {src : List (List ℕ × ℚ)} (fits : Fits src (ListedABB d.ua d.ub d.oa d.ob)) (a b i j : ℕ) :
    over src (fun q => g_t2c_t3c_h1a_ov (one2 H1A_ov) q (a + 1) (b + 1) (i + 1) (j + 1) - g_t2c_t3c_h1a_ov (one2 H1A_ov) q (b + 1) (a + 1) (i + 1) (j + 1) - g_t2c_t3c_h1a_ov (one2 H1A_ov) q (a + 1) (b + 1) (j + 1) (i + 1) + g_t2c_t3c_h1a_ov (one2 H1A_ov) q (b + 1) (a + 1) (j + 1) (i + 1))
      = t2c_t3c_h1a_ov H1A_ov d (TripleList.ofOneTwo src) a b i j - t2c_t3c_h1a_ov H1A_ov d (TripleList.ofOneTwo src) b a i j - t2c_t3c_h1a_ov H1A_ov d (TripleList.ofOneTwo src) a b j i + t2c_t3c_h1a_ov H1A_ov d (TripleList.ofOneTwo src) b a j i := by
  refine over_oneTwo fits (t2c_t3c_h1a_ov_linear H1A_ov d a b i j) ?_
  intro A B C L M N hA hBC hC hL hMN hN
  have hB := hBC.trans hC; have hM := hMN.trans hN
  simp only [t2c_t3c_h1a_ov]
  simp only [sum_sum_both]
  simp only [sum_delta_mul hA]
  simp only [sum_delta_mul hL]
  simp only [g_t2c_t3c_h1a_ov, column, List.getD_cons_zero, List.getD_cons_succ, Nat.reduceSub, delta_succ, one2, Nat.add_sub_cancel, alternating2]
  ring

/-- The statements of one diagram. -/
def g_t2c_t3c_h2b_ovvv (H2B_ovvv : Arr4) (q : List ℕ) (x y z w : ℕ) : ℚ :=
  let f := column q 1; let e := column q 2; let b := column q 3; let n := column q 4; let i := column q 5; let j := column q 6
  same1 y b * (same1 z i * (same1 w j * (H2B_ovvv n x f e))) + same1 y e * (same1 z i * (same1 w j * (-H2B_ovvv n x f b)))

/-- The contraction that the statements stand for. -/
def t2c_t3c_h2b_ovvv (H2B_ovvv : Arr4) (d : Dims) (t : Tens) (a b i j : ℕ) : ℚ :=
  1 / 2 * ∑ n ∈ range d.oa, ∑ f ∈ range d.ua, ∑ e ∈ range d.ub, H2B_ovvv n a f e * t f e b n i j

theorem t2c_t3c_h2b_ovvv_linear (H2B_ovvv : Arr4) (d : Dims) (a b i j : ℕ) : IsLinear fun t => t2c_t3c_h2b_ovvv H2B_ovvv d t a b i j - t2c_t3c_h2b_ovvv H2B_ovvv d t b a i j - t2c_t3c_h2b_ovvv H2B_ovvv d t a b j i + t2c_t3c_h2b_ovvv H2B_ovvv d t b a j i := by
  linear [t2c_t3c_h2b_ovvv]

theorem t2c_t3c_h2b_ovvv_over (H2B_ovvv : Arr4) (d : Dims) {src : List (List ℕ × ℚ)} (fits : Fits src (ListedABB d.ua d.ub d.oa d.ob)) (a b i j : ℕ) :
    over src (fun q => g_t2c_t3c_h2b_ovvv (one4 H2B_ovvv) q (a + 1) (b + 1) (i + 1) (j + 1) - g_t2c_t3c_h2b_ovvv (one4 H2B_ovvv) q (b + 1) (a + 1) (i + 1) (j + 1) - g_t2c_t3c_h2b_ovvv (one4 H2B_ovvv) q (a + 1) (b + 1) (j + 1) (i + 1) + g_t2c_t3c_h2b_ovvv (one4 H2B_ovvv) q (b + 1) (a + 1) (j + 1) (i + 1))
      = t2c_t3c_h2b_ovvv H2B_ovvv d (TripleList.ofOneTwo src) a b i j - t2c_t3c_h2b_ovvv H2B_ovvv d (TripleList.ofOneTwo src) b a i j - t2c_t3c_h2b_ovvv H2B_ovvv d (TripleList.ofOneTwo src) a b j i + t2c_t3c_h2b_ovvv H2B_ovvv d (TripleList.ofOneTwo src) b a j i := by
  refine over_oneTwo fits (t2c_t3c_h2b_ovvv_linear H2B_ovvv d a b i j) ?_
  intro A B C L M N hA hBC hC hL hMN hN
  have hB := hBC.trans hC; have hM := hMN.trans hN
  simp only [t2c_t3c_h2b_ovvv]
  simp only [sum3_right]
  simp only [sum_pair_zy_first hB hC hA]
  simp only [sum_delta_mul hL]
  simp only [g_t2c_t3c_h2b_ovvv, column, List.getD_cons_zero, List.getD_cons_succ, Nat.reduceSub, delta_succ, one4, Nat.add_sub_cancel, alternating2]
  ring

/-- The statements of one diagram. -/
def g_t2c_t3c_h2b_oovo (H2B_oovo : Arr4) (q : List ℕ) (x y z w : ℕ) : ℚ :=
  let f := column q 1; let a := column q 2; let b := column q 3; let n := column q 4; let m := column q 5; let j := column q 6
  same1 x a * (same1 y b * (same1 w j * (-H2B_oovo n m f z))) + same1 x a * (same1 y b * (same1 w m * (H2B_oovo n j f z)))

/-- The contraction that the statements stand for. -/
def t2c_t3c_h2b_oovo (H2B_oovo : Arr4) (d : Dims) (t : Tens) (a b i j : ℕ) : ℚ :=
  -(1 / 2) * ∑ n ∈ range d.oa, ∑ m ∈ range d.ob, ∑ f ∈ range d.ua, H2B_oovo n m f i * t f a b n m j

theorem t2c_t3c_h2b_oovo_linear (H2B_oovo : Arr4) (d : Dims) (a b i j : ℕ) : IsLinear fun t => t2c_t3c_h2b_oovo H2B_oovo d t a b i j - t2c_t3c_h2b_oovo H2B_oovo d t b a i j - t2c_t3c_h2b_oovo H2B_oovo d t a b j i + t2c_t3c_h2b_oovo H2B_oovo d t b a j i := by
  linear [t2c_t3c_h2b_oovo]

theorem t2c_t3c_h2b_oovo_over (H2B_oovo : Arr4) (d : Dims) {src : List (List ℕ × ℚ)} (fits : Fits src (ListedABB d.ua d.ub d.oa d.ob)) (a b i j : ℕ) :
    over src (fun q => g_t2c_t3c_h2b_oovo (one4 H2B_oovo) q (a + 1) (b + 1) (i + 1) (j + 1) - g_t2c_t3c_h2b_oovo (one4 H2B_oovo) q (b + 1) (a + 1) (i + 1) (j + 1) - g_t2c_t3c_h2b_oovo (one4 H2B_oovo) q (a + 1) (b + 1) (j + 1) (i + 1) + g_t2c_t3c_h2b_oovo (one4 H2B_oovo) q (b + 1) (a + 1) (j + 1) (i + 1))
      = t2c_t3c_h2b_oovo H2B_oovo d (TripleList.ofOneTwo src) a b i j - t2c_t3c_h2b_oovo H2B_oovo d (TripleList.ofOneTwo src) b a i j - t2c_t3c_h2b_oovo H2B_oovo d (TripleList.ofOneTwo src) a b j i + t2c_t3c_h2b_oovo H2B_oovo d (TripleList.ofOneTwo src) b a j i := by
  refine over_oneTwo fits (t2c_t3c_h2b_oovo_linear H2B_oovo d a b i j) ?_
  intro A B C L M N hA hBC hC hL hMN hN
  have hB := hBC.trans hC; have hM := hMN.trans hN
  simp only [t2c_t3c_h2b_oovo]
  simp only [sum3_left]
  simp only [sum_delta_mul hA]
  simp only [sum_pair_zy_first hM hN hL]
  simp only [g_t2c_t3c_h2b_oovo, column, List.getD_cons_zero, List.getD_cons_succ, Nat.reduceSub, delta_succ, one4, Nat.add_sub_cancel, alternating2]
  ring

/-- The statements of one diagram. -/
def g_t2c_t3d_h1b_ov (H1B_ov : Arr2) (q : List ℕ) (x y z w : ℕ) : ℚ :=
  let a := column q 1; let b := column q 2; let e := column q 3; let i := column q 4; let j := column q 5; let m := column q 6
  same1 x a * (same1 y b * (same1 z i * (same1 w j * (H1B_ov m e)))) + same1 x a * (same1 y b * (same1 z m * (same1 w j * (-H1B_ov i e)))) + same1 x a * (same1 y b * (same1 z i * (same1 w m * (-H1B_ov j e)))) + same1 x e * (same1 y b * (same1 z i * (same1 w j * (-H1B_ov m a)))) + same1 x e * (same1 y b * (same1 z m * (same1 w j * (H1B_ov i a)))) + same1 x e * (same1 y b * (same1 z i * (same1 w m * (H1B_ov j a)))) + same1 x a * (same1 y e * (same1 z i * (same1 w j * (-H1B_ov m b)))) + same1 x a * (same1 y e * (same1 z m * (same1 w j * (H1B_ov i b)))) + same1 x a * (same1 y e * (same1 z i * (same1 w m * (H1B_ov j b))))

/-- The contraction that the statements stand for. -/
def t2c_t3d_h1b_ov (H1B_ov : Arr2) (d : Dims) (t : Tens) (a b i j : ℕ) : ℚ :=
  1 / 4 * ∑ m ∈ range d.ob, ∑ e ∈ range d.ub, H1B_ov m e * t a b e i j m

theorem t2c_t3d_h1b_ov_linear (H1B_ov : Arr2) (d : Dims) (a b i j : ℕ) : IsLinear fun t => t2c_t3d_h1b_ov H1B_ov d t a b i j - t2c_t3d_h1b_ov H1B_ov d t b a i j - t2c_t3d_h1b_ov H1B_ov d t a b j i + t2c_t3d_h1b_ov H1B_ov d t b a j i := by
  linear [t2c_t3d_h1b_ov]

theorem t2c_t3d_h1b_ov_over (H1B_ov : Arr2) (d : Dims) {src : List (List ℕ × ℚ)} (fits : Fits src (ListedAAA d.ub d.ob)) (a b i j : ℕ) :
    over src (fun q => g_t2c_t3d_h1b_ov (one2 H1B_ov) q (a + 1) (b + 1) (i + 1) (j + 1) - g_t2c_t3d_h1b_ov (one2 H1B_ov) q (b + 1) (a + 1) (i + 1) (j + 1) - g_t2c_t3d_h1b_ov (one2 H1B_ov) q (a + 1) (b + 1) (j + 1) (i + 1) + g_t2c_t3d_h1b_ov (one2 H1B_ov) q (b + 1) (a + 1) (j + 1) (i + 1))
      = t2c_t3d_h1b_ov H1B_ov d (TripleList.ofThree src) a b i j - t2c_t3d_h1b_ov H1B_ov d (TripleList.ofThree src) b a i j - t2c_t3d_h1b_ov H1B_ov d (TripleList.ofThree src) a b j i + t2c_t3d_h1b_ov H1B_ov d (TripleList.ofThree src) b a j i := by
  refine over_three fits (t2c_t3d_h1b_ov_linear H1B_ov d a b i j) ?_
  intro A B C L M N hAB hBC hC hLM hMN hN
  have hB := hBC.trans hC; have hA := hAB.trans hB; have hM := hMN.trans hN; have hL := hLM.trans hM
  simp only [t2c_t3d_h1b_ov]
  simp only [sum_sum_both]
  simp only [sum_alternating3 hA hB hC]
  simp only [sum_alternating3 hL hM hN]
  simp only [g_t2c_t3d_h1b_ov, column, List.getD_cons_zero, List.getD_cons_succ, Nat.reduceSub, delta_succ, one2, Nat.add_sub_cancel, alternating2]
  ring

/-- The statements of one diagram. -/
def g_t2c_t3d_h2c_ooov (H2C_ooov : Arr4) (q : List ℕ) (x y z w : ℕ) : ℚ :=
  let a := column q 1; let b := column q 2; let f := column q 3; let m := column q 4; let j := column q 5; let n := column q 6
  same1 x a * (same1 y b * (same1 w j * (-H2C_ooov m n z f))) + same1 x a * (same1 y b * (same1 w m * (H2C_ooov j n z f))) + same1 x a * (same1 y b * (same1 w n * (H2C_ooov m j z f))) + same1 x f * (same1 y b * (same1 w j * (H2C_ooov m n z a))) + same1 x f * (same1 y b * (same1 w m * (-H2C_ooov j n z a))) + same1 x f * (same1 y b * (same1 w n * (-H2C_ooov m j z a))) + same1 x a * (same1 y f * (same1 w j * (H2C_ooov m n z b))) + same1 x a * (same1 y f * (same1 w m * (-H2C_ooov j n z b))) + same1 x a * (same1 y f * (same1 w n * (-H2C_ooov m j z b)))

/-- The contraction that the statements stand for. -/
def t2c_t3d_h2c_ooov (H2C_ooov : Arr4) (d : Dims) (t : Tens) (a b i j : ℕ) : ℚ :=
  -(1 / 4) * ∑ m ∈ range d.ob, ∑ n ∈ range d.ob, ∑ f ∈ range d.ub, H2C_ooov m n i f * t a b f m j n

theorem t2c_t3d_h2c_ooov_linear (H2C_ooov : Arr4) (d : Dims) (a b i j : ℕ) : IsLinear fun t => t2c_t3d_h2c_ooov H2C_ooov d t a b i j - t2c_t3d_h2c_ooov H2C_ooov d t b a i j - t2c_t3d_h2c_ooov H2C_ooov d t a b j i + t2c_t3d_h2c_ooov H2C_ooov d t b a j i := by
  linear [t2c_t3d_h2c_ooov]

theorem t2c_t3d_h2c_ooov_over (H2C_ooov : Arr4) (d : Dims) (o_h2c_ooov : ∀ p q r s, H2C_ooov q p r s = -H2C_ooov p q r s) {src : List (List ℕ × ℚ)} (fits : Fits src (ListedAAA d.ub d.ob)) (a b i j : ℕ) :
    over src (fun q => g_t2c_t3d_h2c_ooov (one4 H2C_ooov) q (a + 1) (b + 1) (i + 1) (j + 1) - g_t2c_t3d_h2c_ooov (one4 H2C_ooov) q (b + 1) (a + 1) (i + 1) (j + 1) - g_t2c_t3d_h2c_ooov (one4 H2C_ooov) q (a + 1) (b + 1) (j + 1) (i + 1) + g_t2c_t3d_h2c_ooov (one4 H2C_ooov) q (b + 1) (a + 1) (j + 1) (i + 1))
      = t2c_t3d_h2c_ooov H2C_ooov d (TripleList.ofThree src) a b i j - t2c_t3d_h2c_ooov H2C_ooov d (TripleList.ofThree src) b a i j - t2c_t3d_h2c_ooov H2C_ooov d (TripleList.ofThree src) a b j i + t2c_t3d_h2c_ooov H2C_ooov d (TripleList.ofThree src) b a j i := by
  refine over_three fits (t2c_t3d_h2c_ooov_linear H2C_ooov d a b i j) ?_
  intro A B C L M N hAB hBC hC hLM hMN hN
  have hB := hBC.trans hC; have hA := hAB.trans hB; have hM := hMN.trans hN; have hL := hLM.trans hM
  simp only [t2c_t3d_h2c_ooov]
  simp only [sum3_left]
  simp only [sum_alternating3 hA hB hC]
  simp only [sum_sum_alternating3_outer hL hM hN]
  simp only [g_t2c_t3d_h2c_ooov, column, List.getD_cons_zero, List.getD_cons_succ, Nat.reduceSub, delta_succ, one4, Nat.add_sub_cancel, o_h2c_ooov L M, o_h2c_ooov L N, o_h2c_ooov M N, alternating2]
  ring

/-- The statements of one diagram. -/
def g_t2c_t3d_h2c_vovv (H2C_vovv : Arr4) (q : List ℕ) (x y z w : ℕ) : ℚ :=
  let e := column q 1; let b := column q 2; let f := column q 3; let i := column q 4; let j := column q 5; let n := column q 6
  same1 y b * (same1 z i * (same1 w j * (H2C_vovv x n e f))) + same1 y b * (same1 z n * (same1 w j * (-H2C_vovv x i e f))) + same1 y b * (same1 z i * (same1 w n * (-H2C_vovv x j e f))) + same1 y e * (same1 z i * (same1 w j * (-H2C_vovv x n b f))) + same1 y e * (same1 z n * (same1 w j * (H2C_vovv x i b f))) + same1 y e * (same1 z i * (same1 w n * (H2C_vovv x j b f))) + same1 y f * (same1 z i * (same1 w j * (-H2C_vovv x n e b))) + same1 y f * (same1 z n * (same1 w j * (H2C_vovv x i e b))) + same1 y f * (same1 z i * (same1 w n * (H2C_vovv x j e b)))

/-- The contraction that the statements stand for. -/
def t2c_t3d_h2c_vovv (H2C_vovv : Arr4) (d : Dims) (t : Tens) (a b i j : ℕ) : ℚ :=
  1 / 4 * ∑ n ∈ range d.ob, ∑ e ∈ range d.ub, ∑ f ∈ range d.ub, H2C_vovv a n e f * t e b f i j n

theorem t2c_t3d_h2c_vovv_linear (H2C_vovv : Arr4) (d : Dims) (a b i j : ℕ) : IsLinear fun t => t2c_t3d_h2c_vovv H2C_vovv d t a b i j - t2c_t3d_h2c_vovv H2C_vovv d t b a i j - t2c_t3d_h2c_vovv H2C_vovv d t a b j i + t2c_t3d_h2c_vovv H2C_vovv d t b a j i := by
  linear [t2c_t3d_h2c_vovv]

theorem t2c_t3d_h2c_vovv_over (H2C_vovv : Arr4) (d : Dims) (v_h2c_vovv : ∀ p q r s, H2C_vovv p q s r = -H2C_vovv p q r s) {src : List (List ℕ × ℚ)} (fits : Fits src (ListedAAA d.ub d.ob)) (a b i j : ℕ) :
    over src (fun q => g_t2c_t3d_h2c_vovv (one4 H2C_vovv) q (a + 1) (b + 1) (i + 1) (j + 1) - g_t2c_t3d_h2c_vovv (one4 H2C_vovv) q (b + 1) (a + 1) (i + 1) (j + 1) - g_t2c_t3d_h2c_vovv (one4 H2C_vovv) q (a + 1) (b + 1) (j + 1) (i + 1) + g_t2c_t3d_h2c_vovv (one4 H2C_vovv) q (b + 1) (a + 1) (j + 1) (i + 1))
      = t2c_t3d_h2c_vovv H2C_vovv d (TripleList.ofThree src) a b i j - t2c_t3d_h2c_vovv H2C_vovv d (TripleList.ofThree src) b a i j - t2c_t3d_h2c_vovv H2C_vovv d (TripleList.ofThree src) a b j i + t2c_t3d_h2c_vovv H2C_vovv d (TripleList.ofThree src) b a j i := by
  refine over_three fits (t2c_t3d_h2c_vovv_linear H2C_vovv d a b i j) ?_
  intro A B C L M N hAB hBC hC hLM hMN hN
  have hB := hBC.trans hC; have hA := hAB.trans hB; have hM := hMN.trans hN; have hL := hLM.trans hM
  simp only [t2c_t3d_h2c_vovv]
  simp only [sum3_right]
  simp only [sum_sum_alternating3_outer hA hB hC]
  simp only [sum_alternating3 hL hM hN]
  simp only [g_t2c_t3d_h2c_vovv, column, List.getD_cons_zero, List.getD_cons_succ, Nat.reduceSub, delta_succ, one4, Nat.add_sub_cancel, v_h2c_vovv _ _ A B, v_h2c_vovv _ _ A C, v_h2c_vovv _ _ B C, alternating2]
  ring

/-- What the loops over the lists add to the residual, after the exchange. -/
theorem listsT2c_eq {H1A_ov : Arr2} {H1B_ov : Arr2} {H2B_oovo : Arr4} {H2B_ovvv : Arr4} {H2C_ooov : Arr4} {H2C_vovv : Arr4} (d : Dims) (o_h2c_ooov : ∀ p q r s, H2C_ooov q p r s = -H2C_ooov p q r s) (v_h2c_vovv : ∀ p q r s, H2C_vovv p q s r = -H2C_vovv p q r s) {t3c t3d : Buffer} (t3c_fits : Fits (t3c.excits.zip t3c.amps) (ListedABB d.ua d.ub d.oa d.ob)) (t3d_fits : Fits (t3d.excits.zip t3d.amps) (ListedAAA d.ub d.ob))
    (r : Arr4) (a b i j : ℕ) :
    listsT2c (one2 H1A_ov) (one2 H1B_ov) (one4 H2B_oovo) (one4 H2B_ovvv) (one4 H2C_ooov) (one4 H2C_vovv) t3c t3d r (a + 1) (b + 1) (i + 1) (j + 1) - listsT2c (one2 H1A_ov) (one2 H1B_ov) (one4 H2B_oovo) (one4 H2B_ovvv) (one4 H2C_ooov) (one4 H2C_vovv) t3c t3d r (b + 1) (a + 1) (i + 1) (j + 1) - listsT2c (one2 H1A_ov) (one2 H1B_ov) (one4 H2B_oovo) (one4 H2B_ovvv) (one4 H2C_ooov) (one4 H2C_vovv) t3c t3d r (a + 1) (b + 1) (j + 1) (i + 1) + listsT2c (one2 H1A_ov) (one2 H1B_ov) (one4 H2B_oovo) (one4 H2B_ovvv) (one4 H2C_ooov) (one4 H2C_vovv) t3c t3d r (b + 1) (a + 1) (j + 1) (i + 1)
      = (r (a + 1) (b + 1) (i + 1) (j + 1) - r (b + 1) (a + 1) (i + 1) (j + 1) - r (a + 1) (b + 1) (j + 1) (i + 1) + r (b + 1) (a + 1) (j + 1) (i + 1))
      + (t2c_t3c_h1a_ov H1A_ov d (TripleList.ofOneTwo (t3c.excits.zip t3c.amps)) a b i j - t2c_t3c_h1a_ov H1A_ov d (TripleList.ofOneTwo (t3c.excits.zip t3c.amps)) b a i j - t2c_t3c_h1a_ov H1A_ov d (TripleList.ofOneTwo (t3c.excits.zip t3c.amps)) a b j i + t2c_t3c_h1a_ov H1A_ov d (TripleList.ofOneTwo (t3c.excits.zip t3c.amps)) b a j i)
      + (t2c_t3c_h2b_ovvv H2B_ovvv d (TripleList.ofOneTwo (t3c.excits.zip t3c.amps)) a b i j - t2c_t3c_h2b_ovvv H2B_ovvv d (TripleList.ofOneTwo (t3c.excits.zip t3c.amps)) b a i j - t2c_t3c_h2b_ovvv H2B_ovvv d (TripleList.ofOneTwo (t3c.excits.zip t3c.amps)) a b j i + t2c_t3c_h2b_ovvv H2B_ovvv d (TripleList.ofOneTwo (t3c.excits.zip t3c.amps)) b a j i)
      + (t2c_t3c_h2b_oovo H2B_oovo d (TripleList.ofOneTwo (t3c.excits.zip t3c.amps)) a b i j - t2c_t3c_h2b_oovo H2B_oovo d (TripleList.ofOneTwo (t3c.excits.zip t3c.amps)) b a i j - t2c_t3c_h2b_oovo H2B_oovo d (TripleList.ofOneTwo (t3c.excits.zip t3c.amps)) a b j i + t2c_t3c_h2b_oovo H2B_oovo d (TripleList.ofOneTwo (t3c.excits.zip t3c.amps)) b a j i)
      + (t2c_t3d_h1b_ov H1B_ov d (TripleList.ofThree (t3d.excits.zip t3d.amps)) a b i j - t2c_t3d_h1b_ov H1B_ov d (TripleList.ofThree (t3d.excits.zip t3d.amps)) b a i j - t2c_t3d_h1b_ov H1B_ov d (TripleList.ofThree (t3d.excits.zip t3d.amps)) a b j i + t2c_t3d_h1b_ov H1B_ov d (TripleList.ofThree (t3d.excits.zip t3d.amps)) b a j i)
      + (t2c_t3d_h2c_ooov H2C_ooov d (TripleList.ofThree (t3d.excits.zip t3d.amps)) a b i j - t2c_t3d_h2c_ooov H2C_ooov d (TripleList.ofThree (t3d.excits.zip t3d.amps)) b a i j - t2c_t3d_h2c_ooov H2C_ooov d (TripleList.ofThree (t3d.excits.zip t3d.amps)) a b j i + t2c_t3d_h2c_ooov H2C_ooov d (TripleList.ofThree (t3d.excits.zip t3d.amps)) b a j i)
      + (t2c_t3d_h2c_vovv H2C_vovv d (TripleList.ofThree (t3d.excits.zip t3d.amps)) a b i j - t2c_t3d_h2c_vovv H2C_vovv d (TripleList.ofThree (t3d.excits.zip t3d.amps)) b a i j - t2c_t3d_h2c_vovv H2C_vovv d (TripleList.ofThree (t3d.excits.zip t3d.amps)) a b j i + t2c_t3d_h2c_vovv H2C_vovv d (TripleList.ofThree (t3d.excits.zip t3d.amps)) b a j i) := by
  have e : ∀ x y z w, listsT2c (one2 H1A_ov) (one2 H1B_ov) (one4 H2B_oovo) (one4 H2B_ovvv) (one4 H2C_ooov) (one4 H2C_vovv) t3c t3d r x y z w = r x y z w + over (t3c.excits.zip t3c.amps) (fun q => g_t2c_t3c_h1a_ov (one2 H1A_ov) q x y z w + g_t2c_t3c_h2b_ovvv (one4 H2B_ovvv) q x y z w + g_t2c_t3c_h2b_oovo (one4 H2B_oovo) q x y z w) + over (t3d.excits.zip t3d.amps) (fun q => g_t2c_t3d_h1b_ov (one2 H1B_ov) q x y z w + g_t2c_t3d_h2c_ooov (one4 H2C_ooov) q x y z w + g_t2c_t3d_h2c_vovv (one4 H2C_vovv) q x y z w) := by
    intro x y z w
    unfold listsT2c
    dsimp only
    rw [foldl_add (fun q x y z w => g_t2c_t3d_h1b_ov (one2 H1B_ov) q x y z w + g_t2c_t3d_h2c_ooov (one4 H2C_ooov) q x y z w + g_t2c_t3d_h2c_vovv (one4 H2C_vovv) q x y z w), foldl_add (fun q x y z w => g_t2c_t3c_h1a_ov (one2 H1A_ov) q x y z w + g_t2c_t3c_h2b_ovvv (one4 H2B_ovvv) q x y z w + g_t2c_t3c_h2b_oovo (one4 H2B_oovo) q x y z w)]
    all_goals (intro I x' x y z w; simp only [addElement4_eq, addSlice_eq, addSlice2_eq, addSlice3_eq, addSlice4_eq, g_t2c_t3c_h1a_ov, g_t2c_t3c_h2b_ovvv, g_t2c_t3c_h2b_oovo, g_t2c_t3d_h1b_ov, g_t2c_t3d_h2c_ooov, g_t2c_t3d_h2c_vovv]; ring)
  have k0 := t2c_t3c_h1a_ov_over H1A_ov d t3c_fits a b i j
  have k1 := t2c_t3c_h2b_ovvv_over H2B_ovvv d t3c_fits a b i j
  have k2 := t2c_t3c_h2b_oovo_over H2B_oovo d t3c_fits a b i j
  have k3 := t2c_t3d_h1b_ov_over H1B_ov d t3d_fits a b i j
  have k4 := t2c_t3d_h2c_ooov_over H2C_ooov d o_h2c_ooov t3d_fits a b i j
  have k5 := t2c_t3d_h2c_vovv_over H2C_vovv d v_h2c_vovv t3d_fits a b i j
  simp only [e, over_add, over_sub] at k0 k1 k2 k3 k4 k5 ⊢
  linarith

end Ccpy.PSpace
