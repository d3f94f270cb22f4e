import Verif.Lemmas.PSpaceLinear
import Verif.Lemmas.PSpacePlaces
import Verif.Model.PSpaceSingles

/-! What the loops over the lists of triple excitations add to the residuals of the single excitations. -/

set_option linter.unusedSimpArgs false
set_option linter.unusedVariables false

namespace Ccpy.PSpace
open Ccpy.Fock
open Finset (range)

/-- The statements of one diagram. -/
def g_t1a_t3a_h2a_oovv (H2A_oovv : Arr4) (q : List ℕ) (x y : ℕ) : ℚ :=
  let a := column q 1; let e := column q 2; let f := column q 3; let i := column q 4; let m := column q 5; let n := column q 6
  same1 x a * (same1 y i * (H2A_oovv m n e f)) + same1 x e * (same1 y i * (-H2A_oovv m n a f)) + same1 x f * (same1 y i * (-H2A_oovv m n e a)) + same1 x a * (same1 y m * (-H2A_oovv i n e f)) + same1 x e * (same1 y m * (H2A_oovv i n a f)) + same1 x f * (same1 y m * (H2A_oovv i n e a)) + same1 x a * (same1 y n * (-H2A_oovv m i e f)) + same1 x e * (same1 y n * (H2A_oovv m i a f)) + same1 x f * (same1 y n * (H2A_oovv m i e a))

/-- The contraction that the statements stand for. -/
def t1a_t3a_h2a_oovv (H2A_oovv : Arr4) (d : Dims) (t : Tens) (a i : ℕ) : ℚ :=
  1 / 4 * ∑ m ∈ range d.oa, ∑ n ∈ range d.oa, ∑ e ∈ range d.ua, ∑ f ∈ range d.ua, H2A_oovv m n e f * t a e f i m n

theorem t1a_t3a_h2a_oovv_linear (H2A_oovv : Arr4) (d : Dims) (a i : ℕ) : IsLinear fun t => t1a_t3a_h2a_oovv H2A_oovv d t a i := by
  linear [t1a_t3a_h2a_oovv]

theorem t1a_t3a_h2a_oovv_over (H2A_oovv : Arr4) (d : Dims) (o_h2a_oovv : ∀ p q r s, H2A_oovv q p r s = -H2A_oovv p q r s) (v_h2a_oovv : ∀ p q r s, H2A_oovv p q s r = -H2A_oovv p q r s) {src : List (List ℕ × ℚ)} (fits : Fits src (ListedAAA d.ua d.oa)) (a i : ℕ) :
    over src (fun q => g_t1a_t3a_h2a_oovv (one4 H2A_oovv) q (a + 1) (i + 1))
      = t1a_t3a_h2a_oovv H2A_oovv d (TripleList.ofThree src) a i := by
  refine over_three fits (t1a_t3a_h2a_oovv_linear H2A_oovv d a i) ?_
  intro A B C L M N hAB hBC hC hLM hMN hN
  have hB := hBC.trans hC; have hA := hAB.trans hB; have hM := hMN.trans hN; have hL := hLM.trans hM
  simp only [t1a_t3a_h2a_oovv]
  simp only [sum4_split]
  simp only [sum_sum_alternating3 hA hB hC]
  simp only [sum_sum_alternating3 hL hM hN]
  simp only [g_t1a_t3a_h2a_oovv, column, List.getD_cons_zero, List.getD_cons_succ, Nat.reduceSub, delta_succ, one4, Nat.add_sub_cancel, o_h2a_oovv L M, o_h2a_oovv L N, o_h2a_oovv M N, v_h2a_oovv _ _ A B, v_h2a_oovv _ _ A C, v_h2a_oovv _ _ B C, alternating2]
  ring

/-- The statements of one diagram. -/
def g_t1a_t3b_h2b_oovv (H2B_oovv : Arr4) (q : List ℕ) (x y : ℕ) : ℚ :=
  let a := column q 1; let e := column q 2; let f := column q 3; let i := column q 4; let m := column q 5; let n := column q 6
  same1 x a * (same1 y i * (H2B_oovv m n e f)) + same1 x e * (same1 y i * (-H2B_oovv m n a f)) + same1 x a * (same1 y m * (-H2B_oovv i n e f)) + same1 x e * (same1 y m * (H2B_oovv i n a f))

/-- The contraction that the statements stand for. -/
def t1a_t3b_h2b_oovv (H2B_oovv : Arr4) (d : Dims) (t : Tens) (a i : ℕ) : ℚ :=
  ∑ m ∈ range d.oa, ∑ n ∈ range d.ob, ∑ e ∈ range d.ua, ∑ f ∈ range d.ub, H2B_oovv m n e f * t a e f i m n

theorem t1a_t3b_h2b_oovv_linear (H2B_oovv : Arr4) (d : Dims) (a i : ℕ) : IsLinear fun t => t1a_t3b_h2b_oovv H2B_oovv d t a i := by
  linear [t1a_t3b_h2b_oovv]

theorem t1a_t3b_h2b_oovv_over (H2B_oovv : Arr4) (d : Dims) {src : List (List ℕ × ℚ)} (fits : Fits src (ListedAAB d.ua d.ub d.oa d.ob)) (a i : ℕ) :
    over src (fun q => g_t1a_t3b_h2b_oovv (one4 H2B_oovv) q (a + 1) (i + 1))
      = t1a_t3b_h2b_oovv H2B_oovv d (TripleList.ofTwoOne src) a i := by
  refine over_twoOne fits (t1a_t3b_h2b_oovv_linear H2B_oovv d a i) ?_
  intro A B C L M N hAB hB hC hLM hM hN
  have hA := hAB.trans hB; have hL := hLM.trans hM
  simp only [t1a_t3b_h2b_oovv]
  simp only [sum4_split]
  simp only [sum_pair_yz hA hB hC]
  simp only [sum_pair_yz hL hM hN]
  simp only [g_t1a_t3b_h2b_oovv, column, List.getD_cons_zero, List.getD_cons_succ, Nat.reduceSub, delta_succ, one4, Nat.add_sub_cancel, alternating2]
  ring

/-- The statements of one diagram. -/
def g_t1a_t3c_h2c_oovv (H2C_oovv : Arr4) (q : List ℕ) (x y : ℕ) : ℚ :=
  let a := column q 1; let e := column q 2; let f := column q 3; let i := column q 4; let m := column q 5; let n := column q 6
  same1 x a * (same1 y i * (H2C_oovv m n e f))

/-- The contraction that the statements stand for. -/
def t1a_t3c_h2c_oovv (H2C_oovv : Arr4) (d : Dims) (t : Tens) (a i : ℕ) : ℚ :=
  1 / 4 * ∑ m ∈ range d.ob, ∑ n ∈ range d.ob, ∑ e ∈ range d.ub, ∑ f ∈ range d.ub, H2C_oovv m n e f * t a e f i m n

theorem t1a_t3c_h2c_oovv_linear (H2C_oovv : Arr4) (d : Dims) (a i : ℕ) : IsLinear fun t => t1a_t3c_h2c_oovv H2C_oovv d t a i := by
  linear [t1a_t3c_h2c_oovv]

theorem t1a_t3c_h2c_oovv_over (H2C_oovv : Arr4) (d : Dims) (o_h2c_oovv : ∀ p q r s, H2C_oovv q p r s = -H2C_oovv p q r s) (v_h2c_oovv : ∀ p q r s, H2C_oovv p q s r = -H2C_oovv p q r s) {src : List (List ℕ × ℚ)} (fits : Fits src (ListedABB d.ua d.ub d.oa d.ob)) (a i : ℕ) :
    over src (fun q => g_t1a_t3c_h2c_oovv (one4 H2C_oovv) q (a + 1) (i + 1))
      = t1a_t3c_h2c_oovv H2C_oovv d (TripleList.ofOneTwo src) a i := by
  refine over_oneTwo fits (t1a_t3c_h2c_oovv_linear H2C_oovv d a i) ?_
  intro A B C L M N hA hBC hC hL hMN hN
  have hB := hBC.trans hC; have hM := hMN.trans hN
  simp only [t1a_t3c_h2c_oovv]
  simp only [sum4_split]
  simp only [sum_pair_right hB hC]
  simp only [sum_pair_right hM hN]
  simp only [g_t1a_t3c_h2c_oovv, column, List.getD_cons_zero, List.getD_cons_succ, Nat.reduceSub, delta_succ, one4, Nat.add_sub_cancel, o_h2c_oovv L M, o_h2c_oovv L N, o_h2c_oovv M N, v_h2c_oovv _ _ A B, v_h2c_oovv _ _ A C, v_h2c_oovv _ _ B C, alternating2]
  ring

/-- What the loops over the lists add to the residual. -/
theorem listsT1a_eq {H2A_oovv : Arr4} {H2B_oovv : Arr4} {H2C_oovv : Arr4} (d : Dims) (o_h2a_oovv : ∀ p q r s, H2A_oovv q p r s = -H2A_oovv p q r s) (v_h2a_oovv : ∀ p q r s, H2A_oovv p q s r = -H2A_oovv p q r s) (o_h2c_oovv : ∀ p q r s, H2C_oovv q p r s = -H2C_oovv p q r s) (v_h2c_oovv : ∀ p q r s, H2C_oovv p q s r = -H2C_oovv p q r s) {t3a t3b t3c : Buffer} (t3a_fits : Fits (t3a.excits.zip t3a.amps) (ListedAAA d.ua d.oa)) (t3b_fits : Fits (t3b.excits.zip t3b.amps) (ListedAAB d.ua d.ub d.oa d.ob)) (t3c_fits : Fits (t3c.excits.zip t3c.amps) (ListedABB d.ua d.ub d.oa d.ob))
    (r : Arr2) (a i : ℕ) :
    listsT1a (one4 H2A_oovv) (one4 H2B_oovv) (one4 H2C_oovv) t3a t3b t3c r (a + 1) (i + 1)
      = r (a + 1) (i + 1)
      + (t1a_t3a_h2a_oovv H2A_oovv d (TripleList.ofThree (t3a.excits.zip t3a.amps)) a i)
      + (t1a_t3b_h2b_oovv H2B_oovv d (TripleList.ofTwoOne (t3b.excits.zip t3b.amps)) a i)
      + (t1a_t3c_h2c_oovv H2C_oovv d (TripleList.ofOneTwo (t3c.excits.zip t3c.amps)) a i) := by
  have e : ∀ x y, listsT1a (one4 H2A_oovv) (one4 H2B_oovv) (one4 H2C_oovv) t3a t3b t3c r x y = r x y + over (t3a.excits.zip t3a.amps) (fun q => g_t1a_t3a_h2a_oovv (one4 H2A_oovv) q x y) + over (t3b.excits.zip t3b.amps) (fun q => g_t1a_t3b_h2b_oovv (one4 H2B_oovv) q x y) + over (t3c.excits.zip t3c.amps) (fun q => g_t1a_t3c_h2c_oovv (one4 H2C_oovv) q x y) := by
    intro x y
    unfold listsT1a
    dsimp only
    rw [foldl_add2 (fun q x y => g_t1a_t3c_h2c_oovv (one4 H2C_oovv) q x y), foldl_add2 (fun q x y => g_t1a_t3b_h2b_oovv (one4 H2B_oovv) q x y), foldl_add2 (fun q x y => g_t1a_t3a_h2a_oovv (one4 H2A_oovv) q x y)]
    all_goals (intro I x' x y; simp only [addElement2_eq, g_t1a_t3a_h2a_oovv, g_t1a_t3b_h2b_oovv, g_t1a_t3c_h2c_oovv]; ring)
  have k0 := t1a_t3a_h2a_oovv_over H2A_oovv d o_h2a_oovv v_h2a_oovv t3a_fits a i
  have k1 := t1a_t3b_h2b_oovv_over H2B_oovv d t3b_fits a i
  have k2 := t1a_t3c_h2c_oovv_over H2C_oovv d o_h2c_oovv v_h2c_oovv t3c_fits a i
  simp only [e, over_add, over_sub] at k0 k1 k2 ⊢
  linarith

/-- The statements of one diagram. -/
def g_t1b_t3b_h2a_oovv (H2A_oovv : Arr4) (q : List ℕ) (x y : ℕ) : ℚ :=
  let e := column q 1; let f := column q 2; let a := column q 3; let m := column q 4; let n := column q 5; let i := column q 6
  same1 x a * (same1 y i * (H2A_oovv m n e f))

/-- The contraction that the statements stand for. -/
def t1b_t3b_h2a_oovv (H2A_oovv : Arr4) (d : Dims) (t : Tens) (a i : ℕ) : ℚ :=
  1 / 4 * ∑ m ∈ range d.oa, ∑ n ∈ range d.oa, ∑ e ∈ range d.ua, ∑ f ∈ range d.ua, H2A_oovv m n e f * t e f a m n i

theorem t1b_t3b_h2a_oovv_linear (H2A_oovv : Arr4) (d : Dims) (a i : ℕ) : IsLinear fun t => t1b_t3b_h2a_oovv H2A_oovv d t a i := by
  linear [t1b_t3b_h2a_oovv]

theorem t1b_t3b_h2a_oovv_over (H2A_oovv : Arr4) (d : Dims) (o_h2a_oovv : ∀ p q r s, H2A_oovv q p r s = -H2A_oovv p q r s) (v_h2a_oovv : ∀ p q r s, H2A_oovv p q s r = -H2A_oovv p q r s) {src : List (List ℕ × ℚ)} (fits : Fits src (ListedAAB d.ua d.ub d.oa d.ob)) (a i : ℕ) :
    over src (fun q => g_t1b_t3b_h2a_oovv (one4 H2A_oovv) q (a + 1) (i + 1))
      = t1b_t3b_h2a_oovv H2A_oovv d (TripleList.ofTwoOne src) a i := by
  refine over_twoOne fits (t1b_t3b_h2a_oovv_linear H2A_oovv d a i) ?_
  intro A B C L M N hAB hB hC hLM hM hN
  have hA := hAB.trans hB; have hL := hLM.trans hM
  simp only [t1b_t3b_h2a_oovv]
  simp only [sum4_split]
  simp only [sum_pair_left hA hB]
  simp only [sum_pair_left hL hM]
  simp only [g_t1b_t3b_h2a_oovv, column, List.getD_cons_zero, List.getD_cons_succ, Nat.reduceSub, delta_succ, one4, Nat.add_sub_cancel, o_h2a_oovv L M, o_h2a_oovv L N, o_h2a_oovv M N, v_h2a_oovv _ _ A B, v_h2a_oovv _ _ A C, v_h2a_oovv _ _ B C, alternating2]
  ring

/-- The statements of one diagram. -/
def g_t1b_t3c_h2b_oovv (H2B_oovv : Arr4) (q : List ℕ) (x y : ℕ) : ℚ :=
  let e := column q 1; let f := column q 2; let a := column q 3; let m := column q 4; let n := column q 5; let i := column q 6
  same1 x a * (same1 y i * (H2B_oovv m n e f)) + same1 x f * (same1 y i * (-H2B_oovv m n e a)) + same1 x a * (same1 y n * (-H2B_oovv m i e f)) + same1 x f * (same1 y n * (H2B_oovv m i e a))

/-- The contraction that the statements stand for. -/
def t1b_t3c_h2b_oovv (H2B_oovv : Arr4) (d : Dims) (t : Tens) (a i : ℕ) : ℚ :=
  ∑ m ∈ range d.oa, ∑ n ∈ range d.ob, ∑ e ∈ range d.ua, ∑ f ∈ range d.ub, H2B_oovv m n e f * t e f a m n i

theorem t1b_t3c_h2b_oovv_linear (H2B_oovv : Arr4) (d : Dims) (a i : ℕ) : IsLinear fun t => t1b_t3c_h2b_oovv H2B_oovv d t a i := by
  linear [t1b_t3c_h2b_oovv]

theorem t1b_t3c_h2b_oovv_over (H2B_oovv : Arr4) (d : Dims) {src : List (List ℕ × ℚ)} (fits : Fits src (ListedABB d.ua d.ub d.oa d.ob)) (a i : ℕ) :
    over src (fun q => g_t1b_t3c_h2b_oovv (one4 H2B_oovv) q (a + 1) (i + 1))
      = t1b_t3c_h2b_oovv H2B_oovv d (TripleList.ofOneTwo src) a i := by
  refine over_oneTwo fits (t1b_t3c_h2b_oovv_linear H2B_oovv d a i) ?_
  intro A B C L M N hA hBC hC hL hMN hN
  have hB := hBC.trans hC; have hM := hMN.trans hN
  simp only [t1b_t3c_h2b_oovv]
  simp only [sum4_split]
  simp only [sum_pair_zy_first hB hC hA]
  simp only [sum_pair_zy_first hM hN hL]
  simp only [g_t1b_t3c_h2b_oovv, column, List.getD_cons_zero, List.getD_cons_succ, Nat.reduceSub, delta_succ, one4, Nat.add_sub_cancel, alternating2]
  ring

/-- The statements of one diagram. -/
def g_t1b_t3d_h2c_oovv (H2C_oovv : Arr4) (q : List ℕ) (x y : ℕ) : ℚ :=
  let a := column q 1; let e := column q 2; let f := column q 3; let i := column q 4; let m := column q 5; let n := column q 6
  same1 x a * (same1 y i * (H2C_oovv m n e f)) + same1 x e * (same1 y i * (-H2C_oovv m n a f)) + same1 x f * (same1 y i * (-H2C_oovv m n e a)) + same1 x a * (same1 y m * (-H2C_oovv i n e f)) + same1 x e * (same1 y m * (H2C_oovv i n a f)) + same1 x f * (same1 y m * (H2C_oovv i n e a)) + same1 x a * (same1 y n * (-H2C_oovv m i e f)) + same1 x e * (same1 y n * (H2C_oovv m i a f)) + same1 x f * (same1 y n * (H2C_oovv m i e a))

/-- The contraction that the statements stand for. -/
def t1b_t3d_h2c_oovv (H2C_oovv : Arr4) (d : Dims) (t : Tens) (a i : ℕ) : ℚ :=
  1 / 4 * ∑ m ∈ range d.ob, ∑ n ∈ range d.ob, ∑ e ∈ range d.ub, ∑ f ∈ range d.ub, H2C_oovv m n e f * t a e f i m n

theorem t1b_t3d_h2c_oovv_linear (H2C_oovv : Arr4) (d : Dims) (a i : ℕ) : IsLinear fun t => t1b_t3d_h2c_oovv H2C_oovv d t a i := by
  linear [t1b_t3d_h2c_oovv]

theorem t1b_t3d_h2c_oovv_over (H2C_oovv : Arr4) (d : Dims) (o_h2c_oovv : ∀ p q r s, H2C_oovv q p r s = -H2C_oovv p q r s) (v_h2c_oovv : ∀ p q r s, H2C_oovv p q s r = -H2C_oovv p q r s) {src : List (List ℕ × ℚ)} (fits : Fits src (ListedAAA d.ub d.ob)) (a i : ℕ) :
    over src (fun q => g_t1b_t3d_h2c_oovv (one4 H2C_oovv) q (a + 1) (i + 1))
      = t1b_t3d_h2c_oovv H2C_oovv d (TripleList.ofThree src) a i := by
  refine over_three fits (t1b_t3d_h2c_oovv_linear H2C_oovv d a i) ?_
  intro A B C L M N hAB hBC hC hLM hMN hN
  have hB := hBC.trans hC; have hA := hAB.trans hB; have hM := hMN.trans hN; have hL := hLM.trans hM
  simp only [t1b_t3d_h2c_oovv]
  simp only [sum4_split]
  simp only [sum_sum_alternating3 hA hB hC]
  simp only [sum_sum_alternating3 hL hM hN]
  simp only [g_t1b_t3d_h2c_oovv, column, List.getD_cons_zero, List.getD_cons_succ, Nat.reduceSub, delta_succ, one4, Nat.add_sub_cancel, o_h2c_oovv L M, o_h2c_oovv L N, o_h2c_oovv M N, v_h2c_oovv _ _ A B, v_h2c_oovv _ _ A C, v_h2c_oovv _ _ B C, alternating2]
  ring

/-- What the loops over the lists add to the residual. -/
theorem listsT1b_eq {H2A_oovv : Arr4} {H2B_oovv : Arr4} {H2C_oovv : Arr4} (d : Dims) (o_h2a_oovv : ∀ p q r s, H2A_oovv q p r s = -H2A_oovv p q r s) (v_h2a_oovv : ∀ p q r s, H2A_oovv p q s r = -H2A_oovv p q r s) (o_h2c_oovv : ∀ p q r s, H2C_oovv q p r s = -H2C_oovv p q r s) (v_h2c_oovv : ∀ p q r s, H2C_oovv p q s r = -H2C_oovv p q r s) {t3b t3c t3d : Buffer} (t3b_fits : Fits (t3b.excits.zip t3b.amps) (ListedAAB d.ua d.ub d.oa d.ob)) (t3c_fits : Fits (t3c.excits.zip t3c.amps) (ListedABB d.ua d.ub d.oa d.ob)) (t3d_fits : Fits (t3d.excits.zip t3d.amps) (ListedAAA d.ub d.ob))
    (r : Arr2) (a i : ℕ) :
    listsT1b (one4 H2A_oovv) (one4 H2B_oovv) (one4 H2C_oovv) t3b t3c t3d r (a + 1) (i + 1)
      = r (a + 1) (i + 1)
      + (t1b_t3b_h2a_oovv H2A_oovv d (TripleList.ofTwoOne (t3b.excits.zip t3b.amps)) a i)
      + (t1b_t3c_h2b_oovv H2B_oovv d (TripleList.ofOneTwo (t3c.excits.zip t3c.amps)) a i)
      + (t1b_t3d_h2c_oovv H2C_oovv d (TripleList.ofThree (t3d.excits.zip t3d.amps)) a i) := by
  have e : ∀ x y, listsT1b (one4 H2A_oovv) (one4 H2B_oovv) (one4 H2C_oovv) t3b t3c t3d r x y = r x y + over (t3b.excits.zip t3b.amps) (fun q => g_t1b_t3b_h2a_oovv (one4 H2A_oovv) q x y) + over (t3c.excits.zip t3c.amps) (fun q => g_t1b_t3c_h2b_oovv (one4 H2B_oovv) q x y) + over (t3d.excits.zip t3d.amps) (fun q => g_t1b_t3d_h2c_oovv (one4 H2C_oovv) q x y) := by
    intro x y
    unfold listsT1b
    dsimp only
    rw [foldl_add2 (fun q x y => g_t1b_t3d_h2c_oovv (one4 H2C_oovv) q x y), foldl_add2 (fun q x y => g_t1b_t3c_h2b_oovv (one4 H2B_oovv) q x y), foldl_add2 (fun q x y => g_t1b_t3b_h2a_oovv (one4 H2A_oovv) q x y)]
    all_goals (intro I x' x y; simp only [addElement2_eq, g_t1b_t3b_h2a_oovv, g_t1b_t3c_h2b_oovv, g_t1b_t3d_h2c_oovv]; ring)
  have k0 := t1b_t3b_h2a_oovv_over H2A_oovv d o_h2a_oovv v_h2a_oovv t3b_fits a i
  have k1 := t1b_t3c_h2b_oovv_over H2B_oovv d t3c_fits a i
  have k2 := t1b_t3d_h2c_oovv_over H2C_oovv d o_h2c_oovv v_h2c_oovv t3d_fits a i
  simp only [e, over_add, over_sub] at k0 k1 k2 ⊢
  linarith

end Ccpy.PSpace
