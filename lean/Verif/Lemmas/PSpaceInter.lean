import Verif.Lemmas.PSpaceLinear
import Verif.Model.PSpaceInter

/-! The arrays `I2A_vooo`, ... of the P-space kernels are the dressed arrays plus the contractions with the triple excitations
of the lists. -/

set_option linter.unusedSimpArgs false
set_option linter.unusedVariables false

namespace Ccpy.PSpace
open Ccpy.Fock
open Finset (range)

def vooA_t3a (X : Dressed) (d : Dims) (t : Tens) (a m i j : ℕ) : ℚ :=
  1 / 2 * ∑ n ∈ range d.oa, ∑ e ∈ range d.ua, ∑ f ∈ range d.ua, X.aa_oovv m n e f * t a e f i j n

theorem vooA_t3a_linear (X : Dressed) (d : Dims) (a m i j : ℕ) : IsLinear fun t => vooA_t3a X d t a m i j := by
  linear [vooA_t3a]

def vooA_t3b (X : Dressed) (d : Dims) (t : Tens) (a m i j : ℕ) : ℚ :=
  ∑ n ∈ range d.ob, ∑ e ∈ range d.ua, ∑ f ∈ range d.ub, X.ab_oovv m n e f * t a e f i j n

theorem vooA_t3b_linear (X : Dressed) (d : Dims) (a m i j : ℕ) : IsLinear fun t => vooA_t3b X d t a m i j := by
  linear [vooA_t3b]

/-- The array with the contractions. -/
def vooA (X : Dressed) (d : Dims) (t₁ t₂ : Tens) (a m i j : ℕ) : ℚ :=
  X.aa_vooo a m i j + vooA_t3a X d t₁ a m i j + vooA_t3b X d t₂ a m i j

private def g_vooA_t3a (H : Arrays) (q : List ℕ) : Arr4 := (fun q w x y z =>
      let a := column q 1; let e := column q 2; let f := column q 3; let i := column q 4; let j := column q 5; let n := column q 6
      same1 x a * (same1 y i * (same1 z j * (H.h2a_oovv w n e f))) + same1 x a * (same1 y n * (same1 z j * (-H.h2a_oovv w i e f))) + same1 x a * (same1 y i * (same1 z n * (-H.h2a_oovv w j e f))) + same1 x e * (same1 y i * (same1 z j * (-H.h2a_oovv w n a f))) + same1 x e * (same1 y n * (same1 z j * (H.h2a_oovv w i a f))) + same1 x e * (same1 y i * (same1 z n * (H.h2a_oovv w j a f))) + same1 x f * (same1 y i * (same1 z j * (-H.h2a_oovv w n e a))) + same1 x f * (same1 y n * (same1 z j * (H.h2a_oovv w i e a))) + same1 x f * (same1 y i * (same1 z n * (H.h2a_oovv w j e a)))) q

private def g_vooA_t3b (H : Arrays) (q : List ℕ) : Arr4 := (fun q w x y z =>
      let a := column q 1; let e := column q 2; let f := column q 3; let i := column q 4; let j := column q 5; let n := column q 6
      same1 x a * (same1 y i * (same1 z j * (H.h2b_oovv w n e f))) + same1 x e * (same1 y i * (same1 z j * (-H.h2b_oovv w n a f)))) q

theorem calcI2a_vooo_eq (X : Dressed) (d : Dims) (H : Arrays) (t3a t3b : Buffer) (h_aa : H.h2a_oovv = one4 X.aa_oovv) (h_ab : H.h2b_oovv = one4 X.ab_oovv) (o_aa : ∀ m n e f, X.aa_oovv n m e f = -X.aa_oovv m n e f) (v_aa : ∀ m n e f, X.aa_oovv m n f e = -X.aa_oovv m n e f) (t3a_fits : Fits (t3a.excits.zip t3a.amps) (ListedAAA d.ua d.oa)) (t3b_fits : Fits (t3b.excits.zip t3b.amps) (ListedAAB d.ua d.ub d.oa d.ob)) (h_base : ∀ a m i j, H.h2a_vooo (m + 1) (a + 1) (i + 1) (j + 1) = X.aa_vooo a m i j) (a_base : ∀ a m i j, X.aa_vooo a m j i = -X.aa_vooo a m i j)
    {a m i j : ℕ} (hi : i < d.oa) (hj : j < d.oa) (hij : i ≠ j) :
    calcI2a_vooo d H t3a t3b (fun m a i j => (1 / 2) * H.h2a_vooo m a i j) (m + 1) (a + 1) (i + 1) (j + 1)
      = vooA X d (TripleList.ofThree (t3a.excits.zip t3a.amps)) (TripleList.ofTwoOne (t3b.excits.zip t3b.amps)) a m i j := by
  unfold calcI2a_vooo
  dsimp only
  rw [antisymmetrizeLoop_eq (n := d.oa) _ hi hj hij]
  simp only [Pi.sub_apply]
  rw [foldl_add (g_vooA_t3b H), foldl_add (g_vooA_t3a H), foldl_add (g_vooA_t3b H), foldl_add (g_vooA_t3a H)]
  any_goals (intro I x m a i j; simp only [addSlice_eq, g_vooA_t3a, g_vooA_t3b]; ring)
  have k_t3a : over (t3a.excits.zip t3a.amps) (fun q => g_vooA_t3a H q (m + 1) (a + 1) (i + 1) (j + 1) - g_vooA_t3a H q (m + 1) (a + 1) (j + 1) (i + 1))
      = vooA_t3a X d (TripleList.ofThree (t3a.excits.zip t3a.amps)) a m i j := by
    refine over_three t3a_fits (vooA_t3a_linear X d a m i j) ?_
    intro A B C L M N hAB hBC hC hLM hMN hN
    have hB := hBC.trans hC; have hA := hAB.trans hB; have hM := hMN.trans hN; have hL := hLM.trans hM
    simp only [vooA_t3a]
    rw [sum3_right]
    simp only [sum_sum_alternating3 hA hB hC]
    simp only [sum_alternating3 hL hM hN]
    simp only [g_vooA_t3a, column, List.getD_cons_zero, List.getD_cons_succ, Nat.reduceSub, delta_succ, h_aa, one4, Nat.add_sub_cancel, o_aa L M, o_aa L N, o_aa M N, v_aa _ _ A B, v_aa _ _ A C, v_aa _ _ B C, alternating2]
    ring
  have k_t3b : over (t3b.excits.zip t3b.amps) (fun q => g_vooA_t3b H q (m + 1) (a + 1) (i + 1) (j + 1) - g_vooA_t3b H q (m + 1) (a + 1) (j + 1) (i + 1))
      = vooA_t3b X d (TripleList.ofTwoOne (t3b.excits.zip t3b.amps)) a m i j := by
    refine over_twoOne t3b_fits (vooA_t3b_linear X d a m i j) ?_
    intro A B C L M N hAB hB hC hLM hM hN
    have hA := hAB.trans hB; have hL := hLM.trans hM
    simp only [vooA_t3b]
    rw [sum3_right]
    simp only [sum_pair_yz hA hB hC, sum_pair_left hA hB]
    simp only [sum_alternating2_mul hL hM, sum_mul_delta hN]
    simp only [g_vooA_t3b, column, List.getD_cons_zero, List.getD_cons_succ, Nat.reduceSub, delta_succ, h_ab, one4, Nat.add_sub_cancel, alternating2]
    ring
  have s : ∀ (t : List (List ℕ × ℚ)) (f g : List ℕ → ℚ), over t (fun q => f q - g q) = over t f - over t g := by
    intro t f g
    have := over_add t (fun q => f q - g q) g
    simp only [sub_add_cancel] at this
    linarith
  rw [s] at k_t3a k_t3b
  simp only [vooA, h_base, a_base a m i j]
  linarith

def vvoA_t3a (X : Dressed) (d : Dims) (t : Tens) (a b i e : ℕ) : ℚ :=
  -(1 / 2) * ∑ m ∈ range d.oa, ∑ n ∈ range d.oa, ∑ f ∈ range d.ua, X.aa_oovv m n e f * t a b f i m n

theorem vvoA_t3a_linear (X : Dressed) (d : Dims) (a b i e : ℕ) : IsLinear fun t => vvoA_t3a X d t a b i e := by
  linear [vvoA_t3a]

def vvoA_t3b (X : Dressed) (d : Dims) (t : Tens) (a b i e : ℕ) : ℚ :=
  -(∑ m ∈ range d.oa, ∑ n ∈ range d.ob, ∑ f ∈ range d.ub, X.ab_oovv m n e f * t a b f i m n)

theorem vvoA_t3b_linear (X : Dressed) (d : Dims) (a b i e : ℕ) : IsLinear fun t => vvoA_t3b X d t a b i e := by
  linear [vvoA_t3b]

/-- The array with the contractions. -/
def vvoA (X : Dressed) (d : Dims) (t₁ t₂ : Tens) (a b i e : ℕ) : ℚ :=
  X.aa_vvov a b i e + vvoA_t3a X d t₁ a b i e + vvoA_t3b X d t₂ a b i e

private def g_vvoA_t3a (H : Arrays) (q : List ℕ) : Arr4 := (fun q w x y z =>
      let intbuf : Arr4 := fun b a j i => H.h2a_oovv j i b a
      let a := column q 1; let b := column q 2; let f := column q 3; let i := column q 4; let m := column q 5; let n := column q 6
      same1 x a * (same1 y b * (same1 z i * (-intbuf w f m n))) + same1 x a * (same1 y b * (same1 z m * (intbuf w f i n))) + same1 x a * (same1 y b * (same1 z n * (intbuf w f m i))) + same1 x f * (same1 y b * (same1 z i * (intbuf w a m n))) + same1 x f * (same1 y b * (same1 z m * (-intbuf w a i n))) + same1 x f * (same1 y b * (same1 z n * (-intbuf w a m i))) + same1 x a * (same1 y f * (same1 z i * (intbuf w b m n))) + same1 x a * (same1 y f * (same1 z m * (-intbuf w b i n))) + same1 x a * (same1 y f * (same1 z n * (-intbuf w b m i)))) q

private def g_vvoA_t3b (H : Arrays) (q : List ℕ) : Arr4 := (fun q w x y z =>
      let intbuf : Arr4 := fun a b i j => H.h2b_oovv i j a b
      let a := column q 1; let b := column q 2; let f := column q 3; let i := column q 4; let m := column q 5; let n := column q 6
      same1 x a * (same1 y b * (same1 z i * (-intbuf w f m n))) + same1 x a * (same1 y b * (same1 z m * (intbuf w f i n)))) q

theorem calcI2a_vvov_eq (X : Dressed) (d : Dims) (H : Arrays) (t3a t3b : Buffer) (h_aa : H.h2a_oovv = one4 X.aa_oovv) (h_ab : H.h2b_oovv = one4 X.ab_oovv) (o_aa : ∀ m n e f, X.aa_oovv n m e f = -X.aa_oovv m n e f) (v_aa : ∀ m n e f, X.aa_oovv m n f e = -X.aa_oovv m n e f) (t3a_fits : Fits (t3a.excits.zip t3a.amps) (ListedAAA d.ua d.oa)) (t3b_fits : Fits (t3b.excits.zip t3b.amps) (ListedAAB d.ua d.ub d.oa d.ob)) (h_base : ∀ a b i e, H.h2a_vvov (e + 1) (a + 1) (b + 1) (i + 1) = X.aa_vvov a b i e) (a_base : ∀ a b i e, X.aa_vvov b a i e = -X.aa_vvov a b i e)
    {a b i e : ℕ} (ha : a < d.ua) (hb : b < d.ua) (hab : a ≠ b) :
    calcI2a_vvov d H t3a t3b (fun e a b i => (1 / 2) * H.h2a_vvov e a b i) (e + 1) (a + 1) (b + 1) (i + 1)
      = vvoA X d (TripleList.ofThree (t3a.excits.zip t3a.amps)) (TripleList.ofTwoOne (t3b.excits.zip t3b.amps)) a b i e := by
  unfold calcI2a_vvov
  dsimp only
  rw [antisymmetrizeLoop_eq (n := d.ua) _ ha hb hab]
  simp only [Pi.sub_apply]
  rw [foldl_add (g_vvoA_t3b H), foldl_add (g_vvoA_t3a H), foldl_add (g_vvoA_t3b H), foldl_add (g_vvoA_t3a H)]
  any_goals (intro I x m a i j; simp only [addSlice_eq, g_vvoA_t3a, g_vvoA_t3b]; ring)
  have k_t3a : over (t3a.excits.zip t3a.amps) (fun q => g_vvoA_t3a H q (e + 1) (a + 1) (b + 1) (i + 1) - g_vvoA_t3a H q (e + 1) (b + 1) (a + 1) (i + 1))
      = vvoA_t3a X d (TripleList.ofThree (t3a.excits.zip t3a.amps)) a b i e := by
    refine over_three t3a_fits (vvoA_t3a_linear X d a b i e) ?_
    intro A B C L M N hAB hBC hC hLM hMN hN
    have hB := hBC.trans hC; have hA := hAB.trans hB; have hM := hMN.trans hN; have hL := hLM.trans hM
    simp only [vvoA_t3a]
    rw [sum3_left]
    simp only [sum_alternating3 hA hB hC]
    simp only [sum_sum_alternating3 hL hM hN]
    simp only [g_vvoA_t3a, column, List.getD_cons_zero, List.getD_cons_succ, Nat.reduceSub, delta_succ, h_aa, one4, Nat.add_sub_cancel, o_aa L M, o_aa L N, o_aa M N, v_aa _ _ A B, v_aa _ _ A C, v_aa _ _ B C, alternating2]
    ring
  have k_t3b : over (t3b.excits.zip t3b.amps) (fun q => g_vvoA_t3b H q (e + 1) (a + 1) (b + 1) (i + 1) - g_vvoA_t3b H q (e + 1) (b + 1) (a + 1) (i + 1))
      = vvoA_t3b X d (TripleList.ofTwoOne (t3b.excits.zip t3b.amps)) a b i e := by
    refine over_twoOne t3b_fits (vvoA_t3b_linear X d a b i e) ?_
    intro A B C L M N hAB hB hC hLM hM hN
    have hA := hAB.trans hB; have hL := hLM.trans hM
    simp only [vvoA_t3b]
    rw [sum3_left]
    simp only [sum_alternating2_mul hA hB, sum_mul_delta hC]
    simp only [sum_pair_yz hL hM hN, sum_pair_left hL hM]
    simp only [g_vvoA_t3b, column, List.getD_cons_zero, List.getD_cons_succ, Nat.reduceSub, delta_succ, h_ab, one4, Nat.add_sub_cancel, alternating2]
    ring
  have s : ∀ (t : List (List ℕ × ℚ)) (f g : List ℕ → ℚ), over t (fun q => f q - g q) = over t f - over t g := by
    intro t f g
    have := over_add t (fun q => f q - g q) g
    simp only [sub_add_cancel] at this
    linarith
  rw [s] at k_t3a k_t3b
  simp only [vvoA, h_base, a_base a b i e]
  linarith

def vooB_t3b (X : Dressed) (d : Dims) (t : Tens) (a m i j : ℕ) : ℚ :=
  ∑ n ∈ range d.oa, ∑ f ∈ range d.ua, ∑ e ∈ range d.ub, X.ab_oovv n m f e * t a f e i n j

theorem vooB_t3b_linear (X : Dressed) (d : Dims) (a m i j : ℕ) : IsLinear fun t => vooB_t3b X d t a m i j := by
  linear [vooB_t3b]

def vooB_t3c (X : Dressed) (d : Dims) (t : Tens) (a m i j : ℕ) : ℚ :=
  1 / 2 * ∑ n ∈ range d.ob, ∑ f ∈ range d.ub, ∑ e ∈ range d.ub, X.bb_oovv n m f e * t a f e i n j

theorem vooB_t3c_linear (X : Dressed) (d : Dims) (a m i j : ℕ) : IsLinear fun t => vooB_t3c X d t a m i j := by
  linear [vooB_t3c]

/-- The array with the contractions. -/
def vooB (X : Dressed) (d : Dims) (t₁ t₂ : Tens) (a m i j : ℕ) : ℚ :=
  X.ab_vooo a m i j + vooB_t3b X d t₁ a m i j + vooB_t3c X d t₂ a m i j

private def g_vooB_t3b (H : Arrays) (q : List ℕ) : Arr4 := (fun q w x y z =>
      let intbuf : Arr4 := fun j i b a => H.h2b_oovv i j a b
      let a := column q 1; let f := column q 2; let e := column q 3; let i := column q 4; let n := column q 5; let j := column q 6
      same1 x a * (same1 y i * (same1 z j * (intbuf w n e f))) + same1 x f * (same1 y i * (same1 z j * (-intbuf w n e a))) + same1 x a * (same1 y n * (same1 z j * (-intbuf w i e f))) + same1 x f * (same1 y n * (same1 z j * (intbuf w i e a)))) q

private def g_vooB_t3c (H : Arrays) (q : List ℕ) : Arr4 := (fun q w x y z =>
      let intbuf : Arr4 := fun j i b a => H.h2c_oovv i j a b
      let a := column q 1; let f := column q 2; let e := column q 3; let i := column q 4; let n := column q 5; let j := column q 6
      same1 x a * (same1 y i * (same1 z j * (intbuf w n e f))) + same1 x a * (same1 y i * (same1 z n * (-intbuf w j e f)))) q

theorem calcI2b_vooo_eq (X : Dressed) (d : Dims) (H : Arrays) (t3b t3c : Buffer) (h_ab : H.h2b_oovv = one4 X.ab_oovv) (h_bb : H.h2c_oovv = one4 X.bb_oovv) (o_bb : ∀ m n e f, X.bb_oovv n m e f = -X.bb_oovv m n e f) (v_bb : ∀ m n e f, X.bb_oovv m n f e = -X.bb_oovv m n e f) (t3b_fits : Fits (t3b.excits.zip t3b.amps) (ListedAAB d.ua d.ub d.oa d.ob)) (t3c_fits : Fits (t3c.excits.zip t3c.amps) (ListedABB d.ua d.ub d.oa d.ob)) (h_base : ∀ a m i j, H.h2b_vooo (m + 1) (a + 1) (i + 1) (j + 1) = X.ab_vooo a m i j)
    {a m i j : ℕ} :
    calcI2b_vooo d H t3b t3c H.h2b_vooo (m + 1) (a + 1) (i + 1) (j + 1)
      = vooB X d (TripleList.ofTwoOne (t3b.excits.zip t3b.amps)) (TripleList.ofOneTwo (t3c.excits.zip t3c.amps)) a m i j := by
  unfold calcI2b_vooo
  dsimp only
  rw [foldl_add (g_vooB_t3c H), foldl_add (g_vooB_t3b H)]
  any_goals (intro I x m a i j; simp only [addSlice_eq, g_vooB_t3b, g_vooB_t3c]; ring)
  have k_t3b : over (t3b.excits.zip t3b.amps) (fun q => g_vooB_t3b H q (m + 1) (a + 1) (i + 1) (j + 1))
      = vooB_t3b X d (TripleList.ofTwoOne (t3b.excits.zip t3b.amps)) a m i j := by
    refine over_twoOne t3b_fits (vooB_t3b_linear X d a m i j) ?_
    intro A B C L M N hAB hB hC hLM hM hN
    have hA := hAB.trans hB; have hL := hLM.trans hM
    simp only [vooB_t3b]
    rw [sum3_right]
    simp only [sum_pair_yz hA hB hC, sum_pair_left hA hB]
    simp only [sum_alternating2_mul hL hM, sum_mul_delta hN]
    simp only [g_vooB_t3b, column, List.getD_cons_zero, List.getD_cons_succ, Nat.reduceSub, delta_succ, h_ab, one4, Nat.add_sub_cancel, alternating2]
    ring
  have k_t3c : over (t3c.excits.zip t3c.amps) (fun q => g_vooB_t3c H q (m + 1) (a + 1) (i + 1) (j + 1))
      = vooB_t3c X d (TripleList.ofOneTwo (t3c.excits.zip t3c.amps)) a m i j := by
    refine over_oneTwo t3c_fits (vooB_t3c_linear X d a m i j) ?_
    intro A B C L M N hA hBC hC hL hMN hN
    have hB := hBC.trans hC; have hM := hMN.trans hN
    simp only [vooB_t3c]
    rw [sum3_right]
    simp only [sum_pair_zy hB hC hA, sum_pair_zy_first hB hC hA, sum_pair_right hB hC]
    simp only [sum_mul_alternating2_first hM hN, sum_delta_mul hL, sum_mul_alternating2 hM hN]
    simp only [g_vooB_t3c, column, List.getD_cons_zero, List.getD_cons_succ, Nat.reduceSub, delta_succ, h_bb, one4, Nat.add_sub_cancel, o_bb L M, o_bb L N, o_bb M N, v_bb _ _ A B, v_bb _ _ A C, v_bb _ _ B C, alternating2]
    ring
  simp only [vooB, h_base]
  linarith

def ovoB_t3b (X : Dressed) (d : Dims) (t : Tens) (m b i j : ℕ) : ℚ :=
  1 / 2 * ∑ n ∈ range d.oa, ∑ e ∈ range d.ua, ∑ f ∈ range d.ua, X.aa_oovv m n e f * t e f b i n j

theorem ovoB_t3b_linear (X : Dressed) (d : Dims) (m b i j : ℕ) : IsLinear fun t => ovoB_t3b X d t m b i j := by
  linear [ovoB_t3b]

def ovoB_t3c (X : Dressed) (d : Dims) (t : Tens) (m b i j : ℕ) : ℚ :=
  ∑ n ∈ range d.ob, ∑ e ∈ range d.ua, ∑ f ∈ range d.ub, X.ab_oovv m n e f * t e f b i n j

theorem ovoB_t3c_linear (X : Dressed) (d : Dims) (m b i j : ℕ) : IsLinear fun t => ovoB_t3c X d t m b i j := by
  linear [ovoB_t3c]

/-- The array with the contractions. -/
def ovoB (X : Dressed) (d : Dims) (t₁ t₂ : Tens) (m b i j : ℕ) : ℚ :=
  X.ab_ovoo m b i j + ovoB_t3b X d t₁ m b i j + ovoB_t3c X d t₂ m b i j

private def g_ovoB_t3b (H : Arrays) (q : List ℕ) : Arr4 := (fun q w x y z =>
      let e := column q 1; let f := column q 2; let b := column q 3; let i := column q 4; let n := column q 5; let j := column q 6
      same1 x b * (same1 y i * (same1 z j * (H.h2a_oovv w n e f))) + same1 x b * (same1 y n * (same1 z j * (-H.h2a_oovv w i e f)))) q

private def g_ovoB_t3c (H : Arrays) (q : List ℕ) : Arr4 := (fun q w x y z =>
      let e := column q 1; let f := column q 2; let b := column q 3; let i := column q 4; let n := column q 5; let j := column q 6
      same1 x b * (same1 y i * (same1 z j * (H.h2b_oovv w n e f))) + same1 x f * (same1 y i * (same1 z j * (-H.h2b_oovv w n e b))) + same1 x b * (same1 y i * (same1 z n * (-H.h2b_oovv w j e f))) + same1 x f * (same1 y i * (same1 z n * (H.h2b_oovv w j e b)))) q

theorem calcI2b_ovoo_eq (X : Dressed) (d : Dims) (H : Arrays) (t3b t3c : Buffer) (h_aa : H.h2a_oovv = one4 X.aa_oovv) (h_ab : H.h2b_oovv = one4 X.ab_oovv) (o_aa : ∀ m n e f, X.aa_oovv n m e f = -X.aa_oovv m n e f) (v_aa : ∀ m n e f, X.aa_oovv m n f e = -X.aa_oovv m n e f) (t3b_fits : Fits (t3b.excits.zip t3b.amps) (ListedAAB d.ua d.ub d.oa d.ob)) (t3c_fits : Fits (t3c.excits.zip t3c.amps) (ListedABB d.ua d.ub d.oa d.ob)) (h_base : ∀ m b i j, H.h2b_ovoo (m + 1) (b + 1) (i + 1) (j + 1) = X.ab_ovoo m b i j)
    {m b i j : ℕ} :
    calcI2b_ovoo d H t3b t3c H.h2b_ovoo (m + 1) (b + 1) (i + 1) (j + 1)
      = ovoB X d (TripleList.ofTwoOne (t3b.excits.zip t3b.amps)) (TripleList.ofOneTwo (t3c.excits.zip t3c.amps)) m b i j := by
  unfold calcI2b_ovoo
  dsimp only
  rw [foldl_add (g_ovoB_t3c H), foldl_add (g_ovoB_t3b H)]
  any_goals (intro I x m a i j; simp only [addSlice_eq, g_ovoB_t3b, g_ovoB_t3c]; ring)
  have k_t3b : over (t3b.excits.zip t3b.amps) (fun q => g_ovoB_t3b H q (m + 1) (b + 1) (i + 1) (j + 1))
      = ovoB_t3b X d (TripleList.ofTwoOne (t3b.excits.zip t3b.amps)) m b i j := by
    refine over_twoOne t3b_fits (ovoB_t3b_linear X d m b i j) ?_
    intro A B C L M N hAB hB hC hLM hM hN
    have hA := hAB.trans hB; have hL := hLM.trans hM
    simp only [ovoB_t3b]
    rw [sum3_right]
    simp only [sum_pair_yz hA hB hC, sum_pair_left hA hB]
    simp only [sum_alternating2_mul hL hM, sum_mul_delta hN]
    simp only [g_ovoB_t3b, column, List.getD_cons_zero, List.getD_cons_succ, Nat.reduceSub, delta_succ, h_aa, one4, Nat.add_sub_cancel, o_aa L M, o_aa L N, o_aa M N, v_aa _ _ A B, v_aa _ _ A C, v_aa _ _ B C, alternating2]
    ring
  have k_t3c : over (t3c.excits.zip t3c.amps) (fun q => g_ovoB_t3c H q (m + 1) (b + 1) (i + 1) (j + 1))
      = ovoB_t3c X d (TripleList.ofOneTwo (t3c.excits.zip t3c.amps)) m b i j := by
    refine over_oneTwo t3c_fits (ovoB_t3c_linear X d m b i j) ?_
    intro A B C L M N hA hBC hC hL hMN hN
    have hB := hBC.trans hC; have hM := hMN.trans hN
    simp only [ovoB_t3c]
    rw [sum3_right]
    simp only [sum_pair_zy hB hC hA, sum_pair_zy_first hB hC hA, sum_pair_right hB hC]
    simp only [sum_mul_alternating2_first hM hN, sum_delta_mul hL, sum_mul_alternating2 hM hN]
    simp only [g_ovoB_t3c, column, List.getD_cons_zero, List.getD_cons_succ, Nat.reduceSub, delta_succ, h_ab, one4, Nat.add_sub_cancel, alternating2]
    ring
  simp only [ovoB, h_base]
  linarith

def vvoB_t3b (X : Dressed) (d : Dims) (t : Tens) (a b i e : ℕ) : ℚ :=
  -(∑ n ∈ range d.oa, ∑ m ∈ range d.ob, ∑ f ∈ range d.ua, X.ab_oovv n m f e * t a f b i n m)

theorem vvoB_t3b_linear (X : Dressed) (d : Dims) (a b i e : ℕ) : IsLinear fun t => vvoB_t3b X d t a b i e := by
  linear [vvoB_t3b]

def vvoB_t3c (X : Dressed) (d : Dims) (t : Tens) (a b i e : ℕ) : ℚ :=
  -(1 / 2) * ∑ n ∈ range d.ob, ∑ m ∈ range d.ob, ∑ f ∈ range d.ub, X.bb_oovv n m f e * t a f b i n m

theorem vvoB_t3c_linear (X : Dressed) (d : Dims) (a b i e : ℕ) : IsLinear fun t => vvoB_t3c X d t a b i e := by
  linear [vvoB_t3c]

/-- The array with the contractions. -/
def vvoB (X : Dressed) (d : Dims) (t₁ t₂ : Tens) (a b i e : ℕ) : ℚ :=
  X.ab_vvov a b i e + vvoB_t3b X d t₁ a b i e + vvoB_t3c X d t₂ a b i e

private def g_vvoB_t3b (H : Arrays) (q : List ℕ) : Arr4 := (fun q w x y z =>
      let intbuf : Arr4 := fun b a j i => H.h2b_oovv i j a b
      let a := column q 1; let f := column q 2; let b := column q 3; let i := column q 4; let n := column q 5; let m := column q 6
      same1 x a * (same1 y b * (same1 z i * (-intbuf w f m n))) + same1 x f * (same1 y b * (same1 z i * (intbuf w a m n))) + same1 x a * (same1 y b * (same1 z n * (intbuf w f m i))) + same1 x f * (same1 y b * (same1 z n * (-intbuf w a m i)))) q

private def g_vvoB_t3c (H : Arrays) (q : List ℕ) : Arr4 := (fun q w x y z =>
      let intbuf : Arr4 := fun b a j i => H.h2c_oovv i j a b
      let a := column q 1; let f := column q 2; let b := column q 3; let i := column q 4; let n := column q 5; let m := column q 6
      same1 x a * (same1 y b * (same1 z i * (-intbuf w f m n))) + same1 x a * (same1 y f * (same1 z i * (intbuf w b m n)))) q

theorem calcI2b_vvov_eq (X : Dressed) (d : Dims) (H : Arrays) (t3b t3c : Buffer) (h_ab : H.h2b_oovv = one4 X.ab_oovv) (h_bb : H.h2c_oovv = one4 X.bb_oovv) (o_bb : ∀ m n e f, X.bb_oovv n m e f = -X.bb_oovv m n e f) (v_bb : ∀ m n e f, X.bb_oovv m n f e = -X.bb_oovv m n e f) (t3b_fits : Fits (t3b.excits.zip t3b.amps) (ListedAAB d.ua d.ub d.oa d.ob)) (t3c_fits : Fits (t3c.excits.zip t3c.amps) (ListedABB d.ua d.ub d.oa d.ob)) (h_base : ∀ a b i e, H.h2b_vvov (e + 1) (a + 1) (b + 1) (i + 1) = X.ab_vvov a b i e)
    {a b i e : ℕ} :
    calcI2b_vvov d H t3b t3c H.h2b_vvov (e + 1) (a + 1) (b + 1) (i + 1)
      = vvoB X d (TripleList.ofTwoOne (t3b.excits.zip t3b.amps)) (TripleList.ofOneTwo (t3c.excits.zip t3c.amps)) a b i e := by
  unfold calcI2b_vvov
  dsimp only
  rw [foldl_add (g_vvoB_t3c H), foldl_add (g_vvoB_t3b H)]
  any_goals (intro I x m a i j; simp only [addSlice_eq, g_vvoB_t3b, g_vvoB_t3c]; ring)
  have k_t3b : over (t3b.excits.zip t3b.amps) (fun q => g_vvoB_t3b H q (e + 1) (a + 1) (b + 1) (i + 1))
      = vvoB_t3b X d (TripleList.ofTwoOne (t3b.excits.zip t3b.amps)) a b i e := by
    refine over_twoOne t3b_fits (vvoB_t3b_linear X d a b i e) ?_
    intro A B C L M N hAB hB hC hLM hM hN
    have hA := hAB.trans hB; have hL := hLM.trans hM
    simp only [vvoB_t3b]
    rw [sum3_left]
    simp only [sum_alternating2_mul hA hB, sum_mul_delta hC]
    simp only [sum_pair_yz hL hM hN, sum_pair_left hL hM]
    simp only [g_vvoB_t3b, column, List.getD_cons_zero, List.getD_cons_succ, Nat.reduceSub, delta_succ, h_ab, one4, Nat.add_sub_cancel, alternating2]
    ring
  have k_t3c : over (t3c.excits.zip t3c.amps) (fun q => g_vvoB_t3c H q (e + 1) (a + 1) (b + 1) (i + 1))
      = vvoB_t3c X d (TripleList.ofOneTwo (t3c.excits.zip t3c.amps)) a b i e := by
    refine over_oneTwo t3c_fits (vvoB_t3c_linear X d a b i e) ?_
    intro A B C L M N hA hBC hC hL hMN hN
    have hB := hBC.trans hC; have hM := hMN.trans hN
    simp only [vvoB_t3c]
    rw [sum3_left]
    simp only [sum_mul_alternating2_first hB hC, sum_delta_mul hA, sum_mul_alternating2 hB hC]
    simp only [sum_pair_zy hM hN hL, sum_pair_zy_first hM hN hL, sum_pair_right hM hN]
    simp only [g_vvoB_t3c, column, List.getD_cons_zero, List.getD_cons_succ, Nat.reduceSub, delta_succ, h_bb, one4, Nat.add_sub_cancel, o_bb L M, o_bb L N, o_bb M N, v_bb _ _ A B, v_bb _ _ A C, v_bb _ _ B C, alternating2]
    ring
  simp only [vvoB, h_base]
  linarith

def vvvB_t3b (X : Dressed) (d : Dims) (t : Tens) (a b e j : ℕ) : ℚ :=
  -(1 / 2) * ∑ m ∈ range d.oa, ∑ n ∈ range d.oa, ∑ f ∈ range d.ua, X.aa_oovv m n e f * t a f b m n j

theorem vvvB_t3b_linear (X : Dressed) (d : Dims) (a b e j : ℕ) : IsLinear fun t => vvvB_t3b X d t a b e j := by
  linear [vvvB_t3b]

def vvvB_t3c (X : Dressed) (d : Dims) (t : Tens) (a b e j : ℕ) : ℚ :=
  -(∑ m ∈ range d.oa, ∑ n ∈ range d.ob, ∑ f ∈ range d.ub, X.ab_oovv m n e f * t a f b m n j)

theorem vvvB_t3c_linear (X : Dressed) (d : Dims) (a b e j : ℕ) : IsLinear fun t => vvvB_t3c X d t a b e j := by
  linear [vvvB_t3c]

/-- The array with the contractions. -/
def vvvB (X : Dressed) (d : Dims) (t₁ t₂ : Tens) (a b e j : ℕ) : ℚ :=
  X.ab_vvvo a b e j + vvvB_t3b X d t₁ a b e j + vvvB_t3c X d t₂ a b e j

private def g_vvvB_t3b (H : Arrays) (q : List ℕ) : Arr4 := (fun q w x y z =>
      let intbuf : Arr4 := fun a b i j => H.h2a_oovv i j a b
      let a := column q 1; let f := column q 2; let b := column q 3; let m := column q 4; let n := column q 5; let j := column q 6
      same1 x a * (same1 y b * (same1 z j * (-intbuf w f m n))) + same1 x f * (same1 y b * (same1 z j * (intbuf w a m n)))) q

private def g_vvvB_t3c (H : Arrays) (q : List ℕ) : Arr4 := (fun q w x y z =>
      let intbuf : Arr4 := fun a b i j => H.h2b_oovv i j a b
      let a := column q 1; let f := column q 2; let b := column q 3; let m := column q 4; let n := column q 5; let j := column q 6
      same1 x a * (same1 y b * (same1 z j * (-intbuf w f m n))) + same1 x a * (same1 y f * (same1 z j * (intbuf w b m n))) + same1 x a * (same1 y b * (same1 z n * (intbuf w f m j))) + same1 x a * (same1 y f * (same1 z n * (-intbuf w b m j)))) q

theorem calcI2b_vvvo_eq (X : Dressed) (d : Dims) (H : Arrays) (t3b t3c : Buffer) (h_aa : H.h2a_oovv = one4 X.aa_oovv) (h_ab : H.h2b_oovv = one4 X.ab_oovv) (o_aa : ∀ m n e f, X.aa_oovv n m e f = -X.aa_oovv m n e f) (v_aa : ∀ m n e f, X.aa_oovv m n f e = -X.aa_oovv m n e f) (t3b_fits : Fits (t3b.excits.zip t3b.amps) (ListedAAB d.ua d.ub d.oa d.ob)) (t3c_fits : Fits (t3c.excits.zip t3c.amps) (ListedABB d.ua d.ub d.oa d.ob)) (h_base : ∀ a b e j, H.h2b_vvvo (e + 1) (a + 1) (b + 1) (j + 1) = X.ab_vvvo a b e j)
    {a b e j : ℕ} :
    calcI2b_vvvo d H t3b t3c H.h2b_vvvo (e + 1) (a + 1) (b + 1) (j + 1)
      = vvvB X d (TripleList.ofTwoOne (t3b.excits.zip t3b.amps)) (TripleList.ofOneTwo (t3c.excits.zip t3c.amps)) a b e j := by
  unfold calcI2b_vvvo
  dsimp only
  rw [foldl_add (g_vvvB_t3c H), foldl_add (g_vvvB_t3b H)]
  any_goals (intro I x m a i j; simp only [addSlice_eq, g_vvvB_t3b, g_vvvB_t3c]; ring)
  have k_t3b : over (t3b.excits.zip t3b.amps) (fun q => g_vvvB_t3b H q (e + 1) (a + 1) (b + 1) (j + 1))
      = vvvB_t3b X d (TripleList.ofTwoOne (t3b.excits.zip t3b.amps)) a b e j := by
    refine over_twoOne t3b_fits (vvvB_t3b_linear X d a b e j) ?_
    intro A B C L M N hAB hB hC hLM hM hN
    have hA := hAB.trans hB; have hL := hLM.trans hM
    simp only [vvvB_t3b]
    rw [sum3_left]
    simp only [sum_alternating2_mul hA hB, sum_mul_delta hC]
    simp only [sum_pair_yz hL hM hN, sum_pair_left hL hM]
    simp only [g_vvvB_t3b, column, List.getD_cons_zero, List.getD_cons_succ, Nat.reduceSub, delta_succ, h_aa, one4, Nat.add_sub_cancel, o_aa L M, o_aa L N, o_aa M N, v_aa _ _ A B, v_aa _ _ A C, v_aa _ _ B C, alternating2]
    ring
  have k_t3c : over (t3c.excits.zip t3c.amps) (fun q => g_vvvB_t3c H q (e + 1) (a + 1) (b + 1) (j + 1))
      = vvvB_t3c X d (TripleList.ofOneTwo (t3c.excits.zip t3c.amps)) a b e j := by
    refine over_oneTwo t3c_fits (vvvB_t3c_linear X d a b e j) ?_
    intro A B C L M N hA hBC hC hL hMN hN
    have hB := hBC.trans hC; have hM := hMN.trans hN
    simp only [vvvB_t3c]
    rw [sum3_left]
    simp only [sum_mul_alternating2_first hB hC, sum_delta_mul hA, sum_mul_alternating2 hB hC]
    simp only [sum_pair_zy hM hN hL, sum_pair_zy_first hM hN hL, sum_pair_right hM hN]
    simp only [g_vvvB_t3c, column, List.getD_cons_zero, List.getD_cons_succ, Nat.reduceSub, delta_succ, h_ab, one4, Nat.add_sub_cancel, alternating2]
    ring
  simp only [vvvB, h_base]
  linarith

def vooC_t3d (X : Dressed) (d : Dims) (t : Tens) (a m i j : ℕ) : ℚ :=
  1 / 2 * ∑ n ∈ range d.ob, ∑ e ∈ range d.ub, ∑ f ∈ range d.ub, X.bb_oovv m n e f * t a e f i j n

theorem vooC_t3d_linear (X : Dressed) (d : Dims) (a m i j : ℕ) : IsLinear fun t => vooC_t3d X d t a m i j := by
  linear [vooC_t3d]

def vooC_t3c (X : Dressed) (d : Dims) (t : Tens) (a m i j : ℕ) : ℚ :=
  ∑ n ∈ range d.oa, ∑ f ∈ range d.ua, ∑ e ∈ range d.ub, X.ab_oovv n m f e * t f a e n i j

theorem vooC_t3c_linear (X : Dressed) (d : Dims) (a m i j : ℕ) : IsLinear fun t => vooC_t3c X d t a m i j := by
  linear [vooC_t3c]

/-- The array with the contractions. -/
def vooC (X : Dressed) (d : Dims) (t₁ t₂ : Tens) (a m i j : ℕ) : ℚ :=
  X.bb_vooo a m i j + vooC_t3d X d t₁ a m i j + vooC_t3c X d t₂ a m i j

private def g_vooC_t3d (H : Arrays) (q : List ℕ) : Arr4 := (fun q w x y z =>
      let a := column q 1; let e := column q 2; let f := column q 3; let i := column q 4; let j := column q 5; let n := column q 6
      same1 x a * (same1 y i * (same1 z j * (H.h2c_oovv w n e f))) + same1 x a * (same1 y n * (same1 z j * (-H.h2c_oovv w i e f))) + same1 x a * (same1 y i * (same1 z n * (-H.h2c_oovv w j e f))) + same1 x e * (same1 y i * (same1 z j * (-H.h2c_oovv w n a f))) + same1 x e * (same1 y n * (same1 z j * (H.h2c_oovv w i a f))) + same1 x e * (same1 y i * (same1 z n * (H.h2c_oovv w j a f))) + same1 x f * (same1 y i * (same1 z j * (-H.h2c_oovv w n e a))) + same1 x f * (same1 y n * (same1 z j * (H.h2c_oovv w i e a))) + same1 x f * (same1 y i * (same1 z n * (H.h2c_oovv w j e a)))) q

private def g_vooC_t3c (H : Arrays) (q : List ℕ) : Arr4 := (fun q w x y z =>
      let intbuf : Arr4 := fun j i b a => H.h2b_oovv i j a b
      let f := column q 1; let a := column q 2; let e := column q 3; let n := column q 4; let i := column q 5; let j := column q 6
      same1 x a * (same1 y i * (same1 z j * (intbuf w n e f))) + same1 x e * (same1 y i * (same1 z j * (-intbuf w n a f)))) q

theorem calcI2c_vooo_eq (X : Dressed) (d : Dims) (H : Arrays) (t3c t3d : Buffer) (h_ab : H.h2b_oovv = one4 X.ab_oovv) (h_bb : H.h2c_oovv = one4 X.bb_oovv) (o_bb : ∀ m n e f, X.bb_oovv n m e f = -X.bb_oovv m n e f) (v_bb : ∀ m n e f, X.bb_oovv m n f e = -X.bb_oovv m n e f) (t3d_fits : Fits (t3d.excits.zip t3d.amps) (ListedAAA d.ub d.ob)) (t3c_fits : Fits (t3c.excits.zip t3c.amps) (ListedABB d.ua d.ub d.oa d.ob)) (h_base : ∀ a m i j, H.h2c_vooo (m + 1) (a + 1) (i + 1) (j + 1) = X.bb_vooo a m i j) (a_base : ∀ a m i j, X.bb_vooo a m j i = -X.bb_vooo a m i j)
    {a m i j : ℕ} (hi : i < d.ob) (hj : j < d.ob) (hij : i ≠ j) :
    calcI2c_vooo d H t3c t3d (fun m a i j => (1 / 2) * H.h2c_vooo m a i j) (m + 1) (a + 1) (i + 1) (j + 1)
      = vooC X d (TripleList.ofThree (t3d.excits.zip t3d.amps)) (TripleList.ofOneTwo (t3c.excits.zip t3c.amps)) a m i j := by
  unfold calcI2c_vooo
  dsimp only
  rw [antisymmetrizeLoop_eq (n := d.ob) _ hi hj hij]
  simp only [Pi.sub_apply]
  rw [foldl_add (g_vooC_t3c H), foldl_add (g_vooC_t3d H), foldl_add (g_vooC_t3c H), foldl_add (g_vooC_t3d H)]
  any_goals (intro I x m a i j; simp only [addSlice_eq, g_vooC_t3d, g_vooC_t3c]; ring)
  have k_t3d : over (t3d.excits.zip t3d.amps) (fun q => g_vooC_t3d H q (m + 1) (a + 1) (i + 1) (j + 1) - g_vooC_t3d H q (m + 1) (a + 1) (j + 1) (i + 1))
      = vooC_t3d X d (TripleList.ofThree (t3d.excits.zip t3d.amps)) a m i j := by
    refine over_three t3d_fits (vooC_t3d_linear X d a m i j) ?_
    intro A B C L M N hAB hBC hC hLM hMN hN
    have hB := hBC.trans hC; have hA := hAB.trans hB; have hM := hMN.trans hN; have hL := hLM.trans hM
    simp only [vooC_t3d]
    rw [sum3_right]
    simp only [sum_sum_alternating3 hA hB hC]
    simp only [sum_alternating3 hL hM hN]
    simp only [g_vooC_t3d, column, List.getD_cons_zero, List.getD_cons_succ, Nat.reduceSub, delta_succ, h_bb, one4, Nat.add_sub_cancel, o_bb L M, o_bb L N, o_bb M N, v_bb _ _ A B, v_bb _ _ A C, v_bb _ _ B C, alternating2]
    ring
  have k_t3c : over (t3c.excits.zip t3c.amps) (fun q => g_vooC_t3c H q (m + 1) (a + 1) (i + 1) (j + 1) - g_vooC_t3c H q (m + 1) (a + 1) (j + 1) (i + 1))
      = vooC_t3c X d (TripleList.ofOneTwo (t3c.excits.zip t3c.amps)) a m i j := by
    refine over_oneTwo t3c_fits (vooC_t3c_linear X d a m i j) ?_
    intro A B C L M N hA hBC hC hL hMN hN
    have hB := hBC.trans hC; have hM := hMN.trans hN
    simp only [vooC_t3c]
    rw [sum3_right]
    simp only [sum_pair_zy hB hC hA, sum_pair_zy_first hB hC hA, sum_pair_right hB hC]
    simp only [sum_mul_alternating2_first hM hN, sum_delta_mul hL, sum_mul_alternating2 hM hN]
    simp only [g_vooC_t3c, column, List.getD_cons_zero, List.getD_cons_succ, Nat.reduceSub, delta_succ, h_ab, one4, Nat.add_sub_cancel, alternating2]
    ring
  have s : ∀ (t : List (List ℕ × ℚ)) (f g : List ℕ → ℚ), over t (fun q => f q - g q) = over t f - over t g := by
    intro t f g
    have := over_add t (fun q => f q - g q) g
    simp only [sub_add_cancel] at this
    linarith
  rw [s] at k_t3d k_t3c
  simp only [vooC, h_base, a_base a m i j]
  linarith

def vvoC_t3d (X : Dressed) (d : Dims) (t : Tens) (a b i e : ℕ) : ℚ :=
  -(1 / 2) * ∑ m ∈ range d.ob, ∑ n ∈ range d.ob, ∑ f ∈ range d.ub, X.bb_oovv m n e f * t a b f i m n

theorem vvoC_t3d_linear (X : Dressed) (d : Dims) (a b i e : ℕ) : IsLinear fun t => vvoC_t3d X d t a b i e := by
  linear [vvoC_t3d]

def vvoC_t3c (X : Dressed) (d : Dims) (t : Tens) (a b i e : ℕ) : ℚ :=
  -(∑ n ∈ range d.oa, ∑ m ∈ range d.ob, ∑ f ∈ range d.ua, X.ab_oovv n m f e * t f a b n i m)

theorem vvoC_t3c_linear (X : Dressed) (d : Dims) (a b i e : ℕ) : IsLinear fun t => vvoC_t3c X d t a b i e := by
  linear [vvoC_t3c]

/-- The array with the contractions. -/
def vvoC (X : Dressed) (d : Dims) (t₁ t₂ : Tens) (a b i e : ℕ) : ℚ :=
  X.bb_vvov a b i e + vvoC_t3d X d t₁ a b i e + vvoC_t3c X d t₂ a b i e

private def g_vvoC_t3d (H : Arrays) (q : List ℕ) : Arr4 := (fun q w x y z =>
      let intbuf : Arr4 := fun b a j i => H.h2c_oovv j i b a
      let a := column q 1; let b := column q 2; let f := column q 3; let i := column q 4; let m := column q 5; let n := column q 6
      same1 x a * (same1 y b * (same1 z i * (-intbuf w f m n))) + same1 x a * (same1 y b * (same1 z m * (intbuf w f i n))) + same1 x a * (same1 y b * (same1 z n * (intbuf w f m i))) + same1 x f * (same1 y b * (same1 z i * (intbuf w a m n))) + same1 x f * (same1 y b * (same1 z m * (-intbuf w a i n))) + same1 x f * (same1 y b * (same1 z n * (-intbuf w a m i))) + same1 x a * (same1 y f * (same1 z i * (intbuf w b m n))) + same1 x a * (same1 y f * (same1 z m * (-intbuf w b i n))) + same1 x a * (same1 y f * (same1 z n * (-intbuf w b m i)))) q

private def g_vvoC_t3c (H : Arrays) (q : List ℕ) : Arr4 := (fun q w x y z =>
      let intbuf : Arr4 := fun b a j i => H.h2b_oovv i j a b
      let f := column q 1; let a := column q 2; let b := column q 3; let n := column q 4; let i := column q 5; let m := column q 6
      same1 x a * (same1 y b * (same1 z i * (-intbuf w f m n))) + same1 x a * (same1 y b * (same1 z m * (intbuf w f i n)))) q

theorem calcI2c_vvov_eq (X : Dressed) (d : Dims) (H : Arrays) (t3c t3d : Buffer) (h_ab : H.h2b_oovv = one4 X.ab_oovv) (h_bb : H.h2c_oovv = one4 X.bb_oovv) (o_bb : ∀ m n e f, X.bb_oovv n m e f = -X.bb_oovv m n e f) (v_bb : ∀ m n e f, X.bb_oovv m n f e = -X.bb_oovv m n e f) (t3d_fits : Fits (t3d.excits.zip t3d.amps) (ListedAAA d.ub d.ob)) (t3c_fits : Fits (t3c.excits.zip t3c.amps) (ListedABB d.ua d.ub d.oa d.ob)) (h_base : ∀ a b i e, H.h2c_vvov (e + 1) (a + 1) (b + 1) (i + 1) = X.bb_vvov a b i e) (a_base : ∀ a b i e, X.bb_vvov b a i e = -X.bb_vvov a b i e)
    {a b i e : ℕ} (ha : a < d.ub) (hb : b < d.ub) (hab : a ≠ b) :
    calcI2c_vvov d H t3c t3d (fun e a b i => (1 / 2) * H.h2c_vvov e a b i) (e + 1) (a + 1) (b + 1) (i + 1)
      = vvoC X d (TripleList.ofThree (t3d.excits.zip t3d.amps)) (TripleList.ofOneTwo (t3c.excits.zip t3c.amps)) a b i e := by
  unfold calcI2c_vvov
  dsimp only
  rw [antisymmetrizeLoop_eq (n := d.ub) _ ha hb hab]
  simp only [Pi.sub_apply]
  rw [foldl_add (g_vvoC_t3c H), foldl_add (g_vvoC_t3d H), foldl_add (g_vvoC_t3c H), foldl_add (g_vvoC_t3d H)]
  any_goals (intro I x m a i j; simp only [addSlice_eq, g_vvoC_t3d, g_vvoC_t3c]; ring)
  have k_t3d : over (t3d.excits.zip t3d.amps) (fun q => g_vvoC_t3d H q (e + 1) (a + 1) (b + 1) (i + 1) - g_vvoC_t3d H q (e + 1) (b + 1) (a + 1) (i + 1))
      = vvoC_t3d X d (TripleList.ofThree (t3d.excits.zip t3d.amps)) a b i e := by
    refine over_three t3d_fits (vvoC_t3d_linear X d a b i e) ?_
    intro A B C L M N hAB hBC hC hLM hMN hN
    have hB := hBC.trans hC; have hA := hAB.trans hB; have hM := hMN.trans hN; have hL := hLM.trans hM
    simp only [vvoC_t3d]
    rw [sum3_left]
    simp only [sum_alternating3 hA hB hC]
    simp only [sum_sum_alternating3 hL hM hN]
    simp only [g_vvoC_t3d, column, List.getD_cons_zero, List.getD_cons_succ, Nat.reduceSub, delta_succ, h_bb, one4, Nat.add_sub_cancel, o_bb L M, o_bb L N, o_bb M N, v_bb _ _ A B, v_bb _ _ A C, v_bb _ _ B C, alternating2]
    ring
  have k_t3c : over (t3c.excits.zip t3c.amps) (fun q => g_vvoC_t3c H q (e + 1) (a + 1) (b + 1) (i + 1) - g_vvoC_t3c H q (e + 1) (b + 1) (a + 1) (i + 1))
      = vvoC_t3c X d (TripleList.ofOneTwo (t3c.excits.zip t3c.amps)) a b i e := by
    refine over_oneTwo t3c_fits (vvoC_t3c_linear X d a b i e) ?_
    intro A B C L M N hA hBC hC hL hMN hN
    have hB := hBC.trans hC; have hM := hMN.trans hN
    simp only [vvoC_t3c]
    rw [sum3_left]
    simp only [sum_mul_alternating2_first hB hC, sum_delta_mul hA, sum_mul_alternating2 hB hC]
    simp only [sum_pair_zy hM hN hL, sum_pair_zy_first hM hN hL, sum_pair_right hM hN]
    simp only [g_vvoC_t3c, column, List.getD_cons_zero, List.getD_cons_succ, Nat.reduceSub, delta_succ, h_ab, one4, Nat.add_sub_cancel, alternating2]
    ring
  have s : ∀ (t : List (List ℕ × ℚ)) (f g : List ℕ → ℚ), over t (fun q => f q - g q) = over t f - over t g := by
    intro t f g
    have := over_add t (fun q => f q - g q) g
    simp only [sub_add_cancel] at this
    linarith
  rw [s] at k_t3d k_t3c
  simp only [vvoC, h_base, a_base a b i e]
  linarith

end Ccpy.PSpace
