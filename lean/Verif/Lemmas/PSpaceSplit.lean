import Verif.Lemmas.PSpaceEval
import Verif.Lemmas.PSpaceAddSingles
import Verif.Lemmas.PSpaceAddAA
import Verif.Lemmas.PSpaceAddAB
import Verif.Lemmas.PSpaceAddBB

/-! The programs of the single and double excitations with dense and with listed triple excitations. -/

namespace Ccpy.PSpace
open Ccpy.Tensor Ccpy.Fock Ccpy.Rdm
open Finset (range)

section
variable {dim : ℕ → ℕ} {I : ℕ → List (ℕ × ℕ) → ℚ} {x y : Ex}

theorem es_low_1 (hx : x.axes = [0, 0, 1, 1]) (hy : y.axes = [1, 1, 1, 0, 0, 0]) (a i : ℕ) :
    (es% "mnef,aefimn->ai" x, y).denote dim I [a, i] = ∑ m ∈ range (dim 0), ∑ n ∈ range (dim 0), ∑ e ∈ range (dim 1), ∑ f ∈ range (dim 1), x.denote dim I [m, n, e, f] * y.denote dim I [a, e, f, i, m, n] := by
  simp only [Ex.denote, Body.letters, hx, hy, Body.denote, mul_one]
  rfl

theorem es_low_2 (hx : x.axes = [0, 2, 1, 3]) (hy : y.axes = [1, 1, 3, 0, 0, 2]) (a i : ℕ) :
    (es% "mnef,aefimn->ai" x, y).denote dim I [a, i] = ∑ m ∈ range (dim 0), ∑ n ∈ range (dim 2), ∑ e ∈ range (dim 1), ∑ f ∈ range (dim 3), x.denote dim I [m, n, e, f] * y.denote dim I [a, e, f, i, m, n] := by
  simp only [Ex.denote, Body.letters, hx, hy, Body.denote, mul_one]
  rfl

theorem es_low_3 (hx : x.axes = [2, 2, 3, 3]) (hy : y.axes = [1, 3, 3, 0, 2, 2]) (a i : ℕ) :
    (es% "mnef,aefimn->ai" x, y).denote dim I [a, i] = ∑ m ∈ range (dim 2), ∑ n ∈ range (dim 2), ∑ e ∈ range (dim 3), ∑ f ∈ range (dim 3), x.denote dim I [m, n, e, f] * y.denote dim I [a, e, f, i, m, n] := by
  simp only [Ex.denote, Body.letters, hx, hy, Body.denote, mul_one]
  rfl

theorem es_low_4 (hx : x.axes = [0, 0, 1, 1]) (hy : y.axes = [1, 1, 3, 0, 0, 2]) (a i : ℕ) :
    (es% "mnef,efamni->ai" x, y).denote dim I [a, i] = ∑ m ∈ range (dim 0), ∑ n ∈ range (dim 0), ∑ e ∈ range (dim 1), ∑ f ∈ range (dim 1), x.denote dim I [m, n, e, f] * y.denote dim I [e, f, a, m, n, i] := by
  simp only [Ex.denote, Body.letters, hx, hy, Body.denote, mul_one]
  rfl

theorem es_low_5 (hx : x.axes = [0, 2, 1, 3]) (hy : y.axes = [1, 3, 3, 0, 2, 2]) (a i : ℕ) :
    (es% "mnef,efamni->ai" x, y).denote dim I [a, i] = ∑ m ∈ range (dim 0), ∑ n ∈ range (dim 2), ∑ e ∈ range (dim 1), ∑ f ∈ range (dim 3), x.denote dim I [m, n, e, f] * y.denote dim I [e, f, a, m, n, i] := by
  simp only [Ex.denote, Body.letters, hx, hy, Body.denote, mul_one]
  rfl

theorem es_low_6 (hx : x.axes = [2, 2, 3, 3]) (hy : y.axes = [3, 3, 3, 2, 2, 2]) (a i : ℕ) :
    (es% "mnef,aefimn->ai" x, y).denote dim I [a, i] = ∑ m ∈ range (dim 2), ∑ n ∈ range (dim 2), ∑ e ∈ range (dim 3), ∑ f ∈ range (dim 3), x.denote dim I [m, n, e, f] * y.denote dim I [a, e, f, i, m, n] := by
  simp only [Ex.denote, Body.letters, hx, hy, Body.denote, mul_one]
  rfl

theorem es_low_7 (hx : x.axes = [0, 1]) (hy : y.axes = [1, 1, 1, 0, 0, 0]) (a b i j : ℕ) :
    (es% "me,abeijm->abij" x, y).denote dim I [a, b, i, j] = ∑ m ∈ range (dim 0), ∑ e ∈ range (dim 1), x.denote dim I [m, e] * y.denote dim I [a, b, e, i, j, m] := by
  simp only [Ex.denote, Body.letters, hx, hy, Body.denote, mul_one]
  rfl

theorem es_low_8 (hx : x.axes = [0, 0, 0, 1]) (hy : y.axes = [1, 1, 1, 0, 0, 0]) (a b i j : ℕ) :
    (es% "mnif,abfmjn->abij" x, y).denote dim I [a, b, i, j] = ∑ m ∈ range (dim 0), ∑ n ∈ range (dim 0), ∑ f ∈ range (dim 1), x.denote dim I [m, n, i, f] * y.denote dim I [a, b, f, m, j, n] := by
  simp only [Ex.denote, Body.letters, hx, hy, Body.denote, mul_one]
  rfl

theorem es_low_9 (hx : x.axes = [1, 0, 1, 1]) (hy : y.axes = [1, 1, 1, 0, 0, 0]) (a b i j : ℕ) :
    (es% "anef,ebfijn->abij" x, y).denote dim I [a, b, i, j] = ∑ n ∈ range (dim 0), ∑ e ∈ range (dim 1), ∑ f ∈ range (dim 1), x.denote dim I [a, n, e, f] * y.denote dim I [e, b, f, i, j, n] := by
  simp only [Ex.denote, Body.letters, hx, hy, Body.denote, mul_one]
  rfl

theorem es_low_10 (hx : x.axes = [2, 3]) (hy : y.axes = [1, 1, 3, 0, 0, 2]) (a b i j : ℕ) :
    (es% "me,abeijm->abij" x, y).denote dim I [a, b, i, j] = ∑ m ∈ range (dim 2), ∑ e ∈ range (dim 3), x.denote dim I [m, e] * y.denote dim I [a, b, e, i, j, m] := by
  simp only [Ex.denote, Body.letters, hx, hy, Body.denote, mul_one]
  rfl

theorem es_low_11 (hx : x.axes = [0, 2, 0, 3]) (hy : y.axes = [1, 1, 3, 0, 0, 2]) (a b i j : ℕ) :
    (es% "mnif,abfmjn->abij" x, y).denote dim I [a, b, i, j] = ∑ m ∈ range (dim 0), ∑ n ∈ range (dim 2), ∑ f ∈ range (dim 3), x.denote dim I [m, n, i, f] * y.denote dim I [a, b, f, m, j, n] := by
  simp only [Ex.denote, Body.letters, hx, hy, Body.denote, mul_one]
  rfl

theorem es_low_12 (hx : x.axes = [1, 2, 1, 3]) (hy : y.axes = [1, 1, 3, 0, 0, 2]) (a b i j : ℕ) :
    (es% "anef,ebfijn->abij" x, y).denote dim I [a, b, i, j] = ∑ n ∈ range (dim 2), ∑ e ∈ range (dim 1), ∑ f ∈ range (dim 3), x.denote dim I [a, n, e, f] * y.denote dim I [e, b, f, i, j, n] := by
  simp only [Ex.denote, Body.letters, hx, hy, Body.denote, mul_one]
  rfl

theorem es_low_13 (hx : x.axes = [0, 0, 0, 1]) (hy : y.axes = [1, 1, 3, 0, 0, 2]) (a b i j : ℕ) :
    (es% "mnif,afbmnj->abij" x, y).denote dim I [a, b, i, j] = ∑ m ∈ range (dim 0), ∑ n ∈ range (dim 0), ∑ f ∈ range (dim 1), x.denote dim I [m, n, i, f] * y.denote dim I [a, f, b, m, n, j] := by
  simp only [Ex.denote, Body.letters, hx, hy, Body.denote, mul_one]
  rfl

theorem es_low_14 (hx : x.axes = [0, 2, 1, 2]) (hy : y.axes = [1, 1, 3, 0, 0, 2]) (a b i j : ℕ) :
    (es% "nmfj,afbinm->abij" x, y).denote dim I [a, b, i, j] = ∑ n ∈ range (dim 0), ∑ m ∈ range (dim 2), ∑ f ∈ range (dim 1), x.denote dim I [n, m, f, j] * y.denote dim I [a, f, b, i, n, m] := by
  simp only [Ex.denote, Body.letters, hx, hy, Body.denote, mul_one]
  rfl

theorem es_low_15 (hx : x.axes = [1, 0, 1, 1]) (hy : y.axes = [1, 1, 3, 0, 0, 2]) (a b i j : ℕ) :
    (es% "anef,efbinj->abij" x, y).denote dim I [a, b, i, j] = ∑ n ∈ range (dim 0), ∑ e ∈ range (dim 1), ∑ f ∈ range (dim 1), x.denote dim I [a, n, e, f] * y.denote dim I [e, f, b, i, n, j] := by
  simp only [Ex.denote, Body.letters, hx, hy, Body.denote, mul_one]
  rfl

theorem es_low_16 (hx : x.axes = [0, 3, 1, 3]) (hy : y.axes = [1, 1, 3, 0, 0, 2]) (a b i j : ℕ) :
    (es% "nbfe,afeinj->abij" x, y).denote dim I [a, b, i, j] = ∑ n ∈ range (dim 0), ∑ f ∈ range (dim 1), ∑ e ∈ range (dim 3), x.denote dim I [n, b, f, e] * y.denote dim I [a, f, e, i, n, j] := by
  simp only [Ex.denote, Body.letters, hx, hy, Body.denote, mul_one]
  rfl

theorem es_low_17 (hx : x.axes = [0, 1]) (hy : y.axes = [1, 1, 3, 0, 0, 2]) (a b i j : ℕ) :
    (es% "me,aebimj->abij" x, y).denote dim I [a, b, i, j] = ∑ m ∈ range (dim 0), ∑ e ∈ range (dim 1), x.denote dim I [m, e] * y.denote dim I [a, e, b, i, m, j] := by
  simp only [Ex.denote, Body.letters, hx, hy, Body.denote, mul_one]
  rfl

theorem es_low_18 (hx : x.axes = [2, 2, 2, 3]) (hy : y.axes = [1, 3, 3, 0, 2, 2]) (a b i j : ℕ) :
    (es% "mnjf,afbinm->abij" x, y).denote dim I [a, b, i, j] = ∑ m ∈ range (dim 2), ∑ n ∈ range (dim 2), ∑ f ∈ range (dim 3), x.denote dim I [m, n, j, f] * y.denote dim I [a, f, b, i, n, m] := by
  simp only [Ex.denote, Body.letters, hx, hy, Body.denote, mul_one]
  rfl

theorem es_low_19 (hx : x.axes = [0, 2, 0, 3]) (hy : y.axes = [1, 3, 3, 0, 2, 2]) (a b i j : ℕ) :
    (es% "mnif,afbmnj->abij" x, y).denote dim I [a, b, i, j] = ∑ m ∈ range (dim 0), ∑ n ∈ range (dim 2), ∑ f ∈ range (dim 3), x.denote dim I [m, n, i, f] * y.denote dim I [a, f, b, m, n, j] := by
  simp only [Ex.denote, Body.letters, hx, hy, Body.denote, mul_one]
  rfl

theorem es_low_20 (hx : x.axes = [3, 2, 3, 3]) (hy : y.axes = [1, 3, 3, 0, 2, 2]) (a b i j : ℕ) :
    (es% "bnef,afeinj->abij" x, y).denote dim I [a, b, i, j] = ∑ n ∈ range (dim 2), ∑ e ∈ range (dim 3), ∑ f ∈ range (dim 3), x.denote dim I [b, n, e, f] * y.denote dim I [a, f, e, i, n, j] := by
  simp only [Ex.denote, Body.letters, hx, hy, Body.denote, mul_one]
  rfl

theorem es_low_21 (hx : x.axes = [1, 2, 1, 3]) (hy : y.axes = [1, 3, 3, 0, 2, 2]) (a b i j : ℕ) :
    (es% "anef,efbinj->abij" x, y).denote dim I [a, b, i, j] = ∑ n ∈ range (dim 2), ∑ e ∈ range (dim 1), ∑ f ∈ range (dim 3), x.denote dim I [a, n, e, f] * y.denote dim I [e, f, b, i, n, j] := by
  simp only [Ex.denote, Body.letters, hx, hy, Body.denote, mul_one]
  rfl

theorem es_low_22 (hx : x.axes = [2, 3]) (hy : y.axes = [1, 3, 3, 0, 2, 2]) (a b i j : ℕ) :
    (es% "me,aebimj->abij" x, y).denote dim I [a, b, i, j] = ∑ m ∈ range (dim 2), ∑ e ∈ range (dim 3), x.denote dim I [m, e] * y.denote dim I [a, e, b, i, m, j] := by
  simp only [Ex.denote, Body.letters, hx, hy, Body.denote, mul_one]
  rfl

theorem es_low_23 (hx : x.axes = [0, 1]) (hy : y.axes = [1, 3, 3, 0, 2, 2]) (a b i j : ℕ) :
    (es% "me,eabmij->abij" x, y).denote dim I [a, b, i, j] = ∑ m ∈ range (dim 0), ∑ e ∈ range (dim 1), x.denote dim I [m, e] * y.denote dim I [e, a, b, m, i, j] := by
  simp only [Ex.denote, Body.letters, hx, hy, Body.denote, mul_one]
  rfl

theorem es_low_24 (hx : x.axes = [0, 3, 1, 3]) (hy : y.axes = [1, 3, 3, 0, 2, 2]) (a b i j : ℕ) :
    (es% "nafe,febnij->abij" x, y).denote dim I [a, b, i, j] = ∑ n ∈ range (dim 0), ∑ f ∈ range (dim 1), ∑ e ∈ range (dim 3), x.denote dim I [n, a, f, e] * y.denote dim I [f, e, b, n, i, j] := by
  simp only [Ex.denote, Body.letters, hx, hy, Body.denote, mul_one]
  rfl

theorem es_low_25 (hx : x.axes = [0, 2, 1, 2]) (hy : y.axes = [1, 3, 3, 0, 2, 2]) (a b i j : ℕ) :
    (es% "nmfi,fabnmj->abij" x, y).denote dim I [a, b, i, j] = ∑ n ∈ range (dim 0), ∑ m ∈ range (dim 2), ∑ f ∈ range (dim 1), x.denote dim I [n, m, f, i] * y.denote dim I [f, a, b, n, m, j] := by
  simp only [Ex.denote, Body.letters, hx, hy, Body.denote, mul_one]
  rfl

theorem es_low_26 (hx : x.axes = [2, 3]) (hy : y.axes = [3, 3, 3, 2, 2, 2]) (a b i j : ℕ) :
    (es% "me,abeijm->abij" x, y).denote dim I [a, b, i, j] = ∑ m ∈ range (dim 2), ∑ e ∈ range (dim 3), x.denote dim I [m, e] * y.denote dim I [a, b, e, i, j, m] := by
  simp only [Ex.denote, Body.letters, hx, hy, Body.denote, mul_one]
  rfl

theorem es_low_27 (hx : x.axes = [2, 2, 2, 3]) (hy : y.axes = [3, 3, 3, 2, 2, 2]) (a b i j : ℕ) :
    (es% "mnif,abfmjn->abij" x, y).denote dim I [a, b, i, j] = ∑ m ∈ range (dim 2), ∑ n ∈ range (dim 2), ∑ f ∈ range (dim 3), x.denote dim I [m, n, i, f] * y.denote dim I [a, b, f, m, j, n] := by
  simp only [Ex.denote, Body.letters, hx, hy, Body.denote, mul_one]
  rfl

theorem es_low_28 (hx : x.axes = [3, 2, 3, 3]) (hy : y.axes = [3, 3, 3, 2, 2, 2]) (a b i j : ℕ) :
    (es% "anef,ebfijn->abij" x, y).denote dim I [a, b, i, j] = ∑ n ∈ range (dim 2), ∑ e ∈ range (dim 3), ∑ f ∈ range (dim 3), x.denote dim I [a, n, e, f] * y.denote dim I [e, b, f, i, j, n] := by
  simp only [Ex.denote, Body.letters, hx, hy, Body.denote, mul_one]
  rfl

end

section
variable {dim : ℕ → ℕ} {I : ℕ → List (ℕ × ℕ) → ℚ} {T : Ccsdt.Amps3}

/-- The axes of the arrays. -/
structure Axes (H : Ints) : Prop where
  h2a_oovv : H.aa.oovv.axes = [0, 0, 1, 1]
  h2b_oovv : H.ab.oovv.axes = [0, 2, 1, 3]
  h2c_oovv : H.bb.oovv.axes = [2, 2, 3, 3]
  h1a_ov : H.a.ov.axes = [0, 1]
  h2a_ooov : H.aa.ooov.axes = [0, 0, 0, 1]
  h2a_vovv : H.aa.vovv.axes = [1, 0, 1, 1]
  h1b_ov : H.b.ov.axes = [2, 3]
  h2b_ooov : H.ab.ooov.axes = [0, 2, 0, 3]
  h2b_vovv : H.ab.vovv.axes = [1, 2, 1, 3]
  h2b_oovo : H.ab.oovo.axes = [0, 2, 1, 2]
  h2b_ovvv : H.ab.ovvv.axes = [0, 3, 1, 3]
  h2c_ooov : H.bb.ooov.axes = [2, 2, 2, 3]
  h2c_vovv : H.bb.vovv.axes = [3, 2, 3, 3]

structure Axes3 (T : Ccsdt.Amps3) : Prop where
  aaa : T.aaa.axes = [1, 1, 1, 0, 0, 0]
  aab : T.aab.axes = [1, 1, 3, 0, 0, 2]
  abb : T.abb.axes = [1, 3, 3, 0, 2, 2]
  bbb : T.bbb.axes = [3, 3, 3, 2, 2, 2]

theorem residualT1a_split (X H : Ints) (hH : Axes H) (h3 : Axes3 T) (a i : ℕ) :
    (Ccsdt.residualT1a T X H).denote dim I [a, i] = (residualT1a T.toAmps X H).denote dim I [a, i]
      + t1a_t3a_h2a_oovv (fun p q r s => H.aa.oovv.denote dim I [p, q, r, s]) ⟨dim 0, dim 1, dim 2, dim 3⟩ (fun a b c i j k => T.aaa.denote dim I [a, b, c, i, j, k]) a i
      + t1a_t3b_h2b_oovv (fun p q r s => H.ab.oovv.denote dim I [p, q, r, s]) ⟨dim 0, dim 1, dim 2, dim 3⟩ (fun a b c i j k => T.aab.denote dim I [a, b, c, i, j, k]) a i
      + t1a_t3c_h2c_oovv (fun p q r s => H.bb.oovv.denote dim I [p, q, r, s]) ⟨dim 0, dim 1, dim 2, dim 3⟩ (fun a b c i j k => T.abb.denote dim I [a, b, c, i, j, k]) a i := by
  unfold Ccsdt.residualT1a residualT1a t1a_t3a_h2a_oovv t1a_t3b_h2b_oovv t1a_t3c_h2c_oovv
  dsimp only
  simp only [denote_add, denote_sub, denote_neg, denote_half, denote_quarter, denote_eighth,
    es_low_1 (x := H.aa.oovv) (y := T.aaa) hH.h2a_oovv h3.aaa,
    es_low_2 (x := H.ab.oovv) (y := T.aab) hH.h2b_oovv h3.aab,
    es_low_3 (x := H.bb.oovv) (y := T.abb) hH.h2c_oovv h3.abb]
  ring

theorem residualT1b_split (X H : Ints) (hH : Axes H) (h3 : Axes3 T) (a i : ℕ) :
    (Ccsdt.residualT1b T X H).denote dim I [a, i] = (residualT1b T.toAmps X H).denote dim I [a, i]
      + t1b_t3b_h2a_oovv (fun p q r s => H.aa.oovv.denote dim I [p, q, r, s]) ⟨dim 0, dim 1, dim 2, dim 3⟩ (fun a b c i j k => T.aab.denote dim I [a, b, c, i, j, k]) a i
      + t1b_t3c_h2b_oovv (fun p q r s => H.ab.oovv.denote dim I [p, q, r, s]) ⟨dim 0, dim 1, dim 2, dim 3⟩ (fun a b c i j k => T.abb.denote dim I [a, b, c, i, j, k]) a i
      + t1b_t3d_h2c_oovv (fun p q r s => H.bb.oovv.denote dim I [p, q, r, s]) ⟨dim 0, dim 1, dim 2, dim 3⟩ (fun a b c i j k => T.bbb.denote dim I [a, b, c, i, j, k]) a i := by
  unfold Ccsdt.residualT1b residualT1b t1b_t3b_h2a_oovv t1b_t3c_h2b_oovv t1b_t3d_h2c_oovv
  dsimp only
  simp only [denote_add, denote_sub, denote_neg, denote_half, denote_quarter, denote_eighth,
    es_low_4 (x := H.aa.oovv) (y := T.aab) hH.h2a_oovv h3.aab,
    es_low_5 (x := H.ab.oovv) (y := T.abb) hH.h2b_oovv h3.abb,
    es_low_6 (x := H.bb.oovv) (y := T.bbb) hH.h2c_oovv h3.bbb]
  ring

theorem residualT2a_split (H H0 : Ints) (hH : Axes H) (hH0 : Axes H0) (h3 : Axes3 T) (a b i j : ℕ) :
    (Ccsdt.residualT2a T H H0).denote dim I [a, b, i, j] = (residualT2a T.toAmps H H0).denote dim I [a, b, i, j]
      + t2a_t3a_h1a_ov (fun p q => H.a.ov.denote dim I [p, q]) ⟨dim 0, dim 1, dim 2, dim 3⟩ (fun a b c i j k => T.aaa.denote dim I [a, b, c, i, j, k]) a b i j
      + t2a_t3a_h2a_ooov (fun p q r s => (H0.aa.ooov + H.aa.ooov).denote dim I [p, q, r, s]) ⟨dim 0, dim 1, dim 2, dim 3⟩ (fun a b c i j k => T.aaa.denote dim I [a, b, c, i, j, k]) a b i j
      + t2a_t3a_h2a_vovv (fun p q r s => (H0.aa.vovv + H.aa.vovv).denote dim I [p, q, r, s]) ⟨dim 0, dim 1, dim 2, dim 3⟩ (fun a b c i j k => T.aaa.denote dim I [a, b, c, i, j, k]) a b i j
      + t2a_t3b_h1b_ov (fun p q => H.b.ov.denote dim I [p, q]) ⟨dim 0, dim 1, dim 2, dim 3⟩ (fun a b c i j k => T.aab.denote dim I [a, b, c, i, j, k]) a b i j
      + t2a_t3b_h2b_ooov (fun p q r s => (H0.ab.ooov + H.ab.ooov).denote dim I [p, q, r, s]) ⟨dim 0, dim 1, dim 2, dim 3⟩ (fun a b c i j k => T.aab.denote dim I [a, b, c, i, j, k]) a b i j
      + t2a_t3b_h2b_vovv (fun p q r s => (H0.ab.vovv + H.ab.vovv).denote dim I [p, q, r, s]) ⟨dim 0, dim 1, dim 2, dim 3⟩ (fun a b c i j k => T.aab.denote dim I [a, b, c, i, j, k]) a b i j := by
  unfold Ccsdt.residualT2a residualT2a t2a_t3a_h1a_ov t2a_t3a_h2a_ooov t2a_t3a_h2a_vovv t2a_t3b_h1b_ov t2a_t3b_h2b_ooov t2a_t3b_h2b_vovv
  dsimp only
  simp only [denote_add, denote_sub, denote_neg, denote_half, denote_quarter, denote_eighth,
    es_low_7 (x := H.a.ov) (y := T.aaa) hH.h1a_ov h3.aaa,
    es_low_8 (x := (H0.aa.ooov + H.aa.ooov)) (y := T.aaa) (show (H0.aa.ooov + H.aa.ooov).axes = _ from hH0.h2a_ooov) h3.aaa,
    es_low_9 (x := (H0.aa.vovv + H.aa.vovv)) (y := T.aaa) (show (H0.aa.vovv + H.aa.vovv).axes = _ from hH0.h2a_vovv) h3.aaa,
    es_low_10 (x := H.b.ov) (y := T.aab) hH.h1b_ov h3.aab,
    es_low_11 (x := (H0.ab.ooov + H.ab.ooov)) (y := T.aab) (show (H0.ab.ooov + H.ab.ooov).axes = _ from hH0.h2b_ooov) h3.aab,
    es_low_12 (x := (H0.ab.vovv + H.ab.vovv)) (y := T.aab) (show (H0.ab.vovv + H.ab.vovv).axes = _ from hH0.h2b_vovv) h3.aab]
  ring

theorem residualT2b_split (H H0 : Ints) (hH : Axes H) (hH0 : Axes H0) (h3 : Axes3 T) (a b i j : ℕ) :
    (Ccsdt.residualT2b T H H0).denote dim I [a, b, i, j] = (residualT2b T.toAmps H H0).denote dim I [a, b, i, j]
      + t2b_t3b_h2a_ooov (fun p q r s => (H0.aa.ooov + H.aa.ooov).denote dim I [p, q, r, s]) ⟨dim 0, dim 1, dim 2, dim 3⟩ (fun a b c i j k => T.aab.denote dim I [a, b, c, i, j, k]) a b i j
      + t2b_t3b_h2b_oovo (fun p q r s => (H0.ab.oovo + H.ab.oovo).denote dim I [p, q, r, s]) ⟨dim 0, dim 1, dim 2, dim 3⟩ (fun a b c i j k => T.aab.denote dim I [a, b, c, i, j, k]) a b i j
      + t2b_t3b_h2a_vovv (fun p q r s => (H0.aa.vovv + H.aa.vovv).denote dim I [p, q, r, s]) ⟨dim 0, dim 1, dim 2, dim 3⟩ (fun a b c i j k => T.aab.denote dim I [a, b, c, i, j, k]) a b i j
      + t2b_t3b_h2b_ovvv (fun p q r s => (H0.ab.ovvv + H.ab.ovvv).denote dim I [p, q, r, s]) ⟨dim 0, dim 1, dim 2, dim 3⟩ (fun a b c i j k => T.aab.denote dim I [a, b, c, i, j, k]) a b i j
      + t2b_t3b_h1a_ov (fun p q => H.a.ov.denote dim I [p, q]) ⟨dim 0, dim 1, dim 2, dim 3⟩ (fun a b c i j k => T.aab.denote dim I [a, b, c, i, j, k]) a b i j
      + t2b_t3c_h2c_ooov (fun p q r s => (H0.bb.ooov + H.bb.ooov).denote dim I [p, q, r, s]) ⟨dim 0, dim 1, dim 2, dim 3⟩ (fun a b c i j k => T.abb.denote dim I [a, b, c, i, j, k]) a b i j
      + t2b_t3c_h2b_ooov (fun p q r s => (H0.ab.ooov + H.ab.ooov).denote dim I [p, q, r, s]) ⟨dim 0, dim 1, dim 2, dim 3⟩ (fun a b c i j k => T.abb.denote dim I [a, b, c, i, j, k]) a b i j
      + t2b_t3c_h2c_vovv (fun p q r s => (H0.bb.vovv + H.bb.vovv).denote dim I [p, q, r, s]) ⟨dim 0, dim 1, dim 2, dim 3⟩ (fun a b c i j k => T.abb.denote dim I [a, b, c, i, j, k]) a b i j
      + t2b_t3c_h2b_vovv (fun p q r s => (H0.ab.vovv + H.ab.vovv).denote dim I [p, q, r, s]) ⟨dim 0, dim 1, dim 2, dim 3⟩ (fun a b c i j k => T.abb.denote dim I [a, b, c, i, j, k]) a b i j
      + t2b_t3c_h1b_ov (fun p q => H.b.ov.denote dim I [p, q]) ⟨dim 0, dim 1, dim 2, dim 3⟩ (fun a b c i j k => T.abb.denote dim I [a, b, c, i, j, k]) a b i j := by
  unfold Ccsdt.residualT2b residualT2b t2b_t3b_h2a_ooov t2b_t3b_h2b_oovo t2b_t3b_h2a_vovv t2b_t3b_h2b_ovvv t2b_t3b_h1a_ov t2b_t3c_h2c_ooov t2b_t3c_h2b_ooov t2b_t3c_h2c_vovv t2b_t3c_h2b_vovv t2b_t3c_h1b_ov
  dsimp only
  simp only [denote_add, denote_sub, denote_neg, denote_half, denote_quarter, denote_eighth,
    es_low_13 (x := (H0.aa.ooov + H.aa.ooov)) (y := T.aab) (show (H0.aa.ooov + H.aa.ooov).axes = _ from hH0.h2a_ooov) h3.aab,
    es_low_14 (x := (H0.ab.oovo + H.ab.oovo)) (y := T.aab) (show (H0.ab.oovo + H.ab.oovo).axes = _ from hH0.h2b_oovo) h3.aab,
    es_low_15 (x := (H0.aa.vovv + H.aa.vovv)) (y := T.aab) (show (H0.aa.vovv + H.aa.vovv).axes = _ from hH0.h2a_vovv) h3.aab,
    es_low_16 (x := (H0.ab.ovvv + H.ab.ovvv)) (y := T.aab) (show (H0.ab.ovvv + H.ab.ovvv).axes = _ from hH0.h2b_ovvv) h3.aab,
    es_low_17 (x := H.a.ov) (y := T.aab) hH.h1a_ov h3.aab,
    es_low_18 (x := (H0.bb.ooov + H.bb.ooov)) (y := T.abb) (show (H0.bb.ooov + H.bb.ooov).axes = _ from hH0.h2c_ooov) h3.abb,
    es_low_19 (x := (H0.ab.ooov + H.ab.ooov)) (y := T.abb) (show (H0.ab.ooov + H.ab.ooov).axes = _ from hH0.h2b_ooov) h3.abb,
    es_low_20 (x := (H0.bb.vovv + H.bb.vovv)) (y := T.abb) (show (H0.bb.vovv + H.bb.vovv).axes = _ from hH0.h2c_vovv) h3.abb,
    es_low_21 (x := (H0.ab.vovv + H.ab.vovv)) (y := T.abb) (show (H0.ab.vovv + H.ab.vovv).axes = _ from hH0.h2b_vovv) h3.abb,
    es_low_22 (x := H.b.ov) (y := T.abb) hH.h1b_ov h3.abb]
  ring

theorem residualT2c_split (H H0 : Ints) (hH : Axes H) (hH0 : Axes H0) (h3 : Axes3 T) (a b i j : ℕ) :
    (Ccsdt.residualT2c T H H0).denote dim I [a, b, i, j] = (residualT2c T.toAmps H H0).denote dim I [a, b, i, j]
      + t2c_t3c_h1a_ov (fun p q => H.a.ov.denote dim I [p, q]) ⟨dim 0, dim 1, dim 2, dim 3⟩ (fun a b c i j k => T.abb.denote dim I [a, b, c, i, j, k]) a b i j
      + t2c_t3c_h2b_ovvv (fun p q r s => (H0.ab.ovvv + H.ab.ovvv).denote dim I [p, q, r, s]) ⟨dim 0, dim 1, dim 2, dim 3⟩ (fun a b c i j k => T.abb.denote dim I [a, b, c, i, j, k]) a b i j
      + t2c_t3c_h2b_oovo (fun p q r s => (H0.ab.oovo + H.ab.oovo).denote dim I [p, q, r, s]) ⟨dim 0, dim 1, dim 2, dim 3⟩ (fun a b c i j k => T.abb.denote dim I [a, b, c, i, j, k]) a b i j
      + t2c_t3d_h1b_ov (fun p q => H.b.ov.denote dim I [p, q]) ⟨dim 0, dim 1, dim 2, dim 3⟩ (fun a b c i j k => T.bbb.denote dim I [a, b, c, i, j, k]) a b i j
      + t2c_t3d_h2c_ooov (fun p q r s => (H0.bb.ooov + H.bb.ooov).denote dim I [p, q, r, s]) ⟨dim 0, dim 1, dim 2, dim 3⟩ (fun a b c i j k => T.bbb.denote dim I [a, b, c, i, j, k]) a b i j
      + t2c_t3d_h2c_vovv (fun p q r s => (H0.bb.vovv + H.bb.vovv).denote dim I [p, q, r, s]) ⟨dim 0, dim 1, dim 2, dim 3⟩ (fun a b c i j k => T.bbb.denote dim I [a, b, c, i, j, k]) a b i j := by
  unfold Ccsdt.residualT2c residualT2c t2c_t3c_h1a_ov t2c_t3c_h2b_ovvv t2c_t3c_h2b_oovo t2c_t3d_h1b_ov t2c_t3d_h2c_ooov t2c_t3d_h2c_vovv
  dsimp only
  simp only [denote_add, denote_sub, denote_neg, denote_half, denote_quarter, denote_eighth,
    es_low_23 (x := H.a.ov) (y := T.abb) hH.h1a_ov h3.abb,
    es_low_24 (x := (H0.ab.ovvv + H.ab.ovvv)) (y := T.abb) (show (H0.ab.ovvv + H.ab.ovvv).axes = _ from hH0.h2b_ovvv) h3.abb,
    es_low_25 (x := (H0.ab.oovo + H.ab.oovo)) (y := T.abb) (show (H0.ab.oovo + H.ab.oovo).axes = _ from hH0.h2b_oovo) h3.abb,
    es_low_26 (x := H.b.ov) (y := T.bbb) hH.h1b_ov h3.bbb,
    es_low_27 (x := (H0.bb.ooov + H.bb.ooov)) (y := T.bbb) (show (H0.bb.ooov + H.bb.ooov).axes = _ from hH0.h2c_ooov) h3.bbb,
    es_low_28 (x := (H0.bb.vovv + H.bb.vovv)) (y := T.bbb) (show (H0.bb.vovv + H.bb.vovv).axes = _ from hH0.h2c_vovv) h3.bbb]
  ring

end

end Ccpy.PSpace
