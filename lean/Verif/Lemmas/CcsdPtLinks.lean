import Verif.Lemmas.CcsdPtChecks
import Verif.Lemmas.CcsdPtSums
import Verif.Lemmas.CrCcLeft
import Verif.Spec.CcsdPt

/-! The numbers `temp1` and `temp1 + temp3` of the CCSD(T) kernels as tensor expressions. -/

set_option linter.unusedSimpArgs false

namespace Ccpy.CrCc
open Ccpy.Fock Ccpy.Tensor Ccpy.Engine Ccpy.HbarCcsd Ccpy.Ccsdt Ccpy.PSpace Ccpy.Rdm Ccpy.Ccsd
open Finset (range)

section
variable {dim : ℕ → ℕ} {I : ℕ → List (ℕ × ℕ) → ℚ} {x y : Ex}

theorem pt_1 (hx : x.axes = [1, 0, 0, 0]) (hy : y.axes = [1, 1, 0, 0]) (a b c i j k : ℕ) :
    (es% "amij,bcmk->abcijk" x, y).denote dim I [a, b, c, i, j, k] = ∑ m ∈ range (dim 0), x.denote dim I [a, m, i, j] * y.denote dim I [b, c, m, k] := by
  simp only [Ex.denote, Body.letters, hx, hy, Body.denote, mul_one]
  rfl

theorem pt_2 (hx : x.axes = [1, 0, 0, 0]) (hy : y.axes = [1, 1, 0, 0]) (a b c i j k : ℕ) :
    (es% "amkj,bcmi->abcijk" x, y).denote dim I [a, b, c, i, j, k] = ∑ m ∈ range (dim 0), x.denote dim I [a, m, k, j] * y.denote dim I [b, c, m, i] := by
  simp only [Ex.denote, Body.letters, hx, hy, Body.denote, mul_one]
  rfl

theorem pt_3 (hx : x.axes = [1, 0, 0, 0]) (hy : y.axes = [1, 1, 0, 0]) (a b c i j k : ℕ) :
    (es% "amik,bcmj->abcijk" x, y).denote dim I [a, b, c, i, j, k] = ∑ m ∈ range (dim 0), x.denote dim I [a, m, i, k] * y.denote dim I [b, c, m, j] := by
  simp only [Ex.denote, Body.letters, hx, hy, Body.denote, mul_one]
  rfl

theorem pt_4 (hx : x.axes = [1, 1, 0, 1]) (hy : y.axes = [1, 1, 0, 0]) (a b c i j k : ℕ) :
    (es% "abie,ecjk->abcijk" x, y).denote dim I [a, b, c, i, j, k] = ∑ e ∈ range (dim 1), x.denote dim I [a, b, i, e] * y.denote dim I [e, c, j, k] := by
  simp only [Ex.denote, Body.letters, hx, hy, Body.denote, mul_one]
  rfl

theorem pt_5 (hx : x.axes = [1, 1, 0, 1]) (hy : y.axes = [1, 1, 0, 0]) (a b c i j k : ℕ) :
    (es% "abje,ecik->abcijk" x, y).denote dim I [a, b, c, i, j, k] = ∑ e ∈ range (dim 1), x.denote dim I [a, b, j, e] * y.denote dim I [e, c, i, k] := by
  simp only [Ex.denote, Body.letters, hx, hy, Body.denote, mul_one]
  rfl

theorem pt_6 (hx : x.axes = [1, 1, 0, 1]) (hy : y.axes = [1, 1, 0, 0]) (a b c i j k : ℕ) :
    (es% "abke,ecji->abcijk" x, y).denote dim I [a, b, c, i, j, k] = ∑ e ∈ range (dim 1), x.denote dim I [a, b, k, e] * y.denote dim I [e, c, j, i] := by
  simp only [Ex.denote, Body.letters, hx, hy, Body.denote, mul_one]
  rfl

theorem pt_7 (hx : x.axes = [1, 1, 0, 0]) (hy : y.axes = [1, 3, 1, 2]) (a b c i j k : ℕ) :
    (es% "aeij,bcek->abcijk" x, y).denote dim I [a, b, c, i, j, k] = ∑ e ∈ range (dim 1), x.denote dim I [a, e, i, j] * y.denote dim I [b, c, e, k] := by
  simp only [Ex.denote, Body.letters, hx, hy, Body.denote, mul_one]
  rfl

theorem pt_8 (hx : x.axes = [1, 1, 0, 0]) (hy : y.axes = [0, 3, 0, 2]) (a b c i j k : ℕ) :
    (es% "abmi,mcjk->abcijk" x, y).denote dim I [a, b, c, i, j, k] = ∑ m ∈ range (dim 0), x.denote dim I [a, b, m, i] * y.denote dim I [m, c, j, k] := by
  simp only [Ex.denote, Body.letters, hx, hy, Body.denote, mul_one]
  rfl

theorem pt_9 (hx : x.axes = [1, 1, 0, 0]) (hy : y.axes = [0, 3, 0, 2]) (a b c i j k : ℕ) :
    (es% "abmj,mcik->abcijk" x, y).denote dim I [a, b, c, i, j, k] = ∑ m ∈ range (dim 0), x.denote dim I [a, b, m, j] * y.denote dim I [m, c, i, k] := by
  simp only [Ex.denote, Body.letters, hx, hy, Body.denote, mul_one]
  rfl

theorem pt_10 (hx : x.axes = [1, 3, 0, 2]) (hy : y.axes = [1, 3, 0, 3]) (a b c i j k : ℕ) :
    (es% "aeik,bcje->abcijk" x, y).denote dim I [a, b, c, i, j, k] = ∑ e ∈ range (dim 3), x.denote dim I [a, e, i, k] * y.denote dim I [b, c, j, e] := by
  simp only [Ex.denote, Body.letters, hx, hy, Body.denote, mul_one]
  rfl

theorem pt_11 (hx : x.axes = [1, 3, 0, 2]) (hy : y.axes = [1, 3, 0, 3]) (a b c i j k : ℕ) :
    (es% "aejk,bcie->abcijk" x, y).denote dim I [a, b, c, i, j, k] = ∑ e ∈ range (dim 3), x.denote dim I [a, e, j, k] * y.denote dim I [b, c, i, e] := by
  simp only [Ex.denote, Body.letters, hx, hy, Body.denote, mul_one]
  rfl

theorem pt_12 (hx : x.axes = [1, 2, 0, 2]) (hy : y.axes = [1, 3, 0, 2]) (a b c i j k : ℕ) :
    (es% "amik,bcjm->abcijk" x, y).denote dim I [a, b, c, i, j, k] = ∑ m ∈ range (dim 2), x.denote dim I [a, m, i, k] * y.denote dim I [b, c, j, m] := by
  simp only [Ex.denote, Body.letters, hx, hy, Body.denote, mul_one]
  rfl

theorem pt_13 (hx : x.axes = [1, 2, 0, 2]) (hy : y.axes = [1, 3, 0, 2]) (a b c i j k : ℕ) :
    (es% "amjk,bcim->abcijk" x, y).denote dim I [a, b, c, i, j, k] = ∑ m ∈ range (dim 2), x.denote dim I [a, m, j, k] * y.denote dim I [b, c, i, m] := by
  simp only [Ex.denote, Body.letters, hx, hy, Body.denote, mul_one]
  rfl

theorem pt_14 (hx : x.axes = [1, 1, 0, 1]) (hy : y.axes = [1, 3, 0, 2]) (a b c i j k : ℕ) :
    (es% "abie,ecjk->abcijk" x, y).denote dim I [a, b, c, i, j, k] = ∑ e ∈ range (dim 1), x.denote dim I [a, b, i, e] * y.denote dim I [e, c, j, k] := by
  simp only [Ex.denote, Body.letters, hx, hy, Body.denote, mul_one]
  rfl

theorem pt_15 (hx : x.axes = [1, 1, 0, 1]) (hy : y.axes = [1, 3, 0, 2]) (a b c i j k : ℕ) :
    (es% "abje,ecik->abcijk" x, y).denote dim I [a, b, c, i, j, k] = ∑ e ∈ range (dim 1), x.denote dim I [a, b, j, e] * y.denote dim I [e, c, i, k] := by
  simp only [Ex.denote, Body.letters, hx, hy, Body.denote, mul_one]
  rfl

theorem pt_16 (hx : x.axes = [1, 0, 0, 0]) (hy : y.axes = [1, 3, 0, 2]) (a b c i j k : ℕ) :
    (es% "amij,bcmk->abcijk" x, y).denote dim I [a, b, c, i, j, k] = ∑ m ∈ range (dim 0), x.denote dim I [a, m, i, j] * y.denote dim I [b, c, m, k] := by
  simp only [Ex.denote, Body.letters, hx, hy, Body.denote, mul_one]
  rfl

theorem pt_17 (hx : x.axes = [1, 3, 0, 3]) (hy : y.axes = [3, 3, 2, 2]) (a b c i j k : ℕ) :
    (es% "abie,ecjk->abcijk" x, y).denote dim I [a, b, c, i, j, k] = ∑ e ∈ range (dim 3), x.denote dim I [a, b, i, e] * y.denote dim I [e, c, j, k] := by
  simp only [Ex.denote, Body.letters, hx, hy, Body.denote, mul_one]
  rfl

theorem pt_18 (hx : x.axes = [1, 2, 0, 2]) (hy : y.axes = [3, 3, 2, 2]) (a b c i j k : ℕ) :
    (es% "amij,bcmk->abcijk" x, y).denote dim I [a, b, c, i, j, k] = ∑ m ∈ range (dim 2), x.denote dim I [a, m, i, j] * y.denote dim I [b, c, m, k] := by
  simp only [Ex.denote, Body.letters, hx, hy, Body.denote, mul_one]
  rfl

theorem pt_19 (hx : x.axes = [1, 2, 0, 2]) (hy : y.axes = [3, 3, 2, 2]) (a b c i j k : ℕ) :
    (es% "amik,bcmj->abcijk" x, y).denote dim I [a, b, c, i, j, k] = ∑ m ∈ range (dim 2), x.denote dim I [a, m, i, k] * y.denote dim I [b, c, m, j] := by
  simp only [Ex.denote, Body.letters, hx, hy, Body.denote, mul_one]
  rfl

theorem pt_20 (hx : x.axes = [1, 3, 0, 2]) (hy : y.axes = [3, 3, 2, 3]) (a b c i j k : ℕ) :
    (es% "aeij,cbke->abcijk" x, y).denote dim I [a, b, c, i, j, k] = ∑ e ∈ range (dim 3), x.denote dim I [a, e, i, j] * y.denote dim I [c, b, k, e] := by
  simp only [Ex.denote, Body.letters, hx, hy, Body.denote, mul_one]
  rfl

theorem pt_21 (hx : x.axes = [1, 3, 0, 2]) (hy : y.axes = [3, 3, 2, 3]) (a b c i j k : ℕ) :
    (es% "aeik,cbje->abcijk" x, y).denote dim I [a, b, c, i, j, k] = ∑ e ∈ range (dim 3), x.denote dim I [a, e, i, k] * y.denote dim I [c, b, j, e] := by
  simp only [Ex.denote, Body.letters, hx, hy, Body.denote, mul_one]
  rfl

theorem pt_22 (hx : x.axes = [1, 3, 0, 2]) (hy : y.axes = [3, 2, 2, 2]) (a b c i j k : ℕ) :
    (es% "abim,cmkj->abcijk" x, y).denote dim I [a, b, c, i, j, k] = ∑ m ∈ range (dim 2), x.denote dim I [a, b, i, m] * y.denote dim I [c, m, k, j] := by
  simp only [Ex.denote, Body.letters, hx, hy, Body.denote, mul_one]
  rfl

theorem pt_23 (hx : x.axes = [1, 3, 1, 2]) (hy : y.axes = [1, 3, 0, 2]) (a b c i j k : ℕ) :
    (es% "abej,ecik->abcijk" x, y).denote dim I [a, b, c, i, j, k] = ∑ e ∈ range (dim 1), x.denote dim I [a, b, e, j] * y.denote dim I [e, c, i, k] := by
  simp only [Ex.denote, Body.letters, hx, hy, Body.denote, mul_one]
  rfl

theorem pt_24 (hx : x.axes = [1, 3, 1, 2]) (hy : y.axes = [1, 3, 0, 2]) (a b c i j k : ℕ) :
    (es% "abek,ecij->abcijk" x, y).denote dim I [a, b, c, i, j, k] = ∑ e ∈ range (dim 1), x.denote dim I [a, b, e, k] * y.denote dim I [e, c, i, j] := by
  simp only [Ex.denote, Body.letters, hx, hy, Body.denote, mul_one]
  rfl

theorem pt_25 (hx : x.axes = [1, 3, 0, 2]) (hy : y.axes = [0, 3, 0, 2]) (a b c i j k : ℕ) :
    (es% "abmj,mcik->abcijk" x, y).denote dim I [a, b, c, i, j, k] = ∑ m ∈ range (dim 0), x.denote dim I [a, b, m, j] * y.denote dim I [m, c, i, k] := by
  simp only [Ex.denote, Body.letters, hx, hy, Body.denote, mul_one]
  rfl

theorem pt_26 (hx : x.axes = [1, 3, 0, 2]) (hy : y.axes = [0, 3, 0, 2]) (a b c i j k : ℕ) :
    (es% "abmk,mcij->abcijk" x, y).denote dim I [a, b, c, i, j, k] = ∑ m ∈ range (dim 0), x.denote dim I [a, b, m, k] * y.denote dim I [m, c, i, j] := by
  simp only [Ex.denote, Body.letters, hx, hy, Body.denote, mul_one]
  rfl

theorem pt_27 (hx : x.axes = [3, 2, 2, 2]) (hy : y.axes = [3, 3, 2, 2]) (a b c i j k : ℕ) :
    (es% "amij,bcmk->abcijk" x, y).denote dim I [a, b, c, i, j, k] = ∑ m ∈ range (dim 2), x.denote dim I [a, m, i, j] * y.denote dim I [b, c, m, k] := by
  simp only [Ex.denote, Body.letters, hx, hy, Body.denote, mul_one]
  rfl

theorem pt_28 (hx : x.axes = [3, 2, 2, 2]) (hy : y.axes = [3, 3, 2, 2]) (a b c i j k : ℕ) :
    (es% "amkj,bcmi->abcijk" x, y).denote dim I [a, b, c, i, j, k] = ∑ m ∈ range (dim 2), x.denote dim I [a, m, k, j] * y.denote dim I [b, c, m, i] := by
  simp only [Ex.denote, Body.letters, hx, hy, Body.denote, mul_one]
  rfl

theorem pt_29 (hx : x.axes = [3, 2, 2, 2]) (hy : y.axes = [3, 3, 2, 2]) (a b c i j k : ℕ) :
    (es% "amik,bcmj->abcijk" x, y).denote dim I [a, b, c, i, j, k] = ∑ m ∈ range (dim 2), x.denote dim I [a, m, i, k] * y.denote dim I [b, c, m, j] := by
  simp only [Ex.denote, Body.letters, hx, hy, Body.denote, mul_one]
  rfl

theorem pt_30 (hx : x.axes = [3, 3, 2, 3]) (hy : y.axes = [3, 3, 2, 2]) (a b c i j k : ℕ) :
    (es% "abie,ecjk->abcijk" x, y).denote dim I [a, b, c, i, j, k] = ∑ e ∈ range (dim 3), x.denote dim I [a, b, i, e] * y.denote dim I [e, c, j, k] := by
  simp only [Ex.denote, Body.letters, hx, hy, Body.denote, mul_one]
  rfl

theorem pt_31 (hx : x.axes = [3, 3, 2, 3]) (hy : y.axes = [3, 3, 2, 2]) (a b c i j k : ℕ) :
    (es% "abje,ecik->abcijk" x, y).denote dim I [a, b, c, i, j, k] = ∑ e ∈ range (dim 3), x.denote dim I [a, b, j, e] * y.denote dim I [e, c, i, k] := by
  simp only [Ex.denote, Body.letters, hx, hy, Body.denote, mul_one]
  rfl

theorem pt_32 (hx : x.axes = [3, 3, 2, 3]) (hy : y.axes = [3, 3, 2, 2]) (a b c i j k : ℕ) :
    (es% "abke,ecji->abcijk" x, y).denote dim I [a, b, c, i, j, k] = ∑ e ∈ range (dim 3), x.denote dim I [a, b, k, e] * y.denote dim I [e, c, j, i] := by
  simp only [Ex.denote, Body.letters, hx, hy, Body.denote, mul_one]
  rfl

end

theorem ax_pt_H_a_ov : stored.a.ov.axes = [0, 1] := rfl
theorem ax_pt_H_aa_ooov : stored.aa.ooov.axes = [0, 0, 0, 1] := rfl
theorem ax_pt_H_aa_oovv : stored.aa.oovv.axes = [0, 0, 1, 1] := rfl
theorem ax_pt_H_aa_vooo : stored.aa.vooo.axes = [1, 0, 0, 0] := rfl
theorem ax_pt_H_aa_vovv : stored.aa.vovv.axes = [1, 0, 1, 1] := rfl
theorem ax_pt_H_aa_vvov : stored.aa.vvov.axes = [1, 1, 0, 1] := rfl
theorem ax_pt_H_ab_ooov : stored.ab.ooov.axes = [0, 2, 0, 3] := rfl
theorem ax_pt_H_ab_oovo : stored.ab.oovo.axes = [0, 2, 1, 2] := rfl
theorem ax_pt_H_ab_oovv : stored.ab.oovv.axes = [0, 2, 1, 3] := rfl
theorem ax_pt_H_ab_ovoo : stored.ab.ovoo.axes = [0, 3, 0, 2] := rfl
theorem ax_pt_H_ab_ovvv : stored.ab.ovvv.axes = [0, 3, 1, 3] := rfl
theorem ax_pt_H_ab_vooo : stored.ab.vooo.axes = [1, 2, 0, 2] := rfl
theorem ax_pt_H_ab_vovv : stored.ab.vovv.axes = [1, 2, 1, 3] := rfl
theorem ax_pt_H_ab_vvov : stored.ab.vvov.axes = [1, 3, 0, 3] := rfl
theorem ax_pt_H_ab_vvvo : stored.ab.vvvo.axes = [1, 3, 1, 2] := rfl
theorem ax_pt_H_b_ov : stored.b.ov.axes = [2, 3] := rfl
theorem ax_pt_H_bb_ooov : stored.bb.ooov.axes = [2, 2, 2, 3] := rfl
theorem ax_pt_H_bb_oovv : stored.bb.oovv.axes = [2, 2, 3, 3] := rfl
theorem ax_pt_H_bb_vooo : stored.bb.vooo.axes = [3, 2, 2, 2] := rfl
theorem ax_pt_H_bb_vovv : stored.bb.vovv.axes = [3, 2, 3, 3] := rfl
theorem ax_pt_H_bb_vvov : stored.bb.vvov.axes = [3, 3, 2, 3] := rfl
theorem ax_pt_T_a : amplitudes.a.axes = [1, 0] := rfl
theorem ax_pt_T_aa : amplitudes.aa.axes = [1, 1, 0, 0] := rfl
theorem ax_pt_T_ab : amplitudes.ab.axes = [1, 3, 0, 2] := rfl
theorem ax_pt_T_b : amplitudes.b.axes = [3, 2] := rfl
theorem ax_pt_T_bb : amplitudes.bb.axes = [3, 3, 2, 2] := rfl

/-- Both pairs exchanged. -/
theorem flip_real {v : ℕ → ℕ → ℕ → ℕ → ℚ} (hs : ∀ p q r s, v p q r s = v r s p q)
    (hv : Antisymmetric v) (p q r s : ℕ) : v p q r s = v s r q p := by
  rw [hs p q r s, (hv s r p q).1, (hv s r q p).2, neg_neg]

variable {ι : Type*} [LinearOrder ι]

theorem pt_moment_a (s : Setup) (m : Memory) (a b c i j k : ℕ) : (callPtA s m amplitudes stored).moment (dimsOf s) (i + 1) (j + 1) (k + 1) (a + 1) (b + 1) (c + 1)
    = s.eval m (m3a amplitudes stored) [a, b, c, i, j, k] := by
  delta m3a
  extract_lets x
  have hx : x.axes = [1, 1, 1, 0, 0, 0] := rfl
  have vx : ∀ a b c i j k, x.denote (dims s.n s.na s.nb) (Tensor.elements s.na s.nb s.f s.v m) [a, b, c, i, j, k] = (callPtA s m amplitudes stored).x3a (dimsOf s) (i + 1) (j + 1) (k + 1) (a + 1) (b + 1) (c + 1) := fun a b c i j k => by
    simp only [x, denote_add, denote_sub, denote_neg, denote_half, pt_1 ax_pt_H_aa_vooo ax_pt_T_aa, pt_2 ax_pt_H_aa_vooo ax_pt_T_aa, pt_3 ax_pt_H_aa_vooo ax_pt_T_aa, pt_4 ax_pt_H_aa_vvov ax_pt_T_aa, pt_5 ax_pt_H_aa_vvov ax_pt_T_aa, pt_6 ax_pt_H_aa_vvov ax_pt_T_aa]
    simp only [PtA.x3a, sumTo_eq, neg_mul]
    rfl
  simp only [Setup.eval, denote_add, denote_sub, transpose_201 hx, transpose_120 hx, transpose_021 hx, transpose_102 hx, transpose_210 hx, vx]
  rfl

theorem pt_fock_a (s : Setup) (m : Memory) (a b c i j k : ℕ) : (callPtA s m amplitudes stored).temp3f (i + 1) (j + 1) (k + 1) (a + 1) (b + 1) (c + 1)
    = s.eval m (f3a amplitudes stored) [a, b, c, i, j, k] := by
  simp only [Setup.eval, f3a, denote_add, denote_sub, es_16 ax_pt_H_a_ov ax_pt_T_aa, es_17 ax_pt_H_a_ov ax_pt_T_aa, es_18 ax_pt_H_a_ov ax_pt_T_aa, es_19 ax_pt_H_a_ov ax_pt_T_aa, es_20 ax_pt_H_a_ov ax_pt_T_aa, es_21 ax_pt_H_a_ov ax_pt_T_aa, es_22 ax_pt_H_a_ov ax_pt_T_aa, es_23 ax_pt_H_a_ov ax_pt_T_aa, es_24 ax_pt_H_a_ov ax_pt_T_aa]
  rfl

theorem pt_left_a {S : Orbitals ι} {Z : Fock.Integrals} (hZ : Z.Antisym) (hs : Z.Real) (shift : ℚ) (m : Memory) (a b c i j k : ℕ) :
    (callPtA (setup S Z shift) m amplitudes stored).left (dimsOf (setup S Z shift)) (i + 1) (j + 1) (k + 1) (a + 1) (b + 1) (c + 1)
      = (setup S Z shift).eval m (l3a amplitudes stored) [a, b, c, i, j, k] := by
  delta l3a
  extract_lets x y
  have hx : x.axes = [1, 1, 1, 0, 0, 0] := rfl
  have s0 : ∀ e i b a, Ex.denote (dims (setup S Z shift).n (setup S Z shift).na (setup S Z shift).nb) (Tensor.elements (setup S Z shift).na (setup S Z shift).nb (setup S Z shift).f (setup S Z shift).v m) stored.aa.vovv [e, i, b, a] = (callPtA (setup S Z shift) m amplitudes stored).i2a_vvov (a + 1) (b + 1) (i + 1) (e + 1) := fun e i b a => by
    show Z.vAA (S.na + e) i (S.na + b) (S.na + a) = Z.vAA (S.na + a) (S.na + b) i (S.na + e)
    exact flip_real hs.aa hZ.aa _ _ _ _
  have s1 : ∀ j i g a, Ex.denote (dims (setup S Z shift).n (setup S Z shift).na (setup S Z shift).nb) (Tensor.elements (setup S Z shift).na (setup S Z shift).nb (setup S Z shift).f (setup S Z shift).v m) stored.aa.ooov [j, i, g, a] = (callPtA (setup S Z shift) m amplitudes stored).va_vooo (a + 1) (g + 1) (i + 1) (j + 1) := fun j i g a => by
    show Z.vAA j i g (S.na + a) = Z.vAA (S.na + a) g i j
    exact flip_real hs.aa hZ.aa _ _ _ _
  have t0 : ∀ p q, Ex.denote (dims (setup S Z shift).n (setup S Z shift).na (setup S Z shift).nb) (Tensor.elements (setup S Z shift).na (setup S Z shift).nb (setup S Z shift).f (setup S Z shift).v m) amplitudes.a [p, q] = (callPtA (setup S Z shift) m amplitudes stored).t1a (p + 1) (q + 1) := fun _ _ => rfl
  have t1 : ∀ p q r s, Ex.denote (dims (setup S Z shift).n (setup S Z shift).na (setup S Z shift).nb) (Tensor.elements (setup S Z shift).na (setup S Z shift).nb (setup S Z shift).f (setup S Z shift).v m) amplitudes.aa [p, q, r, s] = (callPtA (setup S Z shift) m amplitudes stored).t2a (p + 1) (q + 1) (r + 1) (s + 1) := fun _ _ _ _ => rfl
  have t2 : ∀ p q r s, Ex.denote (dims (setup S Z shift).n (setup S Z shift).na (setup S Z shift).nb) (Tensor.elements (setup S Z shift).na (setup S Z shift).nb (setup S Z shift).f (setup S Z shift).v m) stored.aa.oovv [p, q, r, s] = (callPtA (setup S Z shift) m amplitudes stored).va_oovv (p + 1) (q + 1) (r + 1) (s + 1) := fun _ _ _ _ => rfl
  have t3 : ∀ p q, Ex.denote (dims (setup S Z shift).n (setup S Z shift).na (setup S Z shift).nb) (Tensor.elements (setup S Z shift).na (setup S Z shift).nb (setup S Z shift).f (setup S Z shift).v m) stored.a.ov [p, q] = (callPtA (setup S Z shift) m amplitudes stored).fa_ov (p + 1) (q + 1) := fun _ _ => rfl
  have d0 : dims (setup S Z shift).n (setup S Z shift).na (setup S Z shift).nb 0 = (dimsOf (setup S Z shift)).oa := rfl
  have d1 : dims (setup S Z shift).n (setup S Z shift).na (setup S Z shift).nb 1 = (dimsOf (setup S Z shift)).ua := rfl
  have d2 : dims (setup S Z shift).n (setup S Z shift).na (setup S Z shift).nb 2 = (dimsOf (setup S Z shift)).ob := rfl
  have d3 : dims (setup S Z shift).n (setup S Z shift).na (setup S Z shift).nb 3 = (dimsOf (setup S Z shift)).ub := rfl
  have vx : ∀ a b c i j k, x.denote (dims (setup S Z shift).n (setup S Z shift).na (setup S Z shift).nb) (Tensor.elements (setup S Z shift).na (setup S Z shift).nb (setup S Z shift).f (setup S Z shift).v m) [a, b, c, i, j, k]
      = (callPtA (setup S Z shift) m amplitudes stored).x3a (dimsOf (setup S Z shift)) (i + 1) (j + 1) (k + 1) (a + 1) (b + 1) (c + 1) := fun a b c i j k => by
    simp only [x, denote_add, denote_sub, denote_half, es_1 ax_pt_H_aa_vovv ax_pt_T_aa, es_2 ax_pt_H_aa_vovv ax_pt_T_aa, es_3 ax_pt_H_aa_vovv ax_pt_T_aa, es_4 ax_pt_H_aa_ooov ax_pt_T_aa, es_5 ax_pt_H_aa_ooov ax_pt_T_aa, es_6 ax_pt_H_aa_ooov ax_pt_T_aa]
    simp only [s0, s1, PtA.x3a, sumTo_eq, t0, t1, d0, d1, d2, d3, mul_comm]
    ring
  have vy : y.denote (dims (setup S Z shift).n (setup S Z shift).na (setup S Z shift).nb) (Tensor.elements (setup S Z shift).na (setup S Z shift).nb (setup S Z shift).f (setup S Z shift).v m) [a, b, c, i, j, k]
      = (callPtA (setup S Z shift) m amplitudes stored).temp3 (i + 1) (j + 1) (k + 1) (a + 1) (b + 1) (c + 1) + (callPtA (setup S Z shift) m amplitudes stored).temp3f (i + 1) (j + 1) (k + 1) (a + 1) (b + 1) (c + 1) := by
    simp only [y, denote_add, denote_sub, es_7 ax_pt_T_a ax_pt_H_aa_oovv, es_8 ax_pt_T_a ax_pt_H_aa_oovv, es_9 ax_pt_T_a ax_pt_H_aa_oovv, es_10 ax_pt_T_a ax_pt_H_aa_oovv, es_11 ax_pt_T_a ax_pt_H_aa_oovv, es_12 ax_pt_T_a ax_pt_H_aa_oovv, es_13 ax_pt_T_a ax_pt_H_aa_oovv, es_14 ax_pt_T_a ax_pt_H_aa_oovv, es_15 ax_pt_T_a ax_pt_H_aa_oovv, es_16 ax_pt_H_a_ov ax_pt_T_aa, es_17 ax_pt_H_a_ov ax_pt_T_aa, es_18 ax_pt_H_a_ov ax_pt_T_aa, es_19 ax_pt_H_a_ov ax_pt_T_aa, es_20 ax_pt_H_a_ov ax_pt_T_aa, es_21 ax_pt_H_a_ov ax_pt_T_aa, es_22 ax_pt_H_a_ov ax_pt_T_aa, es_23 ax_pt_H_a_ov ax_pt_T_aa, es_24 ax_pt_H_a_ov ax_pt_T_aa]
    simp only [t0, t1, t2, t3, PtA.temp3, PtA.temp3f]
    ring
  simp only [Setup.eval, denote_add, denote_sub, transpose_201 hx, transpose_120 hx, transpose_021 hx, transpose_102 hx, transpose_210 hx, vx, vy]
  rfl

theorem pt_moment_b (s : Setup) (m : Memory) (a b c i j k : ℕ) : (callPtB s m amplitudes stored).moment (dimsOf s) (i + 1) (j + 1) (k + 1) (a + 1) (b + 1) (c + 1)
    = s.eval m (m3b amplitudes stored) [a, b, c, i, j, k] := by
  delta m3b
  extract_lets x
  have hx : x.axes = [1, 1, 3, 0, 0, 2] := rfl
  have vx : ∀ a b c i j k, x.denote (dims s.n s.na s.nb) (Tensor.elements s.na s.nb s.f s.v m) [a, b, c, i, j, k] = (callPtB s m amplitudes stored).x3b (dimsOf s) (i + 1) (j + 1) (k + 1) (a + 1) (b + 1) (c + 1) := fun a b c i j k => by
    simp only [x, denote_add, denote_sub, denote_neg, denote_half, pt_7 ax_pt_T_aa ax_pt_H_ab_vvvo, pt_8 ax_pt_T_aa ax_pt_H_ab_ovoo, pt_9 ax_pt_T_aa ax_pt_H_ab_ovoo, pt_10 ax_pt_T_ab ax_pt_H_ab_vvov, pt_11 ax_pt_T_ab ax_pt_H_ab_vvov, pt_12 ax_pt_H_ab_vooo ax_pt_T_ab, pt_13 ax_pt_H_ab_vooo ax_pt_T_ab, pt_14 ax_pt_H_aa_vvov ax_pt_T_ab, pt_15 ax_pt_H_aa_vvov ax_pt_T_ab, pt_16 ax_pt_H_aa_vooo ax_pt_T_ab]
    simp only [PtB.x3b, sumTo_eq, neg_mul]
    rfl
  simp only [Setup.eval, denote_add, denote_sub, transpose_102 hx, vx]
  rfl

theorem pt_fock_b (s : Setup) (m : Memory) (a b c i j k : ℕ) : (callPtB s m amplitudes stored).temp3f (i + 1) (j + 1) (k + 1) (a + 1) (b + 1) (c + 1)
    = s.eval m (f3b amplitudes stored) [a, b, c, i, j, k] := by
  simp only [Setup.eval, f3b, denote_add, denote_sub, es_40 ax_pt_T_ab ax_pt_H_a_ov, es_41 ax_pt_T_ab ax_pt_H_a_ov, es_42 ax_pt_T_ab ax_pt_H_a_ov, es_43 ax_pt_T_ab ax_pt_H_a_ov, es_44 ax_pt_T_aa ax_pt_H_b_ov]
  rfl

theorem pt_left_b {S : Orbitals ι} {Z : Fock.Integrals} (hZ : Z.Antisym) (hs : Z.Real) (shift : ℚ) (m : Memory) (a b c i j k : ℕ) :
    (callPtB (setup S Z shift) m amplitudes stored).left (dimsOf (setup S Z shift)) (i + 1) (j + 1) (k + 1) (a + 1) (b + 1) (c + 1)
      = (setup S Z shift).eval m (l3b amplitudes stored) [a, b, c, i, j, k] := by
  delta l3b
  extract_lets x y
  have hx : x.axes = [1, 1, 3, 0, 0, 2] := rfl
  have s0 : ∀ e k b c, Ex.denote (dims (setup S Z shift).n (setup S Z shift).na (setup S Z shift).nb) (Tensor.elements (setup S Z shift).na (setup S Z shift).nb (setup S Z shift).f (setup S Z shift).v m) stored.ab.vovv [e, k, b, c] = (callPtB (setup S Z shift) m amplitudes stored).vb_vvvo (b + 1) (c + 1) (e + 1) (k + 1) := fun e k b c => by
    show Z.vAB (S.na + e) k (S.na + b) (S.nb + c) = Z.vAB (S.na + b) (S.nb + c) (S.na + e) k
    exact hs.ab _ _ _ _
  have s1 : ∀ e i b a, Ex.denote (dims (setup S Z shift).n (setup S Z shift).na (setup S Z shift).nb) (Tensor.elements (setup S Z shift).na (setup S Z shift).nb (setup S Z shift).f (setup S Z shift).v m) stored.aa.vovv [e, i, b, a] = (callPtB (setup S Z shift) m amplitudes stored).va_vvov (a + 1) (b + 1) (i + 1) (e + 1) := fun e i b a => by
    show Z.vAA (S.na + e) i (S.na + b) (S.na + a) = Z.vAA (S.na + a) (S.na + b) i (S.na + e)
    exact flip_real hs.aa hZ.aa _ _ _ _
  have s2 : ∀ j e b c, Ex.denote (dims (setup S Z shift).n (setup S Z shift).na (setup S Z shift).nb) (Tensor.elements (setup S Z shift).na (setup S Z shift).nb (setup S Z shift).f (setup S Z shift).v m) stored.ab.ovvv [j, e, b, c] = (callPtB (setup S Z shift) m amplitudes stored).vb_vvov (b + 1) (c + 1) (j + 1) (e + 1) := fun j e b c => by
    show Z.vAB j (S.nb + e) (S.na + b) (S.nb + c) = Z.vAB (S.na + b) (S.nb + c) j (S.nb + e)
    exact hs.ab _ _ _ _
  have s3 : ∀ j k g c, Ex.denote (dims (setup S Z shift).n (setup S Z shift).na (setup S Z shift).nb) (Tensor.elements (setup S Z shift).na (setup S Z shift).nb (setup S Z shift).f (setup S Z shift).v m) stored.ab.ooov [j, k, g, c] = (callPtB (setup S Z shift) m amplitudes stored).i2b_ovoo (g + 1) (c + 1) (j + 1) (k + 1) := fun j k g c => by
    show Z.vAB j k g (S.nb + c) = Z.vAB g (S.nb + c) j k
    exact hs.ab _ _ _ _
  have s4 : ∀ j i g a, Ex.denote (dims (setup S Z shift).n (setup S Z shift).na (setup S Z shift).nb) (Tensor.elements (setup S Z shift).na (setup S Z shift).nb (setup S Z shift).f (setup S Z shift).v m) stored.aa.ooov [j, i, g, a] = (callPtB (setup S Z shift) m amplitudes stored).i2a_vooo (a + 1) (g + 1) (i + 1) (j + 1) := fun j i g a => by
    show Z.vAA j i g (S.na + a) = Z.vAA (S.na + a) g i j
    exact flip_real hs.aa hZ.aa _ _ _ _
  have s5 : ∀ i k a g, Ex.denote (dims (setup S Z shift).n (setup S Z shift).na (setup S Z shift).nb) (Tensor.elements (setup S Z shift).na (setup S Z shift).nb (setup S Z shift).f (setup S Z shift).v m) stored.ab.oovo [i, k, a, g] = (callPtB (setup S Z shift) m amplitudes stored).i2b_vooo (a + 1) (g + 1) (i + 1) (k + 1) := fun i k a g => by
    show Z.vAB i k (S.na + a) g = Z.vAB (S.na + a) g i k
    exact hs.ab _ _ _ _
  have t0 : ∀ p q, Ex.denote (dims (setup S Z shift).n (setup S Z shift).na (setup S Z shift).nb) (Tensor.elements (setup S Z shift).na (setup S Z shift).nb (setup S Z shift).f (setup S Z shift).v m) amplitudes.a [p, q] = (callPtB (setup S Z shift) m amplitudes stored).t1a (p + 1) (q + 1) := fun _ _ => rfl
  have t1 : ∀ p q, Ex.denote (dims (setup S Z shift).n (setup S Z shift).na (setup S Z shift).nb) (Tensor.elements (setup S Z shift).na (setup S Z shift).nb (setup S Z shift).f (setup S Z shift).v m) amplitudes.b [p, q] = (callPtB (setup S Z shift) m amplitudes stored).t1b (p + 1) (q + 1) := fun _ _ => rfl
  have t2 : ∀ p q r s, Ex.denote (dims (setup S Z shift).n (setup S Z shift).na (setup S Z shift).nb) (Tensor.elements (setup S Z shift).na (setup S Z shift).nb (setup S Z shift).f (setup S Z shift).v m) amplitudes.aa [p, q, r, s] = (callPtB (setup S Z shift) m amplitudes stored).t2a (p + 1) (q + 1) (r + 1) (s + 1) := fun _ _ _ _ => rfl
  have t3 : ∀ p q r s, Ex.denote (dims (setup S Z shift).n (setup S Z shift).na (setup S Z shift).nb) (Tensor.elements (setup S Z shift).na (setup S Z shift).nb (setup S Z shift).f (setup S Z shift).v m) amplitudes.ab [p, q, r, s] = (callPtB (setup S Z shift) m amplitudes stored).t2b (p + 1) (q + 1) (r + 1) (s + 1) := fun _ _ _ _ => rfl
  have t4 : ∀ p q r s, Ex.denote (dims (setup S Z shift).n (setup S Z shift).na (setup S Z shift).nb) (Tensor.elements (setup S Z shift).na (setup S Z shift).nb (setup S Z shift).f (setup S Z shift).v m) stored.aa.oovv [p, q, r, s] = (callPtB (setup S Z shift) m amplitudes stored).va_oovv (p + 1) (q + 1) (r + 1) (s + 1) := fun _ _ _ _ => rfl
  have t5 : ∀ p q r s, Ex.denote (dims (setup S Z shift).n (setup S Z shift).na (setup S Z shift).nb) (Tensor.elements (setup S Z shift).na (setup S Z shift).nb (setup S Z shift).f (setup S Z shift).v m) stored.ab.oovv [p, q, r, s] = (callPtB (setup S Z shift) m amplitudes stored).vb_oovv (p + 1) (q + 1) (r + 1) (s + 1) := fun _ _ _ _ => rfl
  have t6 : ∀ p q, Ex.denote (dims (setup S Z shift).n (setup S Z shift).na (setup S Z shift).nb) (Tensor.elements (setup S Z shift).na (setup S Z shift).nb (setup S Z shift).f (setup S Z shift).v m) stored.a.ov [p, q] = (callPtB (setup S Z shift) m amplitudes stored).fa_ov (p + 1) (q + 1) := fun _ _ => rfl
  have t7 : ∀ p q, Ex.denote (dims (setup S Z shift).n (setup S Z shift).na (setup S Z shift).nb) (Tensor.elements (setup S Z shift).na (setup S Z shift).nb (setup S Z shift).f (setup S Z shift).v m) stored.b.ov [p, q] = (callPtB (setup S Z shift) m amplitudes stored).fb_ov (p + 1) (q + 1) := fun _ _ => rfl
  have d0 : dims (setup S Z shift).n (setup S Z shift).na (setup S Z shift).nb 0 = (dimsOf (setup S Z shift)).oa := rfl
  have d1 : dims (setup S Z shift).n (setup S Z shift).na (setup S Z shift).nb 1 = (dimsOf (setup S Z shift)).ua := rfl
  have d2 : dims (setup S Z shift).n (setup S Z shift).na (setup S Z shift).nb 2 = (dimsOf (setup S Z shift)).ob := rfl
  have d3 : dims (setup S Z shift).n (setup S Z shift).na (setup S Z shift).nb 3 = (dimsOf (setup S Z shift)).ub := rfl
  have vx : ∀ a b c i j k, x.denote (dims (setup S Z shift).n (setup S Z shift).na (setup S Z shift).nb) (Tensor.elements (setup S Z shift).na (setup S Z shift).nb (setup S Z shift).f (setup S Z shift).v m) [a, b, c, i, j, k]
      = (callPtB (setup S Z shift) m amplitudes stored).x3b (dimsOf (setup S Z shift)) (i + 1) (j + 1) (k + 1) (a + 1) (b + 1) (c + 1) := fun a b c i j k => by
    simp only [x, denote_add, denote_sub, denote_half, es_25 ax_pt_T_aa ax_pt_H_ab_vovv, es_26 ax_pt_H_aa_vovv ax_pt_T_ab, es_27 ax_pt_H_aa_vovv ax_pt_T_ab, es_28 ax_pt_T_ab ax_pt_H_ab_ovvv, es_29 ax_pt_T_ab ax_pt_H_ab_ovvv, es_30 ax_pt_T_aa ax_pt_H_ab_ooov, es_31 ax_pt_T_aa ax_pt_H_ab_ooov, es_32 ax_pt_H_aa_ooov ax_pt_T_ab, es_33 ax_pt_H_ab_oovo ax_pt_T_ab, es_34 ax_pt_H_ab_oovo ax_pt_T_ab]
    simp only [s0, s1, s2, s3, s4, s5, PtB.x3b, sumTo_eq, t0, t1, t2, t3, d0, d1, d2, d3, mul_comm]
    ring
  have vy : y.denote (dims (setup S Z shift).n (setup S Z shift).na (setup S Z shift).nb) (Tensor.elements (setup S Z shift).na (setup S Z shift).nb (setup S Z shift).f (setup S Z shift).v m) [a, b, c, i, j, k]
      = (callPtB (setup S Z shift) m amplitudes stored).temp3 (i + 1) (j + 1) (k + 1) (a + 1) (b + 1) (c + 1) + (callPtB (setup S Z shift) m amplitudes stored).temp3f (i + 1) (j + 1) (k + 1) (a + 1) (b + 1) (c + 1) := by
    simp only [y, denote_add, denote_sub, es_35 ax_pt_T_a ax_pt_H_ab_oovv, es_36 ax_pt_T_a ax_pt_H_ab_oovv, es_37 ax_pt_T_a ax_pt_H_ab_oovv, es_38 ax_pt_T_a ax_pt_H_ab_oovv, es_39 ax_pt_T_b ax_pt_H_aa_oovv, es_40 ax_pt_T_ab ax_pt_H_a_ov, es_41 ax_pt_T_ab ax_pt_H_a_ov, es_42 ax_pt_T_ab ax_pt_H_a_ov, es_43 ax_pt_T_ab ax_pt_H_a_ov, es_44 ax_pt_T_aa ax_pt_H_b_ov]
    simp only [t0, t1, t2, t3, t4, t5, t6, t7, PtB.temp3, PtB.temp3f]
    ring
  simp only [Setup.eval, denote_add, denote_sub, transpose_102 hx, vx, vy]
  rfl

theorem pt_moment_c (s : Setup) (m : Memory) (a b c i j k : ℕ) : (callPtC s m amplitudes stored).moment (dimsOf s) (i + 1) (j + 1) (k + 1) (a + 1) (b + 1) (c + 1)
    = s.eval m (m3c amplitudes stored) [a, b, c, i, j, k] := by
  delta m3c
  extract_lets x
  have hx : x.axes = [1, 3, 3, 0, 2, 2] := rfl
  have vx : ∀ a b c i j k, x.denote (dims s.n s.na s.nb) (Tensor.elements s.na s.nb s.f s.v m) [a, b, c, i, j, k] = (callPtC s m amplitudes stored).x3c (dimsOf s) (i + 1) (j + 1) (k + 1) (a + 1) (b + 1) (c + 1) := fun a b c i j k => by
    simp only [x, denote_add, denote_sub, denote_neg, denote_half, pt_17 ax_pt_H_ab_vvov ax_pt_T_bb, pt_18 ax_pt_H_ab_vooo ax_pt_T_bb, pt_19 ax_pt_H_ab_vooo ax_pt_T_bb, pt_20 ax_pt_T_ab ax_pt_H_bb_vvov, pt_21 ax_pt_T_ab ax_pt_H_bb_vvov, pt_22 ax_pt_T_ab ax_pt_H_bb_vooo, pt_23 ax_pt_H_ab_vvvo ax_pt_T_ab, pt_24 ax_pt_H_ab_vvvo ax_pt_T_ab, pt_25 ax_pt_T_ab ax_pt_H_ab_ovoo, pt_26 ax_pt_T_ab ax_pt_H_ab_ovoo]
    simp only [PtC.x3c, sumTo_eq, neg_mul]
    rfl
  simp only [Setup.eval, denote_add, denote_sub, transpose_021 hx, vx]
  rfl

theorem pt_fock_c (s : Setup) (m : Memory) (a b c i j k : ℕ) : (callPtC s m amplitudes stored).temp3f (i + 1) (j + 1) (k + 1) (a + 1) (b + 1) (c + 1)
    = s.eval m (f3c amplitudes stored) [a, b, c, i, j, k] := by
  simp only [Setup.eval, f3c, denote_add, denote_sub, es_60 ax_pt_H_b_ov ax_pt_T_ab, es_61 ax_pt_H_b_ov ax_pt_T_ab, es_62 ax_pt_H_b_ov ax_pt_T_ab, es_63 ax_pt_H_b_ov ax_pt_T_ab, es_64 ax_pt_H_a_ov ax_pt_T_bb]
  rfl

theorem pt_left_c {S : Orbitals ι} {Z : Fock.Integrals} (hZ : Z.Antisym) (hs : Z.Real) (shift : ℚ) (m : Memory) (a b c i j k : ℕ) :
    (callPtC (setup S Z shift) m amplitudes stored).left (dimsOf (setup S Z shift)) (i + 1) (j + 1) (k + 1) (a + 1) (b + 1) (c + 1)
      = (setup S Z shift).eval m (l3c amplitudes stored) [a, b, c, i, j, k] := by
  delta l3c
  extract_lets x y
  have hx : x.axes = [1, 3, 3, 0, 2, 2] := rfl
  have s0 : ∀ i e a b, Ex.denote (dims (setup S Z shift).n (setup S Z shift).na (setup S Z shift).nb) (Tensor.elements (setup S Z shift).na (setup S Z shift).nb (setup S Z shift).f (setup S Z shift).v m) stored.ab.ovvv [i, e, a, b] = (callPtC (setup S Z shift) m amplitudes stored).vb_vvov (a + 1) (b + 1) (i + 1) (e + 1) := fun i e a b => by
    show Z.vAB i (S.nb + e) (S.na + a) (S.nb + b) = Z.vAB (S.na + a) (S.nb + b) i (S.nb + e)
    exact hs.ab _ _ _ _
  have s1 : ∀ e k b c, Ex.denote (dims (setup S Z shift).n (setup S Z shift).na (setup S Z shift).nb) (Tensor.elements (setup S Z shift).na (setup S Z shift).nb (setup S Z shift).f (setup S Z shift).v m) stored.bb.vovv [e, k, b, c] = (callPtC (setup S Z shift) m amplitudes stored).vc_vvov (c + 1) (b + 1) (k + 1) (e + 1) := fun e k b c => by
    show Z.vBB (S.nb + e) k (S.nb + b) (S.nb + c) = Z.vBB (S.nb + c) (S.nb + b) k (S.nb + e)
    exact flip_real hs.bb hZ.bb _ _ _ _
  have s2 : ∀ e j a b, Ex.denote (dims (setup S Z shift).n (setup S Z shift).na (setup S Z shift).nb) (Tensor.elements (setup S Z shift).na (setup S Z shift).nb (setup S Z shift).f (setup S Z shift).v m) stored.ab.vovv [e, j, a, b] = (callPtC (setup S Z shift) m amplitudes stored).vb_vvvo (a + 1) (b + 1) (e + 1) (j + 1) := fun e j a b => by
    show Z.vAB (S.na + e) j (S.na + a) (S.nb + b) = Z.vAB (S.na + a) (S.nb + b) (S.na + e) j
    exact hs.ab _ _ _ _
  have s3 : ∀ i j a g, Ex.denote (dims (setup S Z shift).n (setup S Z shift).na (setup S Z shift).nb) (Tensor.elements (setup S Z shift).na (setup S Z shift).nb (setup S Z shift).f (setup S Z shift).v m) stored.ab.oovo [i, j, a, g] = (callPtC (setup S Z shift) m amplitudes stored).i2b_vooo (a + 1) (g + 1) (i + 1) (j + 1) := fun i j a g => by
    show Z.vAB i j (S.na + a) g = Z.vAB (S.na + a) g i j
    exact hs.ab _ _ _ _
  have s4 : ∀ j k g c, Ex.denote (dims (setup S Z shift).n (setup S Z shift).na (setup S Z shift).nb) (Tensor.elements (setup S Z shift).na (setup S Z shift).nb (setup S Z shift).f (setup S Z shift).v m) stored.bb.ooov [j, k, g, c] = (callPtC (setup S Z shift) m amplitudes stored).i2c_vooo (c + 1) (g + 1) (k + 1) (j + 1) := fun j k g c => by
    show Z.vBB j k g (S.nb + c) = Z.vBB (S.nb + c) g k j
    exact flip_real hs.bb hZ.bb _ _ _ _
  have s5 : ∀ i k g c, Ex.denote (dims (setup S Z shift).n (setup S Z shift).na (setup S Z shift).nb) (Tensor.elements (setup S Z shift).na (setup S Z shift).nb (setup S Z shift).f (setup S Z shift).v m) stored.ab.ooov [i, k, g, c] = (callPtC (setup S Z shift) m amplitudes stored).i2b_ovoo (g + 1) (c + 1) (i + 1) (k + 1) := fun i k g c => by
    show Z.vAB i k g (S.nb + c) = Z.vAB g (S.nb + c) i k
    exact hs.ab _ _ _ _
  have t0 : ∀ p q, Ex.denote (dims (setup S Z shift).n (setup S Z shift).na (setup S Z shift).nb) (Tensor.elements (setup S Z shift).na (setup S Z shift).nb (setup S Z shift).f (setup S Z shift).v m) amplitudes.a [p, q] = (callPtC (setup S Z shift) m amplitudes stored).t1a (p + 1) (q + 1) := fun _ _ => rfl
  have t1 : ∀ p q, Ex.denote (dims (setup S Z shift).n (setup S Z shift).na (setup S Z shift).nb) (Tensor.elements (setup S Z shift).na (setup S Z shift).nb (setup S Z shift).f (setup S Z shift).v m) amplitudes.b [p, q] = (callPtC (setup S Z shift) m amplitudes stored).t1b (p + 1) (q + 1) := fun _ _ => rfl
  have t2 : ∀ p q r s, Ex.denote (dims (setup S Z shift).n (setup S Z shift).na (setup S Z shift).nb) (Tensor.elements (setup S Z shift).na (setup S Z shift).nb (setup S Z shift).f (setup S Z shift).v m) amplitudes.ab [p, q, r, s] = (callPtC (setup S Z shift) m amplitudes stored).t2b (p + 1) (q + 1) (r + 1) (s + 1) := fun _ _ _ _ => rfl
  have t3 : ∀ p q r s, Ex.denote (dims (setup S Z shift).n (setup S Z shift).na (setup S Z shift).nb) (Tensor.elements (setup S Z shift).na (setup S Z shift).nb (setup S Z shift).f (setup S Z shift).v m) amplitudes.bb [p, q, r, s] = (callPtC (setup S Z shift) m amplitudes stored).t2c (p + 1) (q + 1) (r + 1) (s + 1) := fun _ _ _ _ => rfl
  have t4 : ∀ p q r s, Ex.denote (dims (setup S Z shift).n (setup S Z shift).na (setup S Z shift).nb) (Tensor.elements (setup S Z shift).na (setup S Z shift).nb (setup S Z shift).f (setup S Z shift).v m) stored.bb.oovv [p, q, r, s] = (callPtC (setup S Z shift) m amplitudes stored).vc_oovv (p + 1) (q + 1) (r + 1) (s + 1) := fun _ _ _ _ => rfl
  have t5 : ∀ p q r s, Ex.denote (dims (setup S Z shift).n (setup S Z shift).na (setup S Z shift).nb) (Tensor.elements (setup S Z shift).na (setup S Z shift).nb (setup S Z shift).f (setup S Z shift).v m) stored.ab.oovv [p, q, r, s] = (callPtC (setup S Z shift) m amplitudes stored).vb_oovv (p + 1) (q + 1) (r + 1) (s + 1) := fun _ _ _ _ => rfl
  have t6 : ∀ p q, Ex.denote (dims (setup S Z shift).n (setup S Z shift).na (setup S Z shift).nb) (Tensor.elements (setup S Z shift).na (setup S Z shift).nb (setup S Z shift).f (setup S Z shift).v m) stored.a.ov [p, q] = (callPtC (setup S Z shift) m amplitudes stored).fa_ov (p + 1) (q + 1) := fun _ _ => rfl
  have t7 : ∀ p q, Ex.denote (dims (setup S Z shift).n (setup S Z shift).na (setup S Z shift).nb) (Tensor.elements (setup S Z shift).na (setup S Z shift).nb (setup S Z shift).f (setup S Z shift).v m) stored.b.ov [p, q] = (callPtC (setup S Z shift) m amplitudes stored).fb_ov (p + 1) (q + 1) := fun _ _ => rfl
  have d0 : dims (setup S Z shift).n (setup S Z shift).na (setup S Z shift).nb 0 = (dimsOf (setup S Z shift)).oa := rfl
  have d1 : dims (setup S Z shift).n (setup S Z shift).na (setup S Z shift).nb 1 = (dimsOf (setup S Z shift)).ua := rfl
  have d2 : dims (setup S Z shift).n (setup S Z shift).na (setup S Z shift).nb 2 = (dimsOf (setup S Z shift)).ob := rfl
  have d3 : dims (setup S Z shift).n (setup S Z shift).na (setup S Z shift).nb 3 = (dimsOf (setup S Z shift)).ub := rfl
  have vx : ∀ a b c i j k, x.denote (dims (setup S Z shift).n (setup S Z shift).na (setup S Z shift).nb) (Tensor.elements (setup S Z shift).na (setup S Z shift).nb (setup S Z shift).f (setup S Z shift).v m) [a, b, c, i, j, k]
      = (callPtC (setup S Z shift) m amplitudes stored).x3c (dimsOf (setup S Z shift)) (i + 1) (j + 1) (k + 1) (a + 1) (b + 1) (c + 1) := fun a b c i j k => by
    simp only [x, denote_add, denote_sub, denote_half, es_45 ax_pt_H_ab_ovvv ax_pt_T_bb, es_46 ax_pt_T_ab ax_pt_H_bb_vovv, es_47 ax_pt_T_ab ax_pt_H_bb_vovv, es_48 ax_pt_H_ab_vovv ax_pt_T_ab, es_49 ax_pt_H_ab_vovv ax_pt_T_ab, es_50 ax_pt_H_ab_oovo ax_pt_T_bb, es_51 ax_pt_H_ab_oovo ax_pt_T_bb, es_52 ax_pt_T_ab ax_pt_H_bb_ooov, es_53 ax_pt_T_ab ax_pt_H_ab_ooov, es_54 ax_pt_T_ab ax_pt_H_ab_ooov]
    simp only [s0, s1, s2, s3, s4, s5, PtC.x3c, sumTo_eq, t0, t1, t2, t3, d0, d1, d2, d3, mul_comm]
    ring
  have vy : y.denote (dims (setup S Z shift).n (setup S Z shift).na (setup S Z shift).nb) (Tensor.elements (setup S Z shift).na (setup S Z shift).nb (setup S Z shift).f (setup S Z shift).v m) [a, b, c, i, j, k]
      = (callPtC (setup S Z shift) m amplitudes stored).temp3 (i + 1) (j + 1) (k + 1) (a + 1) (b + 1) (c + 1) + (callPtC (setup S Z shift) m amplitudes stored).temp3f (i + 1) (j + 1) (k + 1) (a + 1) (b + 1) (c + 1) := by
    simp only [y, denote_add, denote_sub, es_55 ax_pt_T_b ax_pt_H_ab_oovv, es_56 ax_pt_T_b ax_pt_H_ab_oovv, es_57 ax_pt_T_b ax_pt_H_ab_oovv, es_58 ax_pt_T_b ax_pt_H_ab_oovv, es_59 ax_pt_T_a ax_pt_H_bb_oovv, es_60 ax_pt_H_b_ov ax_pt_T_ab, es_61 ax_pt_H_b_ov ax_pt_T_ab, es_62 ax_pt_H_b_ov ax_pt_T_ab, es_63 ax_pt_H_b_ov ax_pt_T_ab, es_64 ax_pt_H_a_ov ax_pt_T_bb]
    simp only [t0, t1, t2, t3, t4, t5, t6, t7, PtC.temp3, PtC.temp3f]
    ring
  simp only [Setup.eval, denote_add, denote_sub, transpose_021 hx, vx, vy]
  rfl

theorem pt_moment_d (s : Setup) (m : Memory) (a b c i j k : ℕ) : (callPtD s m amplitudes stored).moment (dimsOf s) (i + 1) (j + 1) (k + 1) (a + 1) (b + 1) (c + 1)
    = s.eval m (m3d amplitudes stored) [a, b, c, i, j, k] := by
  delta m3d
  extract_lets x
  have hx : x.axes = [3, 3, 3, 2, 2, 2] := rfl
  have vx : ∀ a b c i j k, x.denote (dims s.n s.na s.nb) (Tensor.elements s.na s.nb s.f s.v m) [a, b, c, i, j, k] = (callPtD s m amplitudes stored).x3d (dimsOf s) (i + 1) (j + 1) (k + 1) (a + 1) (b + 1) (c + 1) := fun a b c i j k => by
    simp only [x, denote_add, denote_sub, denote_neg, denote_half, pt_27 ax_pt_H_bb_vooo ax_pt_T_bb, pt_28 ax_pt_H_bb_vooo ax_pt_T_bb, pt_29 ax_pt_H_bb_vooo ax_pt_T_bb, pt_30 ax_pt_H_bb_vvov ax_pt_T_bb, pt_31 ax_pt_H_bb_vvov ax_pt_T_bb, pt_32 ax_pt_H_bb_vvov ax_pt_T_bb]
    simp only [PtD.x3d, sumTo_eq, neg_mul]
    rfl
  simp only [Setup.eval, denote_add, denote_sub, transpose_201 hx, transpose_120 hx, transpose_021 hx, transpose_102 hx, transpose_210 hx, vx]
  rfl

theorem pt_fock_d (s : Setup) (m : Memory) (a b c i j k : ℕ) : (callPtD s m amplitudes stored).temp3f (i + 1) (j + 1) (k + 1) (a + 1) (b + 1) (c + 1)
    = s.eval m (f3d amplitudes stored) [a, b, c, i, j, k] := by
  simp only [Setup.eval, f3d, denote_add, denote_sub, es_80 ax_pt_H_b_ov ax_pt_T_bb, es_81 ax_pt_H_b_ov ax_pt_T_bb, es_82 ax_pt_H_b_ov ax_pt_T_bb, es_83 ax_pt_H_b_ov ax_pt_T_bb, es_84 ax_pt_H_b_ov ax_pt_T_bb, es_85 ax_pt_H_b_ov ax_pt_T_bb, es_86 ax_pt_H_b_ov ax_pt_T_bb, es_87 ax_pt_H_b_ov ax_pt_T_bb, es_88 ax_pt_H_b_ov ax_pt_T_bb]
  rfl

theorem pt_left_d {S : Orbitals ι} {Z : Fock.Integrals} (hZ : Z.Antisym) (hs : Z.Real) (shift : ℚ) (m : Memory) (a b c i j k : ℕ) :
    (callPtD (setup S Z shift) m amplitudes stored).left (dimsOf (setup S Z shift)) (i + 1) (j + 1) (k + 1) (a + 1) (b + 1) (c + 1)
      = (setup S Z shift).eval m (l3d amplitudes stored) [a, b, c, i, j, k] := by
  delta l3d
  extract_lets x y
  have hx : x.axes = [3, 3, 3, 2, 2, 2] := rfl
  have s0 : ∀ e i b a, Ex.denote (dims (setup S Z shift).n (setup S Z shift).na (setup S Z shift).nb) (Tensor.elements (setup S Z shift).na (setup S Z shift).nb (setup S Z shift).f (setup S Z shift).v m) stored.bb.vovv [e, i, b, a] = (callPtD (setup S Z shift) m amplitudes stored).i2c_vvov (a + 1) (b + 1) (i + 1) (e + 1) := fun e i b a => by
    show Z.vBB (S.nb + e) i (S.nb + b) (S.nb + a) = Z.vBB (S.nb + a) (S.nb + b) i (S.nb + e)
    exact flip_real hs.bb hZ.bb _ _ _ _
  have s1 : ∀ j i g a, Ex.denote (dims (setup S Z shift).n (setup S Z shift).na (setup S Z shift).nb) (Tensor.elements (setup S Z shift).na (setup S Z shift).nb (setup S Z shift).f (setup S Z shift).v m) stored.bb.ooov [j, i, g, a] = (callPtD (setup S Z shift) m amplitudes stored).vc_vooo (a + 1) (g + 1) (i + 1) (j + 1) := fun j i g a => by
    show Z.vBB j i g (S.nb + a) = Z.vBB (S.nb + a) g i j
    exact flip_real hs.bb hZ.bb _ _ _ _
  have t0 : ∀ p q, Ex.denote (dims (setup S Z shift).n (setup S Z shift).na (setup S Z shift).nb) (Tensor.elements (setup S Z shift).na (setup S Z shift).nb (setup S Z shift).f (setup S Z shift).v m) amplitudes.b [p, q] = (callPtD (setup S Z shift) m amplitudes stored).t1b (p + 1) (q + 1) := fun _ _ => rfl
  have t1 : ∀ p q r s, Ex.denote (dims (setup S Z shift).n (setup S Z shift).na (setup S Z shift).nb) (Tensor.elements (setup S Z shift).na (setup S Z shift).nb (setup S Z shift).f (setup S Z shift).v m) amplitudes.bb [p, q, r, s] = (callPtD (setup S Z shift) m amplitudes stored).t2c (p + 1) (q + 1) (r + 1) (s + 1) := fun _ _ _ _ => rfl
  have t2 : ∀ p q r s, Ex.denote (dims (setup S Z shift).n (setup S Z shift).na (setup S Z shift).nb) (Tensor.elements (setup S Z shift).na (setup S Z shift).nb (setup S Z shift).f (setup S Z shift).v m) stored.bb.oovv [p, q, r, s] = (callPtD (setup S Z shift) m amplitudes stored).vc_oovv (p + 1) (q + 1) (r + 1) (s + 1) := fun _ _ _ _ => rfl
  have t3 : ∀ p q, Ex.denote (dims (setup S Z shift).n (setup S Z shift).na (setup S Z shift).nb) (Tensor.elements (setup S Z shift).na (setup S Z shift).nb (setup S Z shift).f (setup S Z shift).v m) stored.b.ov [p, q] = (callPtD (setup S Z shift) m amplitudes stored).fb_ov (p + 1) (q + 1) := fun _ _ => rfl
  have d0 : dims (setup S Z shift).n (setup S Z shift).na (setup S Z shift).nb 0 = (dimsOf (setup S Z shift)).oa := rfl
  have d1 : dims (setup S Z shift).n (setup S Z shift).na (setup S Z shift).nb 1 = (dimsOf (setup S Z shift)).ua := rfl
  have d2 : dims (setup S Z shift).n (setup S Z shift).na (setup S Z shift).nb 2 = (dimsOf (setup S Z shift)).ob := rfl
  have d3 : dims (setup S Z shift).n (setup S Z shift).na (setup S Z shift).nb 3 = (dimsOf (setup S Z shift)).ub := rfl
  have vx : ∀ a b c i j k, x.denote (dims (setup S Z shift).n (setup S Z shift).na (setup S Z shift).nb) (Tensor.elements (setup S Z shift).na (setup S Z shift).nb (setup S Z shift).f (setup S Z shift).v m) [a, b, c, i, j, k]
      = (callPtD (setup S Z shift) m amplitudes stored).x3d (dimsOf (setup S Z shift)) (i + 1) (j + 1) (k + 1) (a + 1) (b + 1) (c + 1) := fun a b c i j k => by
    simp only [x, denote_add, denote_sub, denote_half, es_65 ax_pt_H_bb_vovv ax_pt_T_bb, es_66 ax_pt_H_bb_vovv ax_pt_T_bb, es_67 ax_pt_H_bb_vovv ax_pt_T_bb, es_68 ax_pt_H_bb_ooov ax_pt_T_bb, es_69 ax_pt_H_bb_ooov ax_pt_T_bb, es_70 ax_pt_H_bb_ooov ax_pt_T_bb]
    simp only [s0, s1, PtD.x3d, sumTo_eq, t0, t1, d0, d1, d2, d3, mul_comm]
    ring
  have vy : y.denote (dims (setup S Z shift).n (setup S Z shift).na (setup S Z shift).nb) (Tensor.elements (setup S Z shift).na (setup S Z shift).nb (setup S Z shift).f (setup S Z shift).v m) [a, b, c, i, j, k]
      = (callPtD (setup S Z shift) m amplitudes stored).temp3 (i + 1) (j + 1) (k + 1) (a + 1) (b + 1) (c + 1) + (callPtD (setup S Z shift) m amplitudes stored).temp3f (i + 1) (j + 1) (k + 1) (a + 1) (b + 1) (c + 1) := by
    simp only [y, denote_add, denote_sub, es_71 ax_pt_T_b ax_pt_H_bb_oovv, es_72 ax_pt_T_b ax_pt_H_bb_oovv, es_73 ax_pt_T_b ax_pt_H_bb_oovv, es_74 ax_pt_T_b ax_pt_H_bb_oovv, es_75 ax_pt_T_b ax_pt_H_bb_oovv, es_76 ax_pt_T_b ax_pt_H_bb_oovv, es_77 ax_pt_T_b ax_pt_H_bb_oovv, es_78 ax_pt_T_b ax_pt_H_bb_oovv, es_79 ax_pt_T_b ax_pt_H_bb_oovv, es_80 ax_pt_H_b_ov ax_pt_T_bb, es_81 ax_pt_H_b_ov ax_pt_T_bb, es_82 ax_pt_H_b_ov ax_pt_T_bb, es_83 ax_pt_H_b_ov ax_pt_T_bb, es_84 ax_pt_H_b_ov ax_pt_T_bb, es_85 ax_pt_H_b_ov ax_pt_T_bb, es_86 ax_pt_H_b_ov ax_pt_T_bb, es_87 ax_pt_H_b_ov ax_pt_T_bb, es_88 ax_pt_H_b_ov ax_pt_T_bb]
    simp only [t0, t1, t2, t3, PtD.temp3, PtD.temp3f]
    ring
  simp only [Setup.eval, denote_add, denote_sub, transpose_201 hx, transpose_120 hx, transpose_021 hx, transpose_102 hx, transpose_210 hx, vx, vy]
  rfl

end Ccpy.CrCc
