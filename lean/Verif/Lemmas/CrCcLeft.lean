import Verif.Lemmas.CrCcChecks
import Verif.Lemmas.CrCcSums

/-! The numbers `temp2 + temp3` of the CR-CC(2,3) kernels as tensor expressions. -/

set_option linter.unusedSimpArgs false

namespace Ccpy.CrCc
open Ccpy.Fock Ccpy.Tensor Ccpy.Engine Ccpy.HbarCcsd Ccpy.Ccsdt Ccpy.PSpace Ccpy.Rdm
open Ccpy.EomCcsd (excitation)
open Finset (range)

section
variable {dim : ℕ → ℕ} {I : ℕ → List (ℕ × ℕ) → ℚ} {x y : Ex}

theorem es_1 (hx : x.axes = [1, 0, 1, 1]) (hy : y.axes = [1, 1, 0, 0]) (a b c i j k : ℕ) :
    (es% "eiba,ecjk->abcijk" x, y).denote dim I [a, b, c, i, j, k] = ∑ e ∈ range (dim 1), x.denote dim I [e, i, b, a] * y.denote dim I [e, c, j, k] := by
  simp only [Ex.denote, Body.letters, hx, hy, Body.denote, mul_one]
  rfl

theorem es_2 (hx : x.axes = [1, 0, 1, 1]) (hy : y.axes = [1, 1, 0, 0]) (a b c i j k : ℕ) :
    (es% "ejba,ecik->abcijk" x, y).denote dim I [a, b, c, i, j, k] = ∑ e ∈ range (dim 1), x.denote dim I [e, j, b, a] * y.denote dim I [e, c, i, k] := by
  simp only [Ex.denote, Body.letters, hx, hy, Body.denote, mul_one]
  rfl

theorem es_3 (hx : x.axes = [1, 0, 1, 1]) (hy : y.axes = [1, 1, 0, 0]) (a b c i j k : ℕ) :
    (es% "ekba,ecji->abcijk" x, y).denote dim I [a, b, c, i, j, k] = ∑ e ∈ range (dim 1), x.denote dim I [e, k, b, a] * y.denote dim I [e, c, j, i] := by
  simp only [Ex.denote, Body.letters, hx, hy, Body.denote, mul_one]
  rfl

theorem es_4 (hx : x.axes = [0, 0, 0, 1]) (hy : y.axes = [1, 1, 0, 0]) (a b c i j k : ℕ) :
    (es% "jima,bcmk->abcijk" x, y).denote dim I [a, b, c, i, j, k] = ∑ m ∈ range (dim 0), x.denote dim I [j, i, m, a] * y.denote dim I [b, c, m, k] := by
  simp only [Ex.denote, Body.letters, hx, hy, Body.denote, mul_one]
  rfl

theorem es_5 (hx : x.axes = [0, 0, 0, 1]) (hy : y.axes = [1, 1, 0, 0]) (a b c i j k : ℕ) :
    (es% "kima,bcmj->abcijk" x, y).denote dim I [a, b, c, i, j, k] = ∑ m ∈ range (dim 0), x.denote dim I [k, i, m, a] * y.denote dim I [b, c, m, j] := by
  simp only [Ex.denote, Body.letters, hx, hy, Body.denote, mul_one]
  rfl

theorem es_6 (hx : x.axes = [0, 0, 0, 1]) (hy : y.axes = [1, 1, 0, 0]) (a b c i j k : ℕ) :
    (es% "jkma,bcmi->abcijk" x, y).denote dim I [a, b, c, i, j, k] = ∑ m ∈ range (dim 0), x.denote dim I [j, k, m, a] * y.denote dim I [b, c, m, i] := by
  simp only [Ex.denote, Body.letters, hx, hy, Body.denote, mul_one]
  rfl

theorem es_7 (hx : x.axes = [1, 0]) (hy : y.axes = [0, 0, 1, 1]) (a b c i j k : ℕ) :
    (es% "ck,ijab->abcijk" x, y).denote dim I [a, b, c, i, j, k] = x.denote dim I [c, k] * y.denote dim I [i, j, a, b] := by
  simp only [Ex.denote, Body.letters, hx, hy, Body.denote, mul_one]
  rfl

theorem es_8 (hx : x.axes = [1, 0]) (hy : y.axes = [0, 0, 1, 1]) (a b c i j k : ℕ) :
    (es% "ak,ijcb->abcijk" x, y).denote dim I [a, b, c, i, j, k] = x.denote dim I [a, k] * y.denote dim I [i, j, c, b] := by
  simp only [Ex.denote, Body.letters, hx, hy, Body.denote, mul_one]
  rfl

theorem es_9 (hx : x.axes = [1, 0]) (hy : y.axes = [0, 0, 1, 1]) (a b c i j k : ℕ) :
    (es% "bk,ijac->abcijk" x, y).denote dim I [a, b, c, i, j, k] = x.denote dim I [b, k] * y.denote dim I [i, j, a, c] := by
  simp only [Ex.denote, Body.letters, hx, hy, Body.denote, mul_one]
  rfl

theorem es_10 (hx : x.axes = [1, 0]) (hy : y.axes = [0, 0, 1, 1]) (a b c i j k : ℕ) :
    (es% "ci,kjab->abcijk" x, y).denote dim I [a, b, c, i, j, k] = x.denote dim I [c, i] * y.denote dim I [k, j, a, b] := by
  simp only [Ex.denote, Body.letters, hx, hy, Body.denote, mul_one]
  rfl

theorem es_11 (hx : x.axes = [1, 0]) (hy : y.axes = [0, 0, 1, 1]) (a b c i j k : ℕ) :
    (es% "cj,ikab->abcijk" x, y).denote dim I [a, b, c, i, j, k] = x.denote dim I [c, j] * y.denote dim I [i, k, a, b] := by
  simp only [Ex.denote, Body.letters, hx, hy, Body.denote, mul_one]
  rfl

theorem es_12 (hx : x.axes = [1, 0]) (hy : y.axes = [0, 0, 1, 1]) (a b c i j k : ℕ) :
    (es% "ai,kjcb->abcijk" x, y).denote dim I [a, b, c, i, j, k] = x.denote dim I [a, i] * y.denote dim I [k, j, c, b] := by
  simp only [Ex.denote, Body.letters, hx, hy, Body.denote, mul_one]
  rfl

theorem es_13 (hx : x.axes = [1, 0]) (hy : y.axes = [0, 0, 1, 1]) (a b c i j k : ℕ) :
    (es% "bi,kjac->abcijk" x, y).denote dim I [a, b, c, i, j, k] = x.denote dim I [b, i] * y.denote dim I [k, j, a, c] := by
  simp only [Ex.denote, Body.letters, hx, hy, Body.denote, mul_one]
  rfl

theorem es_14 (hx : x.axes = [1, 0]) (hy : y.axes = [0, 0, 1, 1]) (a b c i j k : ℕ) :
    (es% "aj,ikcb->abcijk" x, y).denote dim I [a, b, c, i, j, k] = x.denote dim I [a, j] * y.denote dim I [i, k, c, b] := by
  simp only [Ex.denote, Body.letters, hx, hy, Body.denote, mul_one]
  rfl

theorem es_15 (hx : x.axes = [1, 0]) (hy : y.axes = [0, 0, 1, 1]) (a b c i j k : ℕ) :
    (es% "bj,ikac->abcijk" x, y).denote dim I [a, b, c, i, j, k] = x.denote dim I [b, j] * y.denote dim I [i, k, a, c] := by
  simp only [Ex.denote, Body.letters, hx, hy, Body.denote, mul_one]
  rfl

theorem es_16 (hx : x.axes = [0, 1]) (hy : y.axes = [1, 1, 0, 0]) (a b c i j k : ℕ) :
    (es% "kc,abij->abcijk" x, y).denote dim I [a, b, c, i, j, k] = x.denote dim I [k, c] * y.denote dim I [a, b, i, j] := by
  simp only [Ex.denote, Body.letters, hx, hy, Body.denote, mul_one]
  rfl

theorem es_17 (hx : x.axes = [0, 1]) (hy : y.axes = [1, 1, 0, 0]) (a b c i j k : ℕ) :
    (es% "ka,cbij->abcijk" x, y).denote dim I [a, b, c, i, j, k] = x.denote dim I [k, a] * y.denote dim I [c, b, i, j] := by
  simp only [Ex.denote, Body.letters, hx, hy, Body.denote, mul_one]
  rfl

theorem es_18 (hx : x.axes = [0, 1]) (hy : y.axes = [1, 1, 0, 0]) (a b c i j k : ℕ) :
    (es% "kb,acij->abcijk" x, y).denote dim I [a, b, c, i, j, k] = x.denote dim I [k, b] * y.denote dim I [a, c, i, j] := by
  simp only [Ex.denote, Body.letters, hx, hy, Body.denote, mul_one]
  rfl

theorem es_19 (hx : x.axes = [0, 1]) (hy : y.axes = [1, 1, 0, 0]) (a b c i j k : ℕ) :
    (es% "ic,abkj->abcijk" x, y).denote dim I [a, b, c, i, j, k] = x.denote dim I [i, c] * y.denote dim I [a, b, k, j] := by
  simp only [Ex.denote, Body.letters, hx, hy, Body.denote, mul_one]
  rfl

theorem es_20 (hx : x.axes = [0, 1]) (hy : y.axes = [1, 1, 0, 0]) (a b c i j k : ℕ) :
    (es% "jc,abik->abcijk" x, y).denote dim I [a, b, c, i, j, k] = x.denote dim I [j, c] * y.denote dim I [a, b, i, k] := by
  simp only [Ex.denote, Body.letters, hx, hy, Body.denote, mul_one]
  rfl

theorem es_21 (hx : x.axes = [0, 1]) (hy : y.axes = [1, 1, 0, 0]) (a b c i j k : ℕ) :
    (es% "ia,cbkj->abcijk" x, y).denote dim I [a, b, c, i, j, k] = x.denote dim I [i, a] * y.denote dim I [c, b, k, j] := by
  simp only [Ex.denote, Body.letters, hx, hy, Body.denote, mul_one]
  rfl

theorem es_22 (hx : x.axes = [0, 1]) (hy : y.axes = [1, 1, 0, 0]) (a b c i j k : ℕ) :
    (es% "ib,ackj->abcijk" x, y).denote dim I [a, b, c, i, j, k] = x.denote dim I [i, b] * y.denote dim I [a, c, k, j] := by
  simp only [Ex.denote, Body.letters, hx, hy, Body.denote, mul_one]
  rfl

theorem es_23 (hx : x.axes = [0, 1]) (hy : y.axes = [1, 1, 0, 0]) (a b c i j k : ℕ) :
    (es% "ja,cbik->abcijk" x, y).denote dim I [a, b, c, i, j, k] = x.denote dim I [j, a] * y.denote dim I [c, b, i, k] := by
  simp only [Ex.denote, Body.letters, hx, hy, Body.denote, mul_one]
  rfl

theorem es_24 (hx : x.axes = [0, 1]) (hy : y.axes = [1, 1, 0, 0]) (a b c i j k : ℕ) :
    (es% "jb,acik->abcijk" x, y).denote dim I [a, b, c, i, j, k] = x.denote dim I [j, b] * y.denote dim I [a, c, i, k] := by
  simp only [Ex.denote, Body.letters, hx, hy, Body.denote, mul_one]
  rfl

theorem es_25 (hx : x.axes = [1, 1, 0, 0]) (hy : y.axes = [1, 2, 1, 3]) (a b c i j k : ℕ) :
    (es% "aeij,ekbc->abcijk" x, y).denote dim I [a, b, c, i, j, k] = ∑ e ∈ range (dim 1), x.denote dim I [a, e, i, j] * y.denote dim I [e, k, b, c] := by
  simp only [Ex.denote, Body.letters, hx, hy, Body.denote, mul_one]
  rfl

theorem es_26 (hx : x.axes = [1, 0, 1, 1]) (hy : y.axes = [1, 3, 0, 2]) (a b c i j k : ℕ) :
    (es% "eiba,ecjk->abcijk" x, y).denote dim I [a, b, c, i, j, k] = ∑ e ∈ range (dim 1), x.denote dim I [e, i, b, a] * y.denote dim I [e, c, j, k] := by
  simp only [Ex.denote, Body.letters, hx, hy, Body.denote, mul_one]
  rfl

theorem es_27 (hx : x.axes = [1, 0, 1, 1]) (hy : y.axes = [1, 3, 0, 2]) (a b c i j k : ℕ) :
    (es% "ejba,ecik->abcijk" x, y).denote dim I [a, b, c, i, j, k] = ∑ e ∈ range (dim 1), x.denote dim I [e, j, b, a] * y.denote dim I [e, c, i, k] := by
  simp only [Ex.denote, Body.letters, hx, hy, Body.denote, mul_one]
  rfl

theorem es_28 (hx : x.axes = [1, 3, 0, 2]) (hy : y.axes = [0, 3, 1, 3]) (a b c i j k : ℕ) :
    (es% "aeik,jebc->abcijk" x, y).denote dim I [a, b, c, i, j, k] = ∑ e ∈ range (dim 3), x.denote dim I [a, e, i, k] * y.denote dim I [j, e, b, c] := by
  simp only [Ex.denote, Body.letters, hx, hy, Body.denote, mul_one]
  rfl

theorem es_29 (hx : x.axes = [1, 3, 0, 2]) (hy : y.axes = [0, 3, 1, 3]) (a b c i j k : ℕ) :
    (es% "aejk,iebc->abcijk" x, y).denote dim I [a, b, c, i, j, k] = ∑ e ∈ range (dim 3), x.denote dim I [a, e, j, k] * y.denote dim I [i, e, b, c] := by
  simp only [Ex.denote, Body.letters, hx, hy, Body.denote, mul_one]
  rfl

theorem es_30 (hx : x.axes = [1, 1, 0, 0]) (hy : y.axes = [0, 2, 0, 3]) (a b c i j k : ℕ) :
    (es% "abmi,jkmc->abcijk" x, y).denote dim I [a, b, c, i, j, k] = ∑ m ∈ range (dim 0), x.denote dim I [a, b, m, i] * y.denote dim I [j, k, m, c] := by
  simp only [Ex.denote, Body.letters, hx, hy, Body.denote, mul_one]
  rfl

theorem es_31 (hx : x.axes = [1, 1, 0, 0]) (hy : y.axes = [0, 2, 0, 3]) (a b c i j k : ℕ) :
    (es% "abmj,ikmc->abcijk" x, y).denote dim I [a, b, c, i, j, k] = ∑ m ∈ range (dim 0), x.denote dim I [a, b, m, j] * y.denote dim I [i, k, m, c] := by
  simp only [Ex.denote, Body.letters, hx, hy, Body.denote, mul_one]
  rfl

theorem es_32 (hx : x.axes = [0, 0, 0, 1]) (hy : y.axes = [1, 3, 0, 2]) (a b c i j k : ℕ) :
    (es% "jima,bcmk->abcijk" x, y).denote dim I [a, b, c, i, j, k] = ∑ m ∈ range (dim 0), x.denote dim I [j, i, m, a] * y.denote dim I [b, c, m, k] := by
  simp only [Ex.denote, Body.letters, hx, hy, Body.denote, mul_one]
  rfl

theorem es_33 (hx : x.axes = [0, 2, 1, 2]) (hy : y.axes = [1, 3, 0, 2]) (a b c i j k : ℕ) :
    (es% "ikam,bcjm->abcijk" x, y).denote dim I [a, b, c, i, j, k] = ∑ m ∈ range (dim 2), x.denote dim I [i, k, a, m] * y.denote dim I [b, c, j, m] := by
  simp only [Ex.denote, Body.letters, hx, hy, Body.denote, mul_one]
  rfl

theorem es_34 (hx : x.axes = [0, 2, 1, 2]) (hy : y.axes = [1, 3, 0, 2]) (a b c i j k : ℕ) :
    (es% "jkam,bcim->abcijk" x, y).denote dim I [a, b, c, i, j, k] = ∑ m ∈ range (dim 2), x.denote dim I [j, k, a, m] * y.denote dim I [b, c, i, m] := by
  simp only [Ex.denote, Body.letters, hx, hy, Body.denote, mul_one]
  rfl

theorem es_35 (hx : x.axes = [1, 0]) (hy : y.axes = [0, 2, 1, 3]) (a b c i j k : ℕ) :
    (es% "ai,jkbc->abcijk" x, y).denote dim I [a, b, c, i, j, k] = x.denote dim I [a, i] * y.denote dim I [j, k, b, c] := by
  simp only [Ex.denote, Body.letters, hx, hy, Body.denote, mul_one]
  rfl

theorem es_36 (hx : x.axes = [1, 0]) (hy : y.axes = [0, 2, 1, 3]) (a b c i j k : ℕ) :
    (es% "aj,ikbc->abcijk" x, y).denote dim I [a, b, c, i, j, k] = x.denote dim I [a, j] * y.denote dim I [i, k, b, c] := by
  simp only [Ex.denote, Body.letters, hx, hy, Body.denote, mul_one]
  rfl

theorem es_37 (hx : x.axes = [1, 0]) (hy : y.axes = [0, 2, 1, 3]) (a b c i j k : ℕ) :
    (es% "bi,jkac->abcijk" x, y).denote dim I [a, b, c, i, j, k] = x.denote dim I [b, i] * y.denote dim I [j, k, a, c] := by
  simp only [Ex.denote, Body.letters, hx, hy, Body.denote, mul_one]
  rfl

theorem es_38 (hx : x.axes = [1, 0]) (hy : y.axes = [0, 2, 1, 3]) (a b c i j k : ℕ) :
    (es% "bj,ikac->abcijk" x, y).denote dim I [a, b, c, i, j, k] = x.denote dim I [b, j] * y.denote dim I [i, k, a, c] := by
  simp only [Ex.denote, Body.letters, hx, hy, Body.denote, mul_one]
  rfl

theorem es_39 (hx : x.axes = [3, 2]) (hy : y.axes = [0, 0, 1, 1]) (a b c i j k : ℕ) :
    (es% "ck,ijab->abcijk" x, y).denote dim I [a, b, c, i, j, k] = x.denote dim I [c, k] * y.denote dim I [i, j, a, b] := by
  simp only [Ex.denote, Body.letters, hx, hy, Body.denote, mul_one]
  rfl

theorem es_40 (hx : x.axes = [1, 3, 0, 2]) (hy : y.axes = [0, 1]) (a b c i j k : ℕ) :
    (es% "bcjk,ia->abcijk" x, y).denote dim I [a, b, c, i, j, k] = x.denote dim I [b, c, j, k] * y.denote dim I [i, a] := by
  simp only [Ex.denote, Body.letters, hx, hy, Body.denote, mul_one]
  rfl

theorem es_41 (hx : x.axes = [1, 3, 0, 2]) (hy : y.axes = [0, 1]) (a b c i j k : ℕ) :
    (es% "bcik,ja->abcijk" x, y).denote dim I [a, b, c, i, j, k] = x.denote dim I [b, c, i, k] * y.denote dim I [j, a] := by
  simp only [Ex.denote, Body.letters, hx, hy, Body.denote, mul_one]
  rfl

theorem es_42 (hx : x.axes = [1, 3, 0, 2]) (hy : y.axes = [0, 1]) (a b c i j k : ℕ) :
    (es% "acjk,ib->abcijk" x, y).denote dim I [a, b, c, i, j, k] = x.denote dim I [a, c, j, k] * y.denote dim I [i, b] := by
  simp only [Ex.denote, Body.letters, hx, hy, Body.denote, mul_one]
  rfl

theorem es_43 (hx : x.axes = [1, 3, 0, 2]) (hy : y.axes = [0, 1]) (a b c i j k : ℕ) :
    (es% "acik,jb->abcijk" x, y).denote dim I [a, b, c, i, j, k] = x.denote dim I [a, c, i, k] * y.denote dim I [j, b] := by
  simp only [Ex.denote, Body.letters, hx, hy, Body.denote, mul_one]
  rfl

theorem es_44 (hx : x.axes = [1, 1, 0, 0]) (hy : y.axes = [2, 3]) (a b c i j k : ℕ) :
    (es% "abij,kc->abcijk" x, y).denote dim I [a, b, c, i, j, k] = x.denote dim I [a, b, i, j] * y.denote dim I [k, c] := by
  simp only [Ex.denote, Body.letters, hx, hy, Body.denote, mul_one]
  rfl

theorem es_45 (hx : x.axes = [0, 3, 1, 3]) (hy : y.axes = [3, 3, 2, 2]) (a b c i j k : ℕ) :
    (es% "ieab,ecjk->abcijk" x, y).denote dim I [a, b, c, i, j, k] = ∑ e ∈ range (dim 3), x.denote dim I [i, e, a, b] * y.denote dim I [e, c, j, k] := by
  simp only [Ex.denote, Body.letters, hx, hy, Body.denote, mul_one]
  rfl

theorem es_46 (hx : x.axes = [1, 3, 0, 2]) (hy : y.axes = [3, 2, 3, 3]) (a b c i j k : ℕ) :
    (es% "aeij,ekbc->abcijk" x, y).denote dim I [a, b, c, i, j, k] = ∑ e ∈ range (dim 3), x.denote dim I [a, e, i, j] * y.denote dim I [e, k, b, c] := by
  simp only [Ex.denote, Body.letters, hx, hy, Body.denote, mul_one]
  rfl

theorem es_47 (hx : x.axes = [1, 3, 0, 2]) (hy : y.axes = [3, 2, 3, 3]) (a b c i j k : ℕ) :
    (es% "aeik,ejbc->abcijk" x, y).denote dim I [a, b, c, i, j, k] = ∑ e ∈ range (dim 3), x.denote dim I [a, e, i, k] * y.denote dim I [e, j, b, c] := by
  simp only [Ex.denote, Body.letters, hx, hy, Body.denote, mul_one]
  rfl

theorem es_48 (hx : x.axes = [1, 2, 1, 3]) (hy : y.axes = [1, 3, 0, 2]) (a b c i j k : ℕ) :
    (es% "ejab,ecik->abcijk" x, y).denote dim I [a, b, c, i, j, k] = ∑ e ∈ range (dim 1), x.denote dim I [e, j, a, b] * y.denote dim I [e, c, i, k] := by
  simp only [Ex.denote, Body.letters, hx, hy, Body.denote, mul_one]
  rfl

theorem es_49 (hx : x.axes = [1, 2, 1, 3]) (hy : y.axes = [1, 3, 0, 2]) (a b c i j k : ℕ) :
    (es% "ekab,ecij->abcijk" x, y).denote dim I [a, b, c, i, j, k] = ∑ e ∈ range (dim 1), x.denote dim I [e, k, a, b] * y.denote dim I [e, c, i, j] := by
  simp only [Ex.denote, Body.letters, hx, hy, Body.denote, mul_one]
  rfl

theorem es_50 (hx : x.axes = [0, 2, 1, 2]) (hy : y.axes = [3, 3, 2, 2]) (a b c i j k : ℕ) :
    (es% "ijam,bcmk->abcijk" x, y).denote dim I [a, b, c, i, j, k] = ∑ m ∈ range (dim 2), x.denote dim I [i, j, a, m] * y.denote dim I [b, c, m, k] := by
  simp only [Ex.denote, Body.letters, hx, hy, Body.denote, mul_one]
  rfl

theorem es_51 (hx : x.axes = [0, 2, 1, 2]) (hy : y.axes = [3, 3, 2, 2]) (a b c i j k : ℕ) :
    (es% "ikam,bcmj->abcijk" x, y).denote dim I [a, b, c, i, j, k] = ∑ m ∈ range (dim 2), x.denote dim I [i, k, a, m] * y.denote dim I [b, c, m, j] := by
  simp only [Ex.denote, Body.letters, hx, hy, Body.denote, mul_one]
  rfl

theorem es_52 (hx : x.axes = [1, 3, 0, 2]) (hy : y.axes = [2, 2, 2, 3]) (a b c i j k : ℕ) :
    (es% "abim,jkmc->abcijk" x, y).denote dim I [a, b, c, i, j, k] = ∑ m ∈ range (dim 2), x.denote dim I [a, b, i, m] * y.denote dim I [j, k, m, c] := by
  simp only [Ex.denote, Body.letters, hx, hy, Body.denote, mul_one]
  rfl

theorem es_53 (hx : x.axes = [1, 3, 0, 2]) (hy : y.axes = [0, 2, 0, 3]) (a b c i j k : ℕ) :
    (es% "abmj,ikmc->abcijk" x, y).denote dim I [a, b, c, i, j, k] = ∑ m ∈ range (dim 0), x.denote dim I [a, b, m, j] * y.denote dim I [i, k, m, c] := by
  simp only [Ex.denote, Body.letters, hx, hy, Body.denote, mul_one]
  rfl

theorem es_54 (hx : x.axes = [1, 3, 0, 2]) (hy : y.axes = [0, 2, 0, 3]) (a b c i j k : ℕ) :
    (es% "abmk,ijmc->abcijk" x, y).denote dim I [a, b, c, i, j, k] = ∑ m ∈ range (dim 0), x.denote dim I [a, b, m, k] * y.denote dim I [i, j, m, c] := by
  simp only [Ex.denote, Body.letters, hx, hy, Body.denote, mul_one]
  rfl

theorem es_55 (hx : x.axes = [3, 2]) (hy : y.axes = [0, 2, 1, 3]) (a b c i j k : ℕ) :
    (es% "ck,ijab->abcijk" x, y).denote dim I [a, b, c, i, j, k] = x.denote dim I [c, k] * y.denote dim I [i, j, a, b] := by
  simp only [Ex.denote, Body.letters, hx, hy, Body.denote, mul_one]
  rfl

theorem es_56 (hx : x.axes = [3, 2]) (hy : y.axes = [0, 2, 1, 3]) (a b c i j k : ℕ) :
    (es% "bk,ijac->abcijk" x, y).denote dim I [a, b, c, i, j, k] = x.denote dim I [b, k] * y.denote dim I [i, j, a, c] := by
  simp only [Ex.denote, Body.letters, hx, hy, Body.denote, mul_one]
  rfl

theorem es_57 (hx : x.axes = [3, 2]) (hy : y.axes = [0, 2, 1, 3]) (a b c i j k : ℕ) :
    (es% "cj,ikab->abcijk" x, y).denote dim I [a, b, c, i, j, k] = x.denote dim I [c, j] * y.denote dim I [i, k, a, b] := by
  simp only [Ex.denote, Body.letters, hx, hy, Body.denote, mul_one]
  rfl

theorem es_58 (hx : x.axes = [3, 2]) (hy : y.axes = [0, 2, 1, 3]) (a b c i j k : ℕ) :
    (es% "bj,ikac->abcijk" x, y).denote dim I [a, b, c, i, j, k] = x.denote dim I [b, j] * y.denote dim I [i, k, a, c] := by
  simp only [Ex.denote, Body.letters, hx, hy, Body.denote, mul_one]
  rfl

theorem es_59 (hx : x.axes = [1, 0]) (hy : y.axes = [2, 2, 3, 3]) (a b c i j k : ℕ) :
    (es% "ai,jkbc->abcijk" x, y).denote dim I [a, b, c, i, j, k] = x.denote dim I [a, i] * y.denote dim I [j, k, b, c] := by
  simp only [Ex.denote, Body.letters, hx, hy, Body.denote, mul_one]
  rfl

theorem es_60 (hx : x.axes = [2, 3]) (hy : y.axes = [1, 3, 0, 2]) (a b c i j k : ℕ) :
    (es% "kc,abij->abcijk" x, y).denote dim I [a, b, c, i, j, k] = x.denote dim I [k, c] * y.denote dim I [a, b, i, j] := by
  simp only [Ex.denote, Body.letters, hx, hy, Body.denote, mul_one]
  rfl

theorem es_61 (hx : x.axes = [2, 3]) (hy : y.axes = [1, 3, 0, 2]) (a b c i j k : ℕ) :
    (es% "kb,acij->abcijk" x, y).denote dim I [a, b, c, i, j, k] = x.denote dim I [k, b] * y.denote dim I [a, c, i, j] := by
  simp only [Ex.denote, Body.letters, hx, hy, Body.denote, mul_one]
  rfl

theorem es_62 (hx : x.axes = [2, 3]) (hy : y.axes = [1, 3, 0, 2]) (a b c i j k : ℕ) :
    (es% "jc,abik->abcijk" x, y).denote dim I [a, b, c, i, j, k] = x.denote dim I [j, c] * y.denote dim I [a, b, i, k] := by
  simp only [Ex.denote, Body.letters, hx, hy, Body.denote, mul_one]
  rfl

theorem es_63 (hx : x.axes = [2, 3]) (hy : y.axes = [1, 3, 0, 2]) (a b c i j k : ℕ) :
    (es% "jb,acik->abcijk" x, y).denote dim I [a, b, c, i, j, k] = x.denote dim I [j, b] * y.denote dim I [a, c, i, k] := by
  simp only [Ex.denote, Body.letters, hx, hy, Body.denote, mul_one]
  rfl

theorem es_64 (hx : x.axes = [0, 1]) (hy : y.axes = [3, 3, 2, 2]) (a b c i j k : ℕ) :
    (es% "ia,bcjk->abcijk" x, y).denote dim I [a, b, c, i, j, k] = x.denote dim I [i, a] * y.denote dim I [b, c, j, k] := by
  simp only [Ex.denote, Body.letters, hx, hy, Body.denote, mul_one]
  rfl

theorem es_65 (hx : x.axes = [3, 2, 3, 3]) (hy : y.axes = [3, 3, 2, 2]) (a b c i j k : ℕ) :
    (es% "eiba,ecjk->abcijk" x, y).denote dim I [a, b, c, i, j, k] = ∑ e ∈ range (dim 3), x.denote dim I [e, i, b, a] * y.denote dim I [e, c, j, k] := by
  simp only [Ex.denote, Body.letters, hx, hy, Body.denote, mul_one]
  rfl

theorem es_66 (hx : x.axes = [3, 2, 3, 3]) (hy : y.axes = [3, 3, 2, 2]) (a b c i j k : ℕ) :
    (es% "ejba,ecik->abcijk" x, y).denote dim I [a, b, c, i, j, k] = ∑ e ∈ range (dim 3), x.denote dim I [e, j, b, a] * y.denote dim I [e, c, i, k] := by
  simp only [Ex.denote, Body.letters, hx, hy, Body.denote, mul_one]
  rfl

theorem es_67 (hx : x.axes = [3, 2, 3, 3]) (hy : y.axes = [3, 3, 2, 2]) (a b c i j k : ℕ) :
    (es% "ekba,ecji->abcijk" x, y).denote dim I [a, b, c, i, j, k] = ∑ e ∈ range (dim 3), x.denote dim I [e, k, b, a] * y.denote dim I [e, c, j, i] := by
  simp only [Ex.denote, Body.letters, hx, hy, Body.denote, mul_one]
  rfl

theorem es_68 (hx : x.axes = [2, 2, 2, 3]) (hy : y.axes = [3, 3, 2, 2]) (a b c i j k : ℕ) :
    (es% "jima,bcmk->abcijk" x, y).denote dim I [a, b, c, i, j, k] = ∑ m ∈ range (dim 2), x.denote dim I [j, i, m, a] * y.denote dim I [b, c, m, k] := by
  simp only [Ex.denote, Body.letters, hx, hy, Body.denote, mul_one]
  rfl

theorem es_69 (hx : x.axes = [2, 2, 2, 3]) (hy : y.axes = [3, 3, 2, 2]) (a b c i j k : ℕ) :
    (es% "kima,bcmj->abcijk" x, y).denote dim I [a, b, c, i, j, k] = ∑ m ∈ range (dim 2), x.denote dim I [k, i, m, a] * y.denote dim I [b, c, m, j] := by
  simp only [Ex.denote, Body.letters, hx, hy, Body.denote, mul_one]
  rfl

theorem es_70 (hx : x.axes = [2, 2, 2, 3]) (hy : y.axes = [3, 3, 2, 2]) (a b c i j k : ℕ) :
    (es% "jkma,bcmi->abcijk" x, y).denote dim I [a, b, c, i, j, k] = ∑ m ∈ range (dim 2), x.denote dim I [j, k, m, a] * y.denote dim I [b, c, m, i] := by
  simp only [Ex.denote, Body.letters, hx, hy, Body.denote, mul_one]
  rfl

theorem es_71 (hx : x.axes = [3, 2]) (hy : y.axes = [2, 2, 3, 3]) (a b c i j k : ℕ) :
    (es% "ck,ijab->abcijk" x, y).denote dim I [a, b, c, i, j, k] = x.denote dim I [c, k] * y.denote dim I [i, j, a, b] := by
  simp only [Ex.denote, Body.letters, hx, hy, Body.denote, mul_one]
  rfl

theorem es_72 (hx : x.axes = [3, 2]) (hy : y.axes = [2, 2, 3, 3]) (a b c i j k : ℕ) :
    (es% "ak,ijcb->abcijk" x, y).denote dim I [a, b, c, i, j, k] = x.denote dim I [a, k] * y.denote dim I [i, j, c, b] := by
  simp only [Ex.denote, Body.letters, hx, hy, Body.denote, mul_one]
  rfl

theorem es_73 (hx : x.axes = [3, 2]) (hy : y.axes = [2, 2, 3, 3]) (a b c i j k : ℕ) :
    (es% "bk,ijac->abcijk" x, y).denote dim I [a, b, c, i, j, k] = x.denote dim I [b, k] * y.denote dim I [i, j, a, c] := by
  simp only [Ex.denote, Body.letters, hx, hy, Body.denote, mul_one]
  rfl

theorem es_74 (hx : x.axes = [3, 2]) (hy : y.axes = [2, 2, 3, 3]) (a b c i j k : ℕ) :
    (es% "ci,kjab->abcijk" x, y).denote dim I [a, b, c, i, j, k] = x.denote dim I [c, i] * y.denote dim I [k, j, a, b] := by
  simp only [Ex.denote, Body.letters, hx, hy, Body.denote, mul_one]
  rfl

theorem es_75 (hx : x.axes = [3, 2]) (hy : y.axes = [2, 2, 3, 3]) (a b c i j k : ℕ) :
    (es% "cj,ikab->abcijk" x, y).denote dim I [a, b, c, i, j, k] = x.denote dim I [c, j] * y.denote dim I [i, k, a, b] := by
  simp only [Ex.denote, Body.letters, hx, hy, Body.denote, mul_one]
  rfl

theorem es_76 (hx : x.axes = [3, 2]) (hy : y.axes = [2, 2, 3, 3]) (a b c i j k : ℕ) :
    (es% "ai,kjcb->abcijk" x, y).denote dim I [a, b, c, i, j, k] = x.denote dim I [a, i] * y.denote dim I [k, j, c, b] := by
  simp only [Ex.denote, Body.letters, hx, hy, Body.denote, mul_one]
  rfl

theorem es_77 (hx : x.axes = [3, 2]) (hy : y.axes = [2, 2, 3, 3]) (a b c i j k : ℕ) :
    (es% "bi,kjac->abcijk" x, y).denote dim I [a, b, c, i, j, k] = x.denote dim I [b, i] * y.denote dim I [k, j, a, c] := by
  simp only [Ex.denote, Body.letters, hx, hy, Body.denote, mul_one]
  rfl

theorem es_78 (hx : x.axes = [3, 2]) (hy : y.axes = [2, 2, 3, 3]) (a b c i j k : ℕ) :
    (es% "aj,ikcb->abcijk" x, y).denote dim I [a, b, c, i, j, k] = x.denote dim I [a, j] * y.denote dim I [i, k, c, b] := by
  simp only [Ex.denote, Body.letters, hx, hy, Body.denote, mul_one]
  rfl

theorem es_79 (hx : x.axes = [3, 2]) (hy : y.axes = [2, 2, 3, 3]) (a b c i j k : ℕ) :
    (es% "bj,ikac->abcijk" x, y).denote dim I [a, b, c, i, j, k] = x.denote dim I [b, j] * y.denote dim I [i, k, a, c] := by
  simp only [Ex.denote, Body.letters, hx, hy, Body.denote, mul_one]
  rfl

theorem es_80 (hx : x.axes = [2, 3]) (hy : y.axes = [3, 3, 2, 2]) (a b c i j k : ℕ) :
    (es% "kc,abij->abcijk" x, y).denote dim I [a, b, c, i, j, k] = x.denote dim I [k, c] * y.denote dim I [a, b, i, j] := by
  simp only [Ex.denote, Body.letters, hx, hy, Body.denote, mul_one]
  rfl

theorem es_81 (hx : x.axes = [2, 3]) (hy : y.axes = [3, 3, 2, 2]) (a b c i j k : ℕ) :
    (es% "ka,cbij->abcijk" x, y).denote dim I [a, b, c, i, j, k] = x.denote dim I [k, a] * y.denote dim I [c, b, i, j] := by
  simp only [Ex.denote, Body.letters, hx, hy, Body.denote, mul_one]
  rfl

theorem es_82 (hx : x.axes = [2, 3]) (hy : y.axes = [3, 3, 2, 2]) (a b c i j k : ℕ) :
    (es% "kb,acij->abcijk" x, y).denote dim I [a, b, c, i, j, k] = x.denote dim I [k, b] * y.denote dim I [a, c, i, j] := by
  simp only [Ex.denote, Body.letters, hx, hy, Body.denote, mul_one]
  rfl

theorem es_83 (hx : x.axes = [2, 3]) (hy : y.axes = [3, 3, 2, 2]) (a b c i j k : ℕ) :
    (es% "ic,abkj->abcijk" x, y).denote dim I [a, b, c, i, j, k] = x.denote dim I [i, c] * y.denote dim I [a, b, k, j] := by
  simp only [Ex.denote, Body.letters, hx, hy, Body.denote, mul_one]
  rfl

theorem es_84 (hx : x.axes = [2, 3]) (hy : y.axes = [3, 3, 2, 2]) (a b c i j k : ℕ) :
    (es% "jc,abik->abcijk" x, y).denote dim I [a, b, c, i, j, k] = x.denote dim I [j, c] * y.denote dim I [a, b, i, k] := by
  simp only [Ex.denote, Body.letters, hx, hy, Body.denote, mul_one]
  rfl

theorem es_85 (hx : x.axes = [2, 3]) (hy : y.axes = [3, 3, 2, 2]) (a b c i j k : ℕ) :
    (es% "ia,cbkj->abcijk" x, y).denote dim I [a, b, c, i, j, k] = x.denote dim I [i, a] * y.denote dim I [c, b, k, j] := by
  simp only [Ex.denote, Body.letters, hx, hy, Body.denote, mul_one]
  rfl

theorem es_86 (hx : x.axes = [2, 3]) (hy : y.axes = [3, 3, 2, 2]) (a b c i j k : ℕ) :
    (es% "ib,ackj->abcijk" x, y).denote dim I [a, b, c, i, j, k] = x.denote dim I [i, b] * y.denote dim I [a, c, k, j] := by
  simp only [Ex.denote, Body.letters, hx, hy, Body.denote, mul_one]
  rfl

theorem es_87 (hx : x.axes = [2, 3]) (hy : y.axes = [3, 3, 2, 2]) (a b c i j k : ℕ) :
    (es% "ja,cbik->abcijk" x, y).denote dim I [a, b, c, i, j, k] = x.denote dim I [j, a] * y.denote dim I [c, b, i, k] := by
  simp only [Ex.denote, Body.letters, hx, hy, Body.denote, mul_one]
  rfl

theorem es_88 (hx : x.axes = [2, 3]) (hy : y.axes = [3, 3, 2, 2]) (a b c i j k : ℕ) :
    (es% "jb,acik->abcijk" x, y).denote dim I [a, b, c, i, j, k] = x.denote dim I [j, b] * y.denote dim I [a, c, i, k] := by
  simp only [Ex.denote, Body.letters, hx, hy, Body.denote, mul_one]
  rfl

theorem transpose_201 {p q r u v w : ℕ} (hx : x.axes = [p, q, r, u, v, w]) (a b c i j k : ℕ) :
    (transpose [2, 0, 1, 3, 4, 5] x).denote dim I [a, b, c, i, j, k] = x.denote dim I [b, c, a, i, j, k] := by
  simp only [transpose, Ex.denote, Body.letters, hx, Body.denote, mul_one]
  rfl

theorem transpose_120 {p q r u v w : ℕ} (hx : x.axes = [p, q, r, u, v, w]) (a b c i j k : ℕ) :
    (transpose [1, 2, 0, 3, 4, 5] x).denote dim I [a, b, c, i, j, k] = x.denote dim I [c, a, b, i, j, k] := by
  simp only [transpose, Ex.denote, Body.letters, hx, Body.denote, mul_one]
  rfl

theorem transpose_021 {p q r u v w : ℕ} (hx : x.axes = [p, q, r, u, v, w]) (a b c i j k : ℕ) :
    (transpose [0, 2, 1, 3, 4, 5] x).denote dim I [a, b, c, i, j, k] = x.denote dim I [a, c, b, i, j, k] := by
  simp only [transpose, Ex.denote, Body.letters, hx, Body.denote, mul_one]
  rfl

theorem transpose_102 {p q r u v w : ℕ} (hx : x.axes = [p, q, r, u, v, w]) (a b c i j k : ℕ) :
    (transpose [1, 0, 2, 3, 4, 5] x).denote dim I [a, b, c, i, j, k] = x.denote dim I [b, a, c, i, j, k] := by
  simp only [transpose, Ex.denote, Body.letters, hx, Body.denote, mul_one]
  rfl

theorem transpose_210 {p q r u v w : ℕ} (hx : x.axes = [p, q, r, u, v, w]) (a b c i j k : ℕ) :
    (transpose [2, 1, 0, 3, 4, 5] x).denote dim I [a, b, c, i, j, k] = x.denote dim I [c, b, a, i, j, k] := by
  simp only [transpose, Ex.denote, Body.letters, hx, Body.denote, mul_one]
  rfl

end

theorem ax_H_a_ov : hbar.a.ov.axes = [0, 1] := rfl
theorem ax_H_aa_ooov : hbar.aa.ooov.axes = [0, 0, 0, 1] := rfl
theorem ax_H_aa_oovv : hbar.aa.oovv.axes = [0, 0, 1, 1] := rfl
theorem ax_H_aa_vovv : hbar.aa.vovv.axes = [1, 0, 1, 1] := rfl
theorem ax_H_ab_ooov : hbar.ab.ooov.axes = [0, 2, 0, 3] := rfl
theorem ax_H_ab_oovo : hbar.ab.oovo.axes = [0, 2, 1, 2] := rfl
theorem ax_H_ab_oovv : hbar.ab.oovv.axes = [0, 2, 1, 3] := rfl
theorem ax_H_ab_ovvv : hbar.ab.ovvv.axes = [0, 3, 1, 3] := rfl
theorem ax_H_ab_vovv : hbar.ab.vovv.axes = [1, 2, 1, 3] := rfl
theorem ax_H_b_ov : hbar.b.ov.axes = [2, 3] := rfl
theorem ax_H_bb_ooov : hbar.bb.ooov.axes = [2, 2, 2, 3] := rfl
theorem ax_H_bb_oovv : hbar.bb.oovv.axes = [2, 2, 3, 3] := rfl
theorem ax_H_bb_vovv : hbar.bb.vovv.axes = [3, 2, 3, 3] := rfl
theorem ax_L_a : excitation.a.axes = [1, 0] := rfl
theorem ax_L_aa : excitation.aa.axes = [1, 1, 0, 0] := rfl
theorem ax_L_ab : excitation.ab.axes = [1, 3, 0, 2] := rfl
theorem ax_L_b : excitation.b.axes = [3, 2] := rfl
theorem ax_L_bb : excitation.bb.axes = [3, 3, 2, 2] := rfl

section
variable (s : Setup) (m : Memory)

theorem left_a (a b c i j k : ℕ) : (argsA s m amplitudes excitation hbar stored).left (dimsOf s) (i + 1) (j + 1) (k + 1) (a + 1) (b + 1) (c + 1)
    = s.eval m (l3a excitation hbar) [a, b, c, i, j, k] := by
  delta l3a
  extract_lets x y
  have hx : x.axes = [1, 1, 1, 0, 0, 0] := rfl
  have vx : ∀ a b c i j k, x.denote (dims s.n s.na s.nb) (Tensor.elements s.na s.nb s.f s.v m) [a, b, c, i, j, k]
      = (argsA s m amplitudes excitation hbar stored).l3a (dimsOf s) (i + 1) (j + 1) (k + 1) (a + 1) (b + 1) (c + 1) := fun a b c i j k => by
    simp only [x, denote_add, denote_sub, denote_half, es_1 ax_H_aa_vovv ax_L_aa, es_2 ax_H_aa_vovv ax_L_aa, es_3 ax_H_aa_vovv ax_L_aa, es_4 ax_H_aa_ooov ax_L_aa, es_5 ax_H_aa_ooov ax_L_aa, es_6 ax_H_aa_ooov ax_L_aa]
    simp only [ArgsA.l3a, sumTo_eq]
    rfl
  have vy : y.denote (dims s.n s.na s.nb) (Tensor.elements s.na s.nb s.f s.v m) [a, b, c, i, j, k]
      = (argsA s m amplitudes excitation hbar stored).temp3 (i + 1) (j + 1) (k + 1) (a + 1) (b + 1) (c + 1) := by
    simp only [y, denote_add, denote_sub, es_7 ax_L_a ax_H_aa_oovv, es_8 ax_L_a ax_H_aa_oovv, es_9 ax_L_a ax_H_aa_oovv, es_10 ax_L_a ax_H_aa_oovv, es_11 ax_L_a ax_H_aa_oovv, es_12 ax_L_a ax_H_aa_oovv, es_13 ax_L_a ax_H_aa_oovv, es_14 ax_L_a ax_H_aa_oovv, es_15 ax_L_a ax_H_aa_oovv, es_16 ax_H_a_ov ax_L_aa, es_17 ax_H_a_ov ax_L_aa, es_18 ax_H_a_ov ax_L_aa, es_19 ax_H_a_ov ax_L_aa, es_20 ax_H_a_ov ax_L_aa, es_21 ax_H_a_ov ax_L_aa, es_22 ax_H_a_ov ax_L_aa, es_23 ax_H_a_ov ax_L_aa, es_24 ax_H_a_ov ax_L_aa]
    rfl
  simp only [Setup.eval, denote_add, denote_sub, transpose_201 hx, transpose_120 hx, transpose_021 hx, transpose_102 hx, transpose_210 hx, vx, vy]
  rfl

theorem left_b (a b c i j k : ℕ) : (argsB s m amplitudes excitation hbar stored).left (dimsOf s) (i + 1) (j + 1) (k + 1) (a + 1) (b + 1) (c + 1)
    = s.eval m (l3b excitation hbar) [a, b, c, i, j, k] := by
  delta l3b
  extract_lets x y
  have hx : x.axes = [1, 1, 3, 0, 0, 2] := rfl
  have vx : ∀ a b c i j k, x.denote (dims s.n s.na s.nb) (Tensor.elements s.na s.nb s.f s.v m) [a, b, c, i, j, k]
      = (argsB s m amplitudes excitation hbar stored).l3b (dimsOf s) (i + 1) (j + 1) (k + 1) (a + 1) (b + 1) (c + 1) := fun a b c i j k => by
    simp only [x, denote_add, denote_sub, denote_half, es_25 ax_L_aa ax_H_ab_vovv, es_26 ax_H_aa_vovv ax_L_ab, es_27 ax_H_aa_vovv ax_L_ab, es_28 ax_L_ab ax_H_ab_ovvv, es_29 ax_L_ab ax_H_ab_ovvv, es_30 ax_L_aa ax_H_ab_ooov, es_31 ax_L_aa ax_H_ab_ooov, es_32 ax_H_aa_ooov ax_L_ab, es_33 ax_H_ab_oovo ax_L_ab, es_34 ax_H_ab_oovo ax_L_ab]
    simp only [ArgsB.l3b, sumTo_eq]
    rfl
  have vy : y.denote (dims s.n s.na s.nb) (Tensor.elements s.na s.nb s.f s.v m) [a, b, c, i, j, k]
      = (argsB s m amplitudes excitation hbar stored).temp3 (i + 1) (j + 1) (k + 1) (a + 1) (b + 1) (c + 1) := by
    simp only [y, denote_add, denote_sub, es_35 ax_L_a ax_H_ab_oovv, es_36 ax_L_a ax_H_ab_oovv, es_37 ax_L_a ax_H_ab_oovv, es_38 ax_L_a ax_H_ab_oovv, es_39 ax_L_b ax_H_aa_oovv, es_40 ax_L_ab ax_H_a_ov, es_41 ax_L_ab ax_H_a_ov, es_42 ax_L_ab ax_H_a_ov, es_43 ax_L_ab ax_H_a_ov, es_44 ax_L_aa ax_H_b_ov]
    rfl
  simp only [Setup.eval, denote_add, denote_sub, transpose_102 hx, vx, vy]
  rfl

theorem left_c (a b c i j k : ℕ) : (argsC s m amplitudes excitation hbar stored).left (dimsOf s) (i + 1) (j + 1) (k + 1) (a + 1) (b + 1) (c + 1)
    = s.eval m (l3c excitation hbar) [a, b, c, i, j, k] := by
  delta l3c
  extract_lets x y
  have hx : x.axes = [1, 3, 3, 0, 2, 2] := rfl
  have vx : ∀ a b c i j k, x.denote (dims s.n s.na s.nb) (Tensor.elements s.na s.nb s.f s.v m) [a, b, c, i, j, k]
      = (argsC s m amplitudes excitation hbar stored).l3c (dimsOf s) (i + 1) (j + 1) (k + 1) (a + 1) (b + 1) (c + 1) := fun a b c i j k => by
    simp only [x, denote_add, denote_sub, denote_half, es_45 ax_H_ab_ovvv ax_L_bb, es_46 ax_L_ab ax_H_bb_vovv, es_47 ax_L_ab ax_H_bb_vovv, es_48 ax_H_ab_vovv ax_L_ab, es_49 ax_H_ab_vovv ax_L_ab, es_50 ax_H_ab_oovo ax_L_bb, es_51 ax_H_ab_oovo ax_L_bb, es_52 ax_L_ab ax_H_bb_ooov, es_53 ax_L_ab ax_H_ab_ooov, es_54 ax_L_ab ax_H_ab_ooov]
    simp only [ArgsC.l3c, sumTo_eq]
    rfl
  have vy : y.denote (dims s.n s.na s.nb) (Tensor.elements s.na s.nb s.f s.v m) [a, b, c, i, j, k]
      = (argsC s m amplitudes excitation hbar stored).temp3 (i + 1) (j + 1) (k + 1) (a + 1) (b + 1) (c + 1) := by
    simp only [y, denote_add, denote_sub, es_55 ax_L_b ax_H_ab_oovv, es_56 ax_L_b ax_H_ab_oovv, es_57 ax_L_b ax_H_ab_oovv, es_58 ax_L_b ax_H_ab_oovv, es_59 ax_L_a ax_H_bb_oovv, es_60 ax_H_b_ov ax_L_ab, es_61 ax_H_b_ov ax_L_ab, es_62 ax_H_b_ov ax_L_ab, es_63 ax_H_b_ov ax_L_ab, es_64 ax_H_a_ov ax_L_bb]
    rfl
  simp only [Setup.eval, denote_add, denote_sub, transpose_021 hx, vx, vy]
  rfl

theorem left_d (a b c i j k : ℕ) : (argsD s m amplitudes excitation hbar stored).left (dimsOf s) (i + 1) (j + 1) (k + 1) (a + 1) (b + 1) (c + 1)
    = s.eval m (l3d excitation hbar) [a, b, c, i, j, k] := by
  delta l3d
  extract_lets x y
  have hx : x.axes = [3, 3, 3, 2, 2, 2] := rfl
  have vx : ∀ a b c i j k, x.denote (dims s.n s.na s.nb) (Tensor.elements s.na s.nb s.f s.v m) [a, b, c, i, j, k]
      = (argsD s m amplitudes excitation hbar stored).l3d (dimsOf s) (i + 1) (j + 1) (k + 1) (a + 1) (b + 1) (c + 1) := fun a b c i j k => by
    simp only [x, denote_add, denote_sub, denote_half, es_65 ax_H_bb_vovv ax_L_bb, es_66 ax_H_bb_vovv ax_L_bb, es_67 ax_H_bb_vovv ax_L_bb, es_68 ax_H_bb_ooov ax_L_bb, es_69 ax_H_bb_ooov ax_L_bb, es_70 ax_H_bb_ooov ax_L_bb]
    simp only [ArgsD.l3d, sumTo_eq]
    rfl
  have vy : y.denote (dims s.n s.na s.nb) (Tensor.elements s.na s.nb s.f s.v m) [a, b, c, i, j, k]
      = (argsD s m amplitudes excitation hbar stored).temp3 (i + 1) (j + 1) (k + 1) (a + 1) (b + 1) (c + 1) := by
    simp only [y, denote_add, denote_sub, es_71 ax_L_b ax_H_bb_oovv, es_72 ax_L_b ax_H_bb_oovv, es_73 ax_L_b ax_H_bb_oovv, es_74 ax_L_b ax_H_bb_oovv, es_75 ax_L_b ax_H_bb_oovv, es_76 ax_L_b ax_H_bb_oovv, es_77 ax_L_b ax_H_bb_oovv, es_78 ax_L_b ax_H_bb_oovv, es_79 ax_L_b ax_H_bb_oovv, es_80 ax_H_b_ov ax_L_bb, es_81 ax_H_b_ov ax_L_bb, es_82 ax_H_b_ov ax_L_bb, es_83 ax_H_b_ov ax_L_bb, es_84 ax_H_b_ov ax_L_bb, es_85 ax_H_b_ov ax_L_bb, es_86 ax_H_b_ov ax_L_bb, es_87 ax_H_b_ov ax_L_bb, es_88 ax_H_b_ov ax_L_bb]
    rfl
  simp only [Setup.eval, denote_add, denote_sub, transpose_201 hx, transpose_120 hx, transpose_021 hx, transpose_102 hx, transpose_210 hx, vx, vy]
  rfl

end

end Ccpy.CrCc
