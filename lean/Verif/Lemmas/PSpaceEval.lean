import Verif.Model.PSpaceUpdate
import Verif.Lemmas.PSpaceInter
import Verif.Lemmas.DensityPrograms

/-! The programs of the triples equations as sums over orbitals. -/

namespace Ccpy.PSpace
open Ccpy.Tensor Ccpy.Fock Ccpy.Ccsdt Ccpy.Rdm
open Finset (range)

section
variable {l : List ℕ} {dim : ℕ → ℕ} {I : ℕ → List (ℕ × ℕ) → ℚ} {x y : Ex}

theorem es_1 (hx : x.axes = [0, 0, 1, 1]) (hy : y.axes = [1, 1, 1, 0, 0, 0]) (a b i e : ℕ) :
    (es% "mnef,abfimn->abie" x, y).denote dim I [a, b, i, e] = ∑ m ∈ range (dim 0), ∑ n ∈ range (dim 0), ∑ f ∈ range (dim 1), x.denote dim I [m, n, e, f] * y.denote dim I [a, b, f, i, m, n] := by
  simp only [Ex.denote, Body.letters, hx, hy, Body.denote, mul_one]
  rfl

theorem es_2 (hx : x.axes = [0, 2, 1, 3]) (hy : y.axes = [1, 1, 3, 0, 0, 2]) (a b i e : ℕ) :
    (es% "mnef,abfimn->abie" x, y).denote dim I [a, b, i, e] = ∑ m ∈ range (dim 0), ∑ n ∈ range (dim 2), ∑ f ∈ range (dim 3), x.denote dim I [m, n, e, f] * y.denote dim I [a, b, f, i, m, n] := by
  simp only [Ex.denote, Body.letters, hx, hy, Body.denote, mul_one]
  rfl

theorem es_3 (hx : x.axes = [0, 0, 1, 1]) (hy : y.axes = [1, 1, 1, 0, 0, 0]) (a m i j : ℕ) :
    (es% "mnef,aefijn->amij" x, y).denote dim I [a, m, i, j] = ∑ n ∈ range (dim 0), ∑ e ∈ range (dim 1), ∑ f ∈ range (dim 1), x.denote dim I [m, n, e, f] * y.denote dim I [a, e, f, i, j, n] := by
  simp only [Ex.denote, Body.letters, hx, hy, Body.denote, mul_one]
  rfl

theorem es_4 (hx : x.axes = [0, 2, 1, 3]) (hy : y.axes = [1, 1, 3, 0, 0, 2]) (a m i j : ℕ) :
    (es% "mnef,aefijn->amij" x, y).denote dim I [a, m, i, j] = ∑ n ∈ range (dim 2), ∑ e ∈ range (dim 1), ∑ f ∈ range (dim 3), x.denote dim I [m, n, e, f] * y.denote dim I [a, e, f, i, j, n] := by
  simp only [Ex.denote, Body.letters, hx, hy, Body.denote, mul_one]
  rfl

theorem es_5 (hx : x.axes = [0, 1]) (hy : y.axes = [1, 1, 0, 0]) (a m i j : ℕ) :
    (es% "me,aeij->amij" x, y).denote dim I [a, m, i, j] = ∑ e ∈ range (dim 1), x.denote dim I [m, e] * y.denote dim I [a, e, i, j] := by
  simp only [Ex.denote, Body.letters, hx, hy, Body.denote, mul_one]
  rfl

theorem es_6 (hx : x.axes = [1, 0, 0, 0]) (hy : y.axes = [1, 1, 0, 0]) (a b c i j k : ℕ) :
    (es% "amij,bcmk->abcijk" x, y).denote dim I [a, b, c, i, j, k] = ∑ m ∈ range (dim 0), x.denote dim I [a, m, i, j] * y.denote dim I [b, c, m, k] := by
  simp only [Ex.denote, Body.letters, hx, hy, Body.denote, mul_one]
  rfl

theorem es_7 (hx : x.axes = [1, 1, 0, 1]) (hy : y.axes = [1, 1, 0, 0]) (a b c i j k : ℕ) :
    (es% "abie,ecjk->abcijk" x, y).denote dim I [a, b, c, i, j, k] = ∑ e ∈ range (dim 1), x.denote dim I [a, b, i, e] * y.denote dim I [e, c, j, k] := by
  simp only [Ex.denote, Body.letters, hx, hy, Body.denote, mul_one]
  rfl

theorem es_8 (hx : x.axes = [0, 0]) (hy : y.axes = [1, 1, 1, 0, 0, 0]) (a b c i j k : ℕ) :
    (es% "mk,abcijm->abcijk" x, y).denote dim I [a, b, c, i, j, k] = ∑ m ∈ range (dim 0), x.denote dim I [m, k] * y.denote dim I [a, b, c, i, j, m] := by
  simp only [Ex.denote, Body.letters, hx, hy, Body.denote, mul_one]
  rfl

theorem es_9 (hx : x.axes = [1, 1]) (hy : y.axes = [1, 1, 1, 0, 0, 0]) (a b c i j k : ℕ) :
    (es% "ce,abeijk->abcijk" x, y).denote dim I [a, b, c, i, j, k] = ∑ e ∈ range (dim 1), x.denote dim I [c, e] * y.denote dim I [a, b, e, i, j, k] := by
  simp only [Ex.denote, Body.letters, hx, hy, Body.denote, mul_one]
  rfl

theorem es_10 (hx : x.axes = [0, 0, 0, 0]) (hy : y.axes = [1, 1, 1, 0, 0, 0]) (a b c i j k : ℕ) :
    (es% "mnij,abcmnk->abcijk" x, y).denote dim I [a, b, c, i, j, k] = ∑ m ∈ range (dim 0), ∑ n ∈ range (dim 0), x.denote dim I [m, n, i, j] * y.denote dim I [a, b, c, m, n, k] := by
  simp only [Ex.denote, Body.letters, hx, hy, Body.denote, mul_one]
  rfl

theorem es_11 (hx : x.axes = [1, 1, 1, 1]) (hy : y.axes = [1, 1, 1, 0, 0, 0]) (a b c i j k : ℕ) :
    (es% "abef,efcijk->abcijk" x, y).denote dim I [a, b, c, i, j, k] = ∑ e ∈ range (dim 1), ∑ f ∈ range (dim 1), x.denote dim I [a, b, e, f] * y.denote dim I [e, f, c, i, j, k] := by
  simp only [Ex.denote, Body.letters, hx, hy, Body.denote, mul_one]
  rfl

theorem es_12 (hx : x.axes = [1, 0, 0, 1]) (hy : y.axes = [1, 1, 1, 0, 0, 0]) (a b c i j k : ℕ) :
    (es% "cmke,abeijm->abcijk" x, y).denote dim I [a, b, c, i, j, k] = ∑ m ∈ range (dim 0), ∑ e ∈ range (dim 1), x.denote dim I [c, m, k, e] * y.denote dim I [a, b, e, i, j, m] := by
  simp only [Ex.denote, Body.letters, hx, hy, Body.denote, mul_one]
  rfl

theorem es_13 (hx : x.axes = [1, 2, 0, 3]) (hy : y.axes = [1, 1, 3, 0, 0, 2]) (a b c i j k : ℕ) :
    (es% "cmke,abeijm->abcijk" x, y).denote dim I [a, b, c, i, j, k] = ∑ m ∈ range (dim 2), ∑ e ∈ range (dim 3), x.denote dim I [c, m, k, e] * y.denote dim I [a, b, e, i, j, m] := by
  simp only [Ex.denote, Body.letters, hx, hy, Body.denote, mul_one]
  rfl

theorem es_14 (hx : x.axes = [0, 1]) (hy : y.axes = [1, 3, 0, 2]) (m c j k : ℕ) :
    (es% "me,ecjk->mcjk" x, y).denote dim I [m, c, j, k] = ∑ e ∈ range (dim 1), x.denote dim I [m, e] * y.denote dim I [e, c, j, k] := by
  simp only [Ex.denote, Body.letters, hx, hy, Body.denote, mul_one]
  rfl

theorem es_15 (hx : x.axes = [2, 3]) (hy : y.axes = [1, 3, 0, 2]) (a m i k : ℕ) :
    (es% "me,aeik->amik" x, y).denote dim I [a, m, i, k] = ∑ e ∈ range (dim 3), x.denote dim I [m, e] * y.denote dim I [a, e, i, k] := by
  simp only [Ex.denote, Body.letters, hx, hy, Body.denote, mul_one]
  rfl

theorem es_16 (hx : x.axes = [2, 3]) (hy : y.axes = [3, 3, 2, 2]) (a m i j : ℕ) :
    (es% "me,aeij->amij" x, y).denote dim I [a, m, i, j] = ∑ e ∈ range (dim 3), x.denote dim I [m, e] * y.denote dim I [a, e, i, j] := by
  simp only [Ex.denote, Body.letters, hx, hy, Body.denote, mul_one]
  rfl

theorem es_17 (hx : x.axes = [0, 0, 1, 1]) (hy : y.axes = [1, 1, 3, 0, 0, 2]) (a b e j : ℕ) :
    (es% "mnef,afbmnj->abej" x, y).denote dim I [a, b, e, j] = ∑ m ∈ range (dim 0), ∑ n ∈ range (dim 0), ∑ f ∈ range (dim 1), x.denote dim I [m, n, e, f] * y.denote dim I [a, f, b, m, n, j] := by
  simp only [Ex.denote, Body.letters, hx, hy, Body.denote, mul_one]
  rfl

theorem es_18 (hx : x.axes = [0, 2, 1, 3]) (hy : y.axes = [1, 3, 3, 0, 2, 2]) (a b e j : ℕ) :
    (es% "mnef,afbmnj->abej" x, y).denote dim I [a, b, e, j] = ∑ m ∈ range (dim 0), ∑ n ∈ range (dim 2), ∑ f ∈ range (dim 3), x.denote dim I [m, n, e, f] * y.denote dim I [a, f, b, m, n, j] := by
  simp only [Ex.denote, Body.letters, hx, hy, Body.denote, mul_one]
  rfl

theorem es_19 (hx : x.axes = [0, 0, 1, 1]) (hy : y.axes = [1, 1, 3, 0, 0, 2]) (m b i j : ℕ) :
    (es% "mnef,efbinj->mbij" x, y).denote dim I [m, b, i, j] = ∑ n ∈ range (dim 0), ∑ e ∈ range (dim 1), ∑ f ∈ range (dim 1), x.denote dim I [m, n, e, f] * y.denote dim I [e, f, b, i, n, j] := by
  simp only [Ex.denote, Body.letters, hx, hy, Body.denote, mul_one]
  rfl

theorem es_20 (hx : x.axes = [0, 2, 1, 3]) (hy : y.axes = [1, 3, 3, 0, 2, 2]) (m b i j : ℕ) :
    (es% "mnef,efbinj->mbij" x, y).denote dim I [m, b, i, j] = ∑ n ∈ range (dim 2), ∑ e ∈ range (dim 1), ∑ f ∈ range (dim 3), x.denote dim I [m, n, e, f] * y.denote dim I [e, f, b, i, n, j] := by
  simp only [Ex.denote, Body.letters, hx, hy, Body.denote, mul_one]
  rfl

theorem es_21 (hx : x.axes = [0, 2, 1, 3]) (hy : y.axes = [1, 1, 3, 0, 0, 2]) (a b i e : ℕ) :
    (es% "nmfe,afbinm->abie" x, y).denote dim I [a, b, i, e] = ∑ n ∈ range (dim 0), ∑ m ∈ range (dim 2), ∑ f ∈ range (dim 1), x.denote dim I [n, m, f, e] * y.denote dim I [a, f, b, i, n, m] := by
  simp only [Ex.denote, Body.letters, hx, hy, Body.denote, mul_one]
  rfl

theorem es_22 (hx : x.axes = [2, 2, 3, 3]) (hy : y.axes = [1, 3, 3, 0, 2, 2]) (a b i e : ℕ) :
    (es% "nmfe,afbinm->abie" x, y).denote dim I [a, b, i, e] = ∑ n ∈ range (dim 2), ∑ m ∈ range (dim 2), ∑ f ∈ range (dim 3), x.denote dim I [n, m, f, e] * y.denote dim I [a, f, b, i, n, m] := by
  simp only [Ex.denote, Body.letters, hx, hy, Body.denote, mul_one]
  rfl

theorem es_23 (hx : x.axes = [0, 2, 1, 3]) (hy : y.axes = [1, 1, 3, 0, 0, 2]) (a m i j : ℕ) :
    (es% "nmfe,afeinj->amij" x, y).denote dim I [a, m, i, j] = ∑ n ∈ range (dim 0), ∑ f ∈ range (dim 1), ∑ e ∈ range (dim 3), x.denote dim I [n, m, f, e] * y.denote dim I [a, f, e, i, n, j] := by
  simp only [Ex.denote, Body.letters, hx, hy, Body.denote, mul_one]
  rfl

theorem es_24 (hx : x.axes = [2, 2, 3, 3]) (hy : y.axes = [1, 3, 3, 0, 2, 2]) (a m i j : ℕ) :
    (es% "nmfe,afeinj->amij" x, y).denote dim I [a, m, i, j] = ∑ n ∈ range (dim 2), ∑ f ∈ range (dim 3), ∑ e ∈ range (dim 3), x.denote dim I [n, m, f, e] * y.denote dim I [a, f, e, i, n, j] := by
  simp only [Ex.denote, Body.letters, hx, hy, Body.denote, mul_one]
  rfl

theorem es_25 (hx : x.axes = [1, 3, 1, 2]) (hy : y.axes = [1, 1, 0, 0]) (a b c i j k : ℕ) :
    (es% "bcek,aeij->abcijk" x, y).denote dim I [a, b, c, i, j, k] = ∑ e ∈ range (dim 1), x.denote dim I [b, c, e, k] * y.denote dim I [a, e, i, j] := by
  simp only [Ex.denote, Body.letters, hx, hy, Body.denote, mul_one]
  rfl

theorem es_26 (hx : x.axes = [0, 3, 0, 2]) (hy : y.axes = [1, 1, 0, 0]) (a b c i j k : ℕ) :
    (es% "mcjk,abim->abcijk" x, y).denote dim I [a, b, c, i, j, k] = ∑ m ∈ range (dim 0), x.denote dim I [m, c, j, k] * y.denote dim I [a, b, i, m] := by
  simp only [Ex.denote, Body.letters, hx, hy, Body.denote, mul_one]
  rfl

theorem es_27 (hx : x.axes = [1, 3, 0, 3]) (hy : y.axes = [1, 3, 0, 2]) (a b c i j k : ℕ) :
    (es% "acie,bejk->abcijk" x, y).denote dim I [a, b, c, i, j, k] = ∑ e ∈ range (dim 3), x.denote dim I [a, c, i, e] * y.denote dim I [b, e, j, k] := by
  simp only [Ex.denote, Body.letters, hx, hy, Body.denote, mul_one]
  rfl

theorem es_28 (hx : x.axes = [1, 2, 0, 2]) (hy : y.axes = [1, 3, 0, 2]) (a b c i j k : ℕ) :
    (es% "amik,bcjm->abcijk" x, y).denote dim I [a, b, c, i, j, k] = ∑ m ∈ range (dim 2), x.denote dim I [a, m, i, k] * y.denote dim I [b, c, j, m] := by
  simp only [Ex.denote, Body.letters, hx, hy, Body.denote, mul_one]
  rfl

theorem es_29 (hx : x.axes = [1, 1, 0, 1]) (hy : y.axes = [1, 3, 0, 2]) (a b c i j k : ℕ) :
    (es% "abie,ecjk->abcijk" x, y).denote dim I [a, b, c, i, j, k] = ∑ e ∈ range (dim 1), x.denote dim I [a, b, i, e] * y.denote dim I [e, c, j, k] := by
  simp only [Ex.denote, Body.letters, hx, hy, Body.denote, mul_one]
  rfl

theorem es_30 (hx : x.axes = [1, 0, 0, 0]) (hy : y.axes = [1, 3, 0, 2]) (a b c i j k : ℕ) :
    (es% "amij,bcmk->abcijk" x, y).denote dim I [a, b, c, i, j, k] = ∑ m ∈ range (dim 0), x.denote dim I [a, m, i, j] * y.denote dim I [b, c, m, k] := by
  simp only [Ex.denote, Body.letters, hx, hy, Body.denote, mul_one]
  rfl

theorem es_31 (hx : x.axes = [0, 0]) (hy : y.axes = [1, 1, 3, 0, 0, 2]) (a b c i j k : ℕ) :
    (es% "mi,abcmjk->abcijk" x, y).denote dim I [a, b, c, i, j, k] = ∑ m ∈ range (dim 0), x.denote dim I [m, i] * y.denote dim I [a, b, c, m, j, k] := by
  simp only [Ex.denote, Body.letters, hx, hy, Body.denote, mul_one]
  rfl

theorem es_32 (hx : x.axes = [2, 2]) (hy : y.axes = [1, 1, 3, 0, 0, 2]) (a b c i j k : ℕ) :
    (es% "mk,abcijm->abcijk" x, y).denote dim I [a, b, c, i, j, k] = ∑ m ∈ range (dim 2), x.denote dim I [m, k] * y.denote dim I [a, b, c, i, j, m] := by
  simp only [Ex.denote, Body.letters, hx, hy, Body.denote, mul_one]
  rfl

theorem es_33 (hx : x.axes = [1, 1]) (hy : y.axes = [1, 1, 3, 0, 0, 2]) (a b c i j k : ℕ) :
    (es% "ae,ebcijk->abcijk" x, y).denote dim I [a, b, c, i, j, k] = ∑ e ∈ range (dim 1), x.denote dim I [a, e] * y.denote dim I [e, b, c, i, j, k] := by
  simp only [Ex.denote, Body.letters, hx, hy, Body.denote, mul_one]
  rfl

theorem es_34 (hx : x.axes = [3, 3]) (hy : y.axes = [1, 1, 3, 0, 0, 2]) (a b c i j k : ℕ) :
    (es% "ce,abeijk->abcijk" x, y).denote dim I [a, b, c, i, j, k] = ∑ e ∈ range (dim 3), x.denote dim I [c, e] * y.denote dim I [a, b, e, i, j, k] := by
  simp only [Ex.denote, Body.letters, hx, hy, Body.denote, mul_one]
  rfl

theorem es_35 (hx : x.axes = [0, 0, 0, 0]) (hy : y.axes = [1, 1, 3, 0, 0, 2]) (a b c i j k : ℕ) :
    (es% "mnij,abcmnk->abcijk" x, y).denote dim I [a, b, c, i, j, k] = ∑ m ∈ range (dim 0), ∑ n ∈ range (dim 0), x.denote dim I [m, n, i, j] * y.denote dim I [a, b, c, m, n, k] := by
  simp only [Ex.denote, Body.letters, hx, hy, Body.denote, mul_one]
  rfl

theorem es_36 (hx : x.axes = [0, 2, 0, 2]) (hy : y.axes = [1, 1, 3, 0, 0, 2]) (a b c i j k : ℕ) :
    (es% "mnjk,abcimn->abcijk" x, y).denote dim I [a, b, c, i, j, k] = ∑ m ∈ range (dim 0), ∑ n ∈ range (dim 2), x.denote dim I [m, n, j, k] * y.denote dim I [a, b, c, i, m, n] := by
  simp only [Ex.denote, Body.letters, hx, hy, Body.denote, mul_one]
  rfl

theorem es_37 (hx : x.axes = [1, 1, 1, 1]) (hy : y.axes = [1, 1, 3, 0, 0, 2]) (a b c i j k : ℕ) :
    (es% "abef,efcijk->abcijk" x, y).denote dim I [a, b, c, i, j, k] = ∑ e ∈ range (dim 1), ∑ f ∈ range (dim 1), x.denote dim I [a, b, e, f] * y.denote dim I [e, f, c, i, j, k] := by
  simp only [Ex.denote, Body.letters, hx, hy, Body.denote, mul_one]
  rfl

theorem es_38 (hx : x.axes = [1, 3, 1, 3]) (hy : y.axes = [1, 1, 3, 0, 0, 2]) (a b c i j k : ℕ) :
    (es% "bcef,aefijk->abcijk" x, y).denote dim I [a, b, c, i, j, k] = ∑ e ∈ range (dim 1), ∑ f ∈ range (dim 3), x.denote dim I [b, c, e, f] * y.denote dim I [a, e, f, i, j, k] := by
  simp only [Ex.denote, Body.letters, hx, hy, Body.denote, mul_one]
  rfl

theorem es_39 (hx : x.axes = [1, 0, 0, 1]) (hy : y.axes = [1, 1, 3, 0, 0, 2]) (a b c i j k : ℕ) :
    (es% "amie,ebcmjk->abcijk" x, y).denote dim I [a, b, c, i, j, k] = ∑ m ∈ range (dim 0), ∑ e ∈ range (dim 1), x.denote dim I [a, m, i, e] * y.denote dim I [e, b, c, m, j, k] := by
  simp only [Ex.denote, Body.letters, hx, hy, Body.denote, mul_one]
  rfl

theorem es_40 (hx : x.axes = [1, 2, 0, 3]) (hy : y.axes = [1, 3, 3, 0, 2, 2]) (a b c i j k : ℕ) :
    (es% "amie,becjmk->abcijk" x, y).denote dim I [a, b, c, i, j, k] = ∑ m ∈ range (dim 2), ∑ e ∈ range (dim 3), x.denote dim I [a, m, i, e] * y.denote dim I [b, e, c, j, m, k] := by
  simp only [Ex.denote, Body.letters, hx, hy, Body.denote, mul_one]
  rfl

theorem es_41 (hx : x.axes = [0, 3, 1, 2]) (hy : y.axes = [1, 1, 1, 0, 0, 0]) (a b c i j k : ℕ) :
    (es% "mcek,abeijm->abcijk" x, y).denote dim I [a, b, c, i, j, k] = ∑ m ∈ range (dim 0), ∑ e ∈ range (dim 1), x.denote dim I [m, c, e, k] * y.denote dim I [a, b, e, i, j, m] := by
  simp only [Ex.denote, Body.letters, hx, hy, Body.denote, mul_one]
  rfl

theorem es_42 (hx : x.axes = [3, 2, 2, 3]) (hy : y.axes = [1, 1, 3, 0, 0, 2]) (a b c i j k : ℕ) :
    (es% "cmke,abeijm->abcijk" x, y).denote dim I [a, b, c, i, j, k] = ∑ m ∈ range (dim 2), ∑ e ∈ range (dim 3), x.denote dim I [c, m, k, e] * y.denote dim I [a, b, e, i, j, m] := by
  simp only [Ex.denote, Body.letters, hx, hy, Body.denote, mul_one]
  rfl

theorem es_43 (hx : x.axes = [1, 2, 1, 2]) (hy : y.axes = [1, 1, 3, 0, 0, 2]) (a b c i j k : ℕ) :
    (es% "amek,ebcijm->abcijk" x, y).denote dim I [a, b, c, i, j, k] = ∑ m ∈ range (dim 2), ∑ e ∈ range (dim 1), x.denote dim I [a, m, e, k] * y.denote dim I [e, b, c, i, j, m] := by
  simp only [Ex.denote, Body.letters, hx, hy, Body.denote, mul_one]
  rfl

theorem es_44 (hx : x.axes = [0, 3, 0, 3]) (hy : y.axes = [1, 1, 3, 0, 0, 2]) (a b c i j k : ℕ) :
    (es% "mcie,abemjk->abcijk" x, y).denote dim I [a, b, c, i, j, k] = ∑ m ∈ range (dim 0), ∑ e ∈ range (dim 3), x.denote dim I [m, c, i, e] * y.denote dim I [a, b, e, m, j, k] := by
  simp only [Ex.denote, Body.letters, hx, hy, Body.denote, mul_one]
  rfl

theorem es_45 (hx : x.axes = [0, 1]) (hy : y.axes = [1, 3, 0, 2]) (m b i j : ℕ) :
    (es% "me,ebij->mbij" x, y).denote dim I [m, b, i, j] = ∑ e ∈ range (dim 1), x.denote dim I [m, e] * y.denote dim I [e, b, i, j] := by
  simp only [Ex.denote, Body.letters, hx, hy, Body.denote, mul_one]
  rfl

theorem es_46 (hx : x.axes = [2, 3]) (hy : y.axes = [1, 3, 0, 2]) (a m i j : ℕ) :
    (es% "me,aeij->amij" x, y).denote dim I [a, m, i, j] = ∑ e ∈ range (dim 3), x.denote dim I [m, e] * y.denote dim I [a, e, i, j] := by
  simp only [Ex.denote, Body.letters, hx, hy, Body.denote, mul_one]
  rfl

theorem es_47 (hx : x.axes = [2, 2, 3, 3]) (hy : y.axes = [3, 3, 3, 2, 2, 2]) (a b i e : ℕ) :
    (es% "mnef,abfimn->abie" x, y).denote dim I [a, b, i, e] = ∑ m ∈ range (dim 2), ∑ n ∈ range (dim 2), ∑ f ∈ range (dim 3), x.denote dim I [m, n, e, f] * y.denote dim I [a, b, f, i, m, n] := by
  simp only [Ex.denote, Body.letters, hx, hy, Body.denote, mul_one]
  rfl

theorem es_48 (hx : x.axes = [0, 2, 1, 3]) (hy : y.axes = [1, 3, 3, 0, 2, 2]) (a b i e : ℕ) :
    (es% "nmfe,fabnim->abie" x, y).denote dim I [a, b, i, e] = ∑ n ∈ range (dim 0), ∑ m ∈ range (dim 2), ∑ f ∈ range (dim 1), x.denote dim I [n, m, f, e] * y.denote dim I [f, a, b, n, i, m] := by
  simp only [Ex.denote, Body.letters, hx, hy, Body.denote, mul_one]
  rfl

theorem es_49 (hx : x.axes = [0, 2, 1, 3]) (hy : y.axes = [1, 3, 3, 0, 2, 2]) (a m i j : ℕ) :
    (es% "nmfe,faenij->amij" x, y).denote dim I [a, m, i, j] = ∑ n ∈ range (dim 0), ∑ f ∈ range (dim 1), ∑ e ∈ range (dim 3), x.denote dim I [n, m, f, e] * y.denote dim I [f, a, e, n, i, j] := by
  simp only [Ex.denote, Body.letters, hx, hy, Body.denote, mul_one]
  rfl

theorem es_50 (hx : x.axes = [2, 2, 3, 3]) (hy : y.axes = [3, 3, 3, 2, 2, 2]) (a m i j : ℕ) :
    (es% "mnef,aefijn->amij" x, y).denote dim I [a, m, i, j] = ∑ n ∈ range (dim 2), ∑ e ∈ range (dim 3), ∑ f ∈ range (dim 3), x.denote dim I [m, n, e, f] * y.denote dim I [a, e, f, i, j, n] := by
  simp only [Ex.denote, Body.letters, hx, hy, Body.denote, mul_one]
  rfl

theorem es_51 (hx : x.axes = [2, 3]) (hy : y.axes = [3, 3, 2, 2]) (c m k j : ℕ) :
    (es% "me,cekj->cmkj" x, y).denote dim I [c, m, k, j] = ∑ e ∈ range (dim 3), x.denote dim I [m, e] * y.denote dim I [c, e, k, j] := by
  simp only [Ex.denote, Body.letters, hx, hy, Body.denote, mul_one]
  rfl

theorem es_52 (hx : x.axes = [1, 3, 0, 3]) (hy : y.axes = [3, 3, 2, 2]) (a b c i j k : ℕ) :
    (es% "abie,ecjk->abcijk" x, y).denote dim I [a, b, c, i, j, k] = ∑ e ∈ range (dim 3), x.denote dim I [a, b, i, e] * y.denote dim I [e, c, j, k] := by
  simp only [Ex.denote, Body.letters, hx, hy, Body.denote, mul_one]
  rfl

theorem es_53 (hx : x.axes = [1, 2, 0, 2]) (hy : y.axes = [3, 3, 2, 2]) (a b c i j k : ℕ) :
    (es% "amij,bcmk->abcijk" x, y).denote dim I [a, b, c, i, j, k] = ∑ m ∈ range (dim 2), x.denote dim I [a, m, i, j] * y.denote dim I [b, c, m, k] := by
  simp only [Ex.denote, Body.letters, hx, hy, Body.denote, mul_one]
  rfl

theorem es_54 (hx : x.axes = [3, 3, 2, 3]) (hy : y.axes = [1, 3, 0, 2]) (a b c i j k : ℕ) :
    (es% "cbke,aeij->abcijk" x, y).denote dim I [a, b, c, i, j, k] = ∑ e ∈ range (dim 3), x.denote dim I [c, b, k, e] * y.denote dim I [a, e, i, j] := by
  simp only [Ex.denote, Body.letters, hx, hy, Body.denote, mul_one]
  rfl

theorem es_55 (hx : x.axes = [3, 2, 2, 2]) (hy : y.axes = [1, 3, 0, 2]) (a b c i j k : ℕ) :
    (es% "cmkj,abim->abcijk" x, y).denote dim I [a, b, c, i, j, k] = ∑ m ∈ range (dim 2), x.denote dim I [c, m, k, j] * y.denote dim I [a, b, i, m] := by
  simp only [Ex.denote, Body.letters, hx, hy, Body.denote, mul_one]
  rfl

theorem es_56 (hx : x.axes = [1, 3, 1, 2]) (hy : y.axes = [1, 3, 0, 2]) (a b c i j k : ℕ) :
    (es% "abej,ecik->abcijk" x, y).denote dim I [a, b, c, i, j, k] = ∑ e ∈ range (dim 1), x.denote dim I [a, b, e, j] * y.denote dim I [e, c, i, k] := by
  simp only [Ex.denote, Body.letters, hx, hy, Body.denote, mul_one]
  rfl

theorem es_57 (hx : x.axes = [0, 3, 0, 2]) (hy : y.axes = [1, 3, 0, 2]) (a b c i j k : ℕ) :
    (es% "mbij,acmk->abcijk" x, y).denote dim I [a, b, c, i, j, k] = ∑ m ∈ range (dim 0), x.denote dim I [m, b, i, j] * y.denote dim I [a, c, m, k] := by
  simp only [Ex.denote, Body.letters, hx, hy, Body.denote, mul_one]
  rfl

theorem es_58 (hx : x.axes = [0, 0]) (hy : y.axes = [1, 3, 3, 0, 2, 2]) (a b c i j k : ℕ) :
    (es% "mi,abcmjk->abcijk" x, y).denote dim I [a, b, c, i, j, k] = ∑ m ∈ range (dim 0), x.denote dim I [m, i] * y.denote dim I [a, b, c, m, j, k] := by
  simp only [Ex.denote, Body.letters, hx, hy, Body.denote, mul_one]
  rfl

theorem es_59 (hx : x.axes = [2, 2]) (hy : y.axes = [1, 3, 3, 0, 2, 2]) (a b c i j k : ℕ) :
    (es% "mj,abcimk->abcijk" x, y).denote dim I [a, b, c, i, j, k] = ∑ m ∈ range (dim 2), x.denote dim I [m, j] * y.denote dim I [a, b, c, i, m, k] := by
  simp only [Ex.denote, Body.letters, hx, hy, Body.denote, mul_one]
  rfl

theorem es_60 (hx : x.axes = [1, 1]) (hy : y.axes = [1, 3, 3, 0, 2, 2]) (a b c i j k : ℕ) :
    (es% "ae,ebcijk->abcijk" x, y).denote dim I [a, b, c, i, j, k] = ∑ e ∈ range (dim 1), x.denote dim I [a, e] * y.denote dim I [e, b, c, i, j, k] := by
  simp only [Ex.denote, Body.letters, hx, hy, Body.denote, mul_one]
  rfl

theorem es_61 (hx : x.axes = [3, 3]) (hy : y.axes = [1, 3, 3, 0, 2, 2]) (a b c i j k : ℕ) :
    (es% "be,aecijk->abcijk" x, y).denote dim I [a, b, c, i, j, k] = ∑ e ∈ range (dim 3), x.denote dim I [b, e] * y.denote dim I [a, e, c, i, j, k] := by
  simp only [Ex.denote, Body.letters, hx, hy, Body.denote, mul_one]
  rfl

theorem es_62 (hx : x.axes = [2, 2, 2, 2]) (hy : y.axes = [1, 3, 3, 0, 2, 2]) (a b c i j k : ℕ) :
    (es% "mnjk,abcimn->abcijk" x, y).denote dim I [a, b, c, i, j, k] = ∑ m ∈ range (dim 2), ∑ n ∈ range (dim 2), x.denote dim I [m, n, j, k] * y.denote dim I [a, b, c, i, m, n] := by
  simp only [Ex.denote, Body.letters, hx, hy, Body.denote, mul_one]
  rfl

theorem es_63 (hx : x.axes = [0, 2, 0, 2]) (hy : y.axes = [1, 3, 3, 0, 2, 2]) (a b c i j k : ℕ) :
    (es% "mnij,abcmnk->abcijk" x, y).denote dim I [a, b, c, i, j, k] = ∑ m ∈ range (dim 0), ∑ n ∈ range (dim 2), x.denote dim I [m, n, i, j] * y.denote dim I [a, b, c, m, n, k] := by
  simp only [Ex.denote, Body.letters, hx, hy, Body.denote, mul_one]
  rfl

theorem es_64 (hx : x.axes = [3, 3, 3, 3]) (hy : y.axes = [1, 3, 3, 0, 2, 2]) (a b c i j k : ℕ) :
    (es% "bcef,aefijk->abcijk" x, y).denote dim I [a, b, c, i, j, k] = ∑ e ∈ range (dim 3), ∑ f ∈ range (dim 3), x.denote dim I [b, c, e, f] * y.denote dim I [a, e, f, i, j, k] := by
  simp only [Ex.denote, Body.letters, hx, hy, Body.denote, mul_one]
  rfl

theorem es_65 (hx : x.axes = [1, 3, 1, 3]) (hy : y.axes = [1, 3, 3, 0, 2, 2]) (a b c i j k : ℕ) :
    (es% "abef,efcijk->abcijk" x, y).denote dim I [a, b, c, i, j, k] = ∑ e ∈ range (dim 1), ∑ f ∈ range (dim 3), x.denote dim I [a, b, e, f] * y.denote dim I [e, f, c, i, j, k] := by
  simp only [Ex.denote, Body.letters, hx, hy, Body.denote, mul_one]
  rfl

theorem es_66 (hx : x.axes = [1, 0, 0, 1]) (hy : y.axes = [1, 3, 3, 0, 2, 2]) (a b c i j k : ℕ) :
    (es% "amie,ebcmjk->abcijk" x, y).denote dim I [a, b, c, i, j, k] = ∑ m ∈ range (dim 0), ∑ e ∈ range (dim 1), x.denote dim I [a, m, i, e] * y.denote dim I [e, b, c, m, j, k] := by
  simp only [Ex.denote, Body.letters, hx, hy, Body.denote, mul_one]
  rfl

theorem es_67 (hx : x.axes = [1, 2, 0, 3]) (hy : y.axes = [3, 3, 3, 2, 2, 2]) (a b c i j k : ℕ) :
    (es% "amie,ebcmjk->abcijk" x, y).denote dim I [a, b, c, i, j, k] = ∑ m ∈ range (dim 2), ∑ e ∈ range (dim 3), x.denote dim I [a, m, i, e] * y.denote dim I [e, b, c, m, j, k] := by
  simp only [Ex.denote, Body.letters, hx, hy, Body.denote, mul_one]
  rfl

theorem es_68 (hx : x.axes = [0, 3, 1, 2]) (hy : y.axes = [1, 1, 3, 0, 0, 2]) (a b c i j k : ℕ) :
    (es% "mbej,aecimk->abcijk" x, y).denote dim I [a, b, c, i, j, k] = ∑ m ∈ range (dim 0), ∑ e ∈ range (dim 1), x.denote dim I [m, b, e, j] * y.denote dim I [a, e, c, i, m, k] := by
  simp only [Ex.denote, Body.letters, hx, hy, Body.denote, mul_one]
  rfl

theorem es_69 (hx : x.axes = [3, 2, 2, 3]) (hy : y.axes = [1, 3, 3, 0, 2, 2]) (a b c i j k : ℕ) :
    (es% "bmje,aecimk->abcijk" x, y).denote dim I [a, b, c, i, j, k] = ∑ m ∈ range (dim 2), ∑ e ∈ range (dim 3), x.denote dim I [b, m, j, e] * y.denote dim I [a, e, c, i, m, k] := by
  simp only [Ex.denote, Body.letters, hx, hy, Body.denote, mul_one]
  rfl

theorem es_70 (hx : x.axes = [0, 3, 0, 3]) (hy : y.axes = [1, 3, 3, 0, 2, 2]) (a b c i j k : ℕ) :
    (es% "mbie,aecmjk->abcijk" x, y).denote dim I [a, b, c, i, j, k] = ∑ m ∈ range (dim 0), ∑ e ∈ range (dim 3), x.denote dim I [m, b, i, e] * y.denote dim I [a, e, c, m, j, k] := by
  simp only [Ex.denote, Body.letters, hx, hy, Body.denote, mul_one]
  rfl

theorem es_71 (hx : x.axes = [1, 2, 1, 2]) (hy : y.axes = [1, 3, 3, 0, 2, 2]) (a b c i j k : ℕ) :
    (es% "amej,ebcimk->abcijk" x, y).denote dim I [a, b, c, i, j, k] = ∑ m ∈ range (dim 2), ∑ e ∈ range (dim 1), x.denote dim I [a, m, e, j] * y.denote dim I [e, b, c, i, m, k] := by
  simp only [Ex.denote, Body.letters, hx, hy, Body.denote, mul_one]
  rfl

theorem es_72 (hx : x.axes = [3, 2, 2, 2]) (hy : y.axes = [3, 3, 2, 2]) (a b c i j k : ℕ) :
    (es% "amij,bcmk->abcijk" x, y).denote dim I [a, b, c, i, j, k] = ∑ m ∈ range (dim 2), x.denote dim I [a, m, i, j] * y.denote dim I [b, c, m, k] := by
  simp only [Ex.denote, Body.letters, hx, hy, Body.denote, mul_one]
  rfl

theorem es_73 (hx : x.axes = [3, 3, 2, 3]) (hy : y.axes = [3, 3, 2, 2]) (a b c i j k : ℕ) :
    (es% "abie,ecjk->abcijk" x, y).denote dim I [a, b, c, i, j, k] = ∑ e ∈ range (dim 3), x.denote dim I [a, b, i, e] * y.denote dim I [e, c, j, k] := by
  simp only [Ex.denote, Body.letters, hx, hy, Body.denote, mul_one]
  rfl

theorem es_74 (hx : x.axes = [2, 2]) (hy : y.axes = [3, 3, 3, 2, 2, 2]) (a b c i j k : ℕ) :
    (es% "mk,abcijm->abcijk" x, y).denote dim I [a, b, c, i, j, k] = ∑ m ∈ range (dim 2), x.denote dim I [m, k] * y.denote dim I [a, b, c, i, j, m] := by
  simp only [Ex.denote, Body.letters, hx, hy, Body.denote, mul_one]
  rfl

theorem es_75 (hx : x.axes = [3, 3]) (hy : y.axes = [3, 3, 3, 2, 2, 2]) (a b c i j k : ℕ) :
    (es% "ce,abeijk->abcijk" x, y).denote dim I [a, b, c, i, j, k] = ∑ e ∈ range (dim 3), x.denote dim I [c, e] * y.denote dim I [a, b, e, i, j, k] := by
  simp only [Ex.denote, Body.letters, hx, hy, Body.denote, mul_one]
  rfl

theorem es_76 (hx : x.axes = [2, 2, 2, 2]) (hy : y.axes = [3, 3, 3, 2, 2, 2]) (a b c i j k : ℕ) :
    (es% "mnij,abcmnk->abcijk" x, y).denote dim I [a, b, c, i, j, k] = ∑ m ∈ range (dim 2), ∑ n ∈ range (dim 2), x.denote dim I [m, n, i, j] * y.denote dim I [a, b, c, m, n, k] := by
  simp only [Ex.denote, Body.letters, hx, hy, Body.denote, mul_one]
  rfl

theorem es_77 (hx : x.axes = [3, 3, 3, 3]) (hy : y.axes = [3, 3, 3, 2, 2, 2]) (a b c i j k : ℕ) :
    (es% "abef,efcijk->abcijk" x, y).denote dim I [a, b, c, i, j, k] = ∑ e ∈ range (dim 3), ∑ f ∈ range (dim 3), x.denote dim I [a, b, e, f] * y.denote dim I [e, f, c, i, j, k] := by
  simp only [Ex.denote, Body.letters, hx, hy, Body.denote, mul_one]
  rfl

theorem es_78 (hx : x.axes = [0, 3, 1, 2]) (hy : y.axes = [1, 3, 3, 0, 2, 2]) (a b c i j k : ℕ) :
    (es% "maei,ebcmjk->abcijk" x, y).denote dim I [a, b, c, i, j, k] = ∑ m ∈ range (dim 0), ∑ e ∈ range (dim 1), x.denote dim I [m, a, e, i] * y.denote dim I [e, b, c, m, j, k] := by
  simp only [Ex.denote, Body.letters, hx, hy, Body.denote, mul_one]
  rfl

theorem es_79 (hx : x.axes = [3, 2, 2, 3]) (hy : y.axes = [3, 3, 3, 2, 2, 2]) (a b c i j k : ℕ) :
    (es% "amie,ebcmjk->abcijk" x, y).denote dim I [a, b, c, i, j, k] = ∑ m ∈ range (dim 2), ∑ e ∈ range (dim 3), x.denote dim I [a, m, i, e] * y.denote dim I [e, b, c, m, j, k] := by
  simp only [Ex.denote, Body.letters, hx, hy, Body.denote, mul_one]
  rfl

theorem denote_eighth : (eighth x).denote dim I l = 1 / 8 * x.denote dim I l := by
  show (1 : ℚ) * (((1 : ℕ) : ℚ) / ((8 : ℕ) : ℚ)) * _ = _
  simp

theorem denote_tscale {n d : ℕ} : (Tensor.scale n d x).denote dim I l = n / d * x.denote dim I l := by
  show (1 : ℚ) * ((n : ℚ) / (d : ℚ)) * _ = _
  simp

end

theorem ax_taa : amplitudes3.aa.axes = [1, 1, 0, 0] := rfl
theorem ax_tab : amplitudes3.ab.axes = [1, 3, 0, 2] := rfl
theorem ax_tbb : amplitudes3.bb.axes = [3, 3, 2, 2] := rfl
theorem ax_taaa : amplitudes3.aaa.axes = [1, 1, 1, 0, 0, 0] := rfl
theorem ax_taab : amplitudes3.aab.axes = [1, 1, 3, 0, 0, 2] := rfl
theorem ax_tabb : amplitudes3.abb.axes = [1, 3, 3, 0, 2, 2] := rfl
theorem ax_tbbb : amplitudes3.bbb.axes = [3, 3, 3, 2, 2, 2] := rfl
theorem ax_oaa : stored.aa.oovv.axes = [0, 0, 1, 1] := rfl
theorem ax_oab : stored.ab.oovv.axes = [0, 2, 1, 3] := rfl
theorem ax_obb : stored.bb.oovv.axes = [2, 2, 3, 3] := rfl
theorem dims_0 (n na nb : ℕ) : dims n na nb 0 = na := rfl
theorem dims_1 (n na nb : ℕ) : dims n na nb 1 = n - na := rfl
theorem dims_2 (n na nb : ℕ) : dims n na nb 2 = nb := rfl
theorem dims_3 (n na nb : ℕ) : dims n na nb 3 = n - nb := rfl

/-- The blocks have the axes that their names say. -/
structure Shaped (H : Ints) : Prop where
  a_oo : H.a.oo.axes = [0, 0]
  a_ov : H.a.ov.axes = [0, 1]
  a_vv : H.a.vv.axes = [1, 1]
  aa_oooo : H.aa.oooo.axes = [0, 0, 0, 0]
  aa_vooo : H.aa.vooo.axes = [1, 0, 0, 0]
  aa_voov : H.aa.voov.axes = [1, 0, 0, 1]
  aa_vvov : H.aa.vvov.axes = [1, 1, 0, 1]
  aa_vvvv : H.aa.vvvv.axes = [1, 1, 1, 1]
  ab_oooo : H.ab.oooo.axes = [0, 2, 0, 2]
  ab_ovoo : H.ab.ovoo.axes = [0, 3, 0, 2]
  ab_ovov : H.ab.ovov.axes = [0, 3, 0, 3]
  ab_ovvo : H.ab.ovvo.axes = [0, 3, 1, 2]
  ab_vooo : H.ab.vooo.axes = [1, 2, 0, 2]
  ab_voov : H.ab.voov.axes = [1, 2, 0, 3]
  ab_vovo : H.ab.vovo.axes = [1, 2, 1, 2]
  ab_vvov : H.ab.vvov.axes = [1, 3, 0, 3]
  ab_vvvo : H.ab.vvvo.axes = [1, 3, 1, 2]
  ab_vvvv : H.ab.vvvv.axes = [1, 3, 1, 3]
  b_oo : H.b.oo.axes = [2, 2]
  b_ov : H.b.ov.axes = [2, 3]
  b_vv : H.b.vv.axes = [3, 3]
  bb_oooo : H.bb.oooo.axes = [2, 2, 2, 2]
  bb_vooo : H.bb.vooo.axes = [3, 2, 2, 2]
  bb_voov : H.bb.voov.axes = [3, 2, 2, 3]
  bb_vvov : H.bb.vvov.axes = [3, 3, 2, 3]
  bb_vvvv : H.bb.vvvv.axes = [3, 3, 3, 3]

section
variable {s : Setup} {mem : Memory} {H : Ints} (hH : Shaped H) {X : Dressed} (hX : dressed s mem amplitudes3.toAmps H = X) {d : Dims} (hd : dimsOf s = d) {T₃ : Triples}
  (hAAA : ∀ a b c i j k, amplitudes3.aaa.denote (dims s.n s.na s.nb) (Tensor.elements s.na s.nb s.f s.v mem) [a, b, c, i, j, k] = T₃.tAAA a b c i j k)
  (hAAB : ∀ a b c i j k, amplitudes3.aab.denote (dims s.n s.na s.nb) (Tensor.elements s.na s.nb s.f s.v mem) [a, b, c, i, j, k] = T₃.tAAB a b c i j k)
  (hABB : ∀ a b c i j k, amplitudes3.abb.denote (dims s.n s.na s.nb) (Tensor.elements s.na s.nb s.f s.v mem) [a, b, c, i, j, k] = T₃.tABB a b c i j k)
  (hBBB : ∀ a b c i j k, amplitudes3.bbb.denote (dims s.n s.na s.nb) (Tensor.elements s.na s.nb s.f s.v mem) [a, b, c, i, j, k] = T₃.tBBB a b c i j k)
include hH hX hd hAAA hAAB hABB hBBB

theorem eval_residualT3a (a b c i j k : ℕ) :
    s.eval mem (residualT3a amplitudes3 H stored) [a, b, c, i, j, k] =
      -(1 / 4 * (∑ m ∈ range d.oa, vooA X d T₃.tAAA T₃.tAAB a m i j * X.t_aa b c m k))
      + 1 / 4 * (∑ e ∈ range d.ua, vvoA X d T₃.tAAA T₃.tAAB a b i e * X.t_aa e c j k)
      - 1 / 12 * (∑ m ∈ range d.oa, X.a_oo m k * T₃.tAAA a b c i j m)
      + 1 / 12 * (∑ e ∈ range d.ua, X.a_vv c e * T₃.tAAA a b e i j k)
      + 1 / 24 * (∑ m ∈ range d.oa, ∑ n ∈ range d.oa, X.aa_oooo m n i j * T₃.tAAA a b c m n k)
      + 1 / 24 * (∑ e ∈ range d.ua, ∑ f ∈ range d.ua, X.aa_vvvv a b e f * T₃.tAAA e f c i j k)
      + 1 / 4 * (∑ m ∈ range d.oa, ∑ e ∈ range d.ua, X.aa_voov c m k e * T₃.tAAA a b e i j m)
      + 1 / 4 * (∑ m ∈ range d.ob, ∑ e ∈ range d.ub, X.ab_voov c m k e * T₃.tAAB a b e i j m) := by
  delta residualT3a
  extract_lets I2A_vvov_1 I2A_vvov_2 I2A_vvov_3 I2A_vooo_1 I2A_vooo_2 I2A_vooo_3 dT_aaa_1 dT_aaa_2 dT_aaa_3 dT_aaa_4 dT_aaa_5 dT_aaa_6 dT_aaa_7 dT_aaa_8
  have x_I2A_vooo : I2A_vooo_3.axes = [1, 0, 0, 0] := rfl
  have v_I2A_vooo : ∀ a m i j, I2A_vooo_3.denote (dims s.n s.na s.nb) (Tensor.elements s.na s.nb s.f s.v mem) [a, m, i, j] = vooA X d T₃.tAAA T₃.tAAB a m i j := by
    intro a m i j
    have hh := congrFun (congrFun (congrFun (congrFun (congrArg Dressed.aa_vooo hX) a) m) i) j
    simp only [dressed, Setup.eval, denote_sub, es_1 ax_oaa ax_taaa, es_14 hH.a_ov ax_tab, es_15 hH.b_ov ax_tab, es_16 hH.b_ov ax_tbb, es_2 ax_oab ax_taab, es_3 ax_oaa ax_taaa, es_4 ax_oab ax_taab, es_5 hH.a_ov ax_taa] at hh
    simp only [I2A_vooo_3, I2A_vooo_2, I2A_vooo_1, denote_add, denote_sub, denote_neg, denote_half, es_1 ax_oaa ax_taaa, es_14 hH.a_ov ax_tab, es_15 hH.b_ov ax_tab, es_16 hH.b_ov ax_tbb, es_2 ax_oab ax_taab, es_3 ax_oaa ax_taaa, es_4 ax_oab ax_taab, es_5 hH.a_ov ax_taa, vooA, vooA_t3a, vooA_t3b, hh]
    try simp only [hAAA, hAAB, hABB, hBBB]
    simp only [← hX, ← hd, dressed, dimsOf, Setup.eval, dims_0, dims_1, dims_2, dims_3, denote_sub, es_1 ax_oaa ax_taaa, es_14 hH.a_ov ax_tab, es_15 hH.b_ov ax_tab, es_16 hH.b_ov ax_tbb, es_2 ax_oab ax_taab, es_3 ax_oaa ax_taaa, es_4 ax_oab ax_taab, es_5 hH.a_ov ax_taa]
    all_goals ring
  have x_I2A_vvov : I2A_vvov_3.axes = [1, 1, 0, 1] := rfl
  have v_I2A_vvov : ∀ a b i e, I2A_vvov_3.denote (dims s.n s.na s.nb) (Tensor.elements s.na s.nb s.f s.v mem) [a, b, i, e] = vvoA X d T₃.tAAA T₃.tAAB a b i e := by
    intro a b i e
    have hh := congrFun (congrFun (congrFun (congrFun (congrArg Dressed.aa_vvov hX) a) b) i) e
    simp only [dressed, Setup.eval, denote_sub, es_1 ax_oaa ax_taaa, es_14 hH.a_ov ax_tab, es_15 hH.b_ov ax_tab, es_16 hH.b_ov ax_tbb, es_2 ax_oab ax_taab, es_3 ax_oaa ax_taaa, es_4 ax_oab ax_taab, es_5 hH.a_ov ax_taa] at hh
    simp only [I2A_vvov_3, I2A_vvov_2, I2A_vvov_1, denote_add, denote_sub, denote_neg, denote_half, es_1 ax_oaa ax_taaa, es_14 hH.a_ov ax_tab, es_15 hH.b_ov ax_tab, es_16 hH.b_ov ax_tbb, es_2 ax_oab ax_taab, es_3 ax_oaa ax_taaa, es_4 ax_oab ax_taab, es_5 hH.a_ov ax_taa, vvoA, vvoA_t3a, vvoA_t3b, hh]
    try simp only [hAAA, hAAB, hABB, hBBB]
    simp only [← hX, ← hd, dressed, dimsOf, Setup.eval, dims_0, dims_1, dims_2, dims_3, denote_sub, es_1 ax_oaa ax_taaa, es_14 hH.a_ov ax_tab, es_15 hH.b_ov ax_tab, es_16 hH.b_ov ax_tbb, es_2 ax_oab ax_taab, es_3 ax_oaa ax_taaa, es_4 ax_oab ax_taab, es_5 hH.a_ov ax_taa]
    all_goals ring
  simp only [dT_aaa_8, dT_aaa_7, dT_aaa_6, dT_aaa_5, dT_aaa_4, dT_aaa_3, dT_aaa_2, dT_aaa_1, Setup.eval, denote_add, denote_sub, denote_neg, denote_half, denote_quarter, denote_eighth, denote_tscale, es_10 hH.aa_oooo ax_taaa, es_11 hH.aa_vvvv ax_taaa, es_12 hH.aa_voov ax_taaa, es_13 hH.ab_voov ax_taab, es_6 x_I2A_vooo ax_taa, es_7 x_I2A_vvov ax_taa, es_8 hH.a_oo ax_taaa, es_9 hH.a_vv ax_taaa,
    v_I2A_vooo, v_I2A_vvov]
  simp only [hAAA, hAAB, hABB, hBBB, ← hX, ← hd, dressed, dimsOf, Setup.eval, dims_0, dims_1, dims_2, dims_3, denote_sub, es_1 ax_oaa ax_taaa, es_14 hH.a_ov ax_tab, es_15 hH.b_ov ax_tab, es_16 hH.b_ov ax_tbb, es_2 ax_oab ax_taab, es_3 ax_oaa ax_taaa, es_4 ax_oab ax_taab, es_5 hH.a_ov ax_taa]
  all_goals push_cast
  all_goals ring

theorem eval_residualT3b (a b c i j k : ℕ) :
    s.eval mem (residualT3b amplitudes3 H stored) [a, b, c, i, j, k] =
      1 / 2 * (∑ e ∈ range d.ua, vvvB X d T₃.tAAB T₃.tABB b c e k * X.t_aa a e i j)
      - 1 / 2 * (∑ m ∈ range d.oa, ovoB X d T₃.tAAB T₃.tABB m c j k * X.t_aa a b i m)
      + (∑ e ∈ range d.ub, vvoB X d T₃.tAAB T₃.tABB a c i e * X.t_ab b e j k)
      - (∑ m ∈ range d.ob, vooB X d T₃.tAAB T₃.tABB a m i k * X.t_ab b c j m)
      + 1 / 2 * (∑ e ∈ range d.ua, vvoA X d T₃.tAAA T₃.tAAB a b i e * X.t_ab e c j k)
      - 1 / 2 * (∑ m ∈ range d.oa, vooA X d T₃.tAAA T₃.tAAB a m i j * X.t_ab b c m k)
      - 1 / 2 * (∑ m ∈ range d.oa, X.a_oo m i * T₃.tAAB a b c m j k)
      - 1 / 4 * (∑ m ∈ range d.ob, X.b_oo m k * T₃.tAAB a b c i j m)
      + 1 / 2 * (∑ e ∈ range d.ua, X.a_vv a e * T₃.tAAB e b c i j k)
      + 1 / 4 * (∑ e ∈ range d.ub, X.b_vv c e * T₃.tAAB a b e i j k)
      + 1 / 8 * (∑ m ∈ range d.oa, ∑ n ∈ range d.oa, X.aa_oooo m n i j * T₃.tAAB a b c m n k)
      + 1 / 2 * (∑ m ∈ range d.oa, ∑ n ∈ range d.ob, X.ab_oooo m n j k * T₃.tAAB a b c i m n)
      + 1 / 8 * (∑ e ∈ range d.ua, ∑ f ∈ range d.ua, X.aa_vvvv a b e f * T₃.tAAB e f c i j k)
      + 1 / 2 * (∑ e ∈ range d.ua, ∑ f ∈ range d.ub, X.ab_vvvv b c e f * T₃.tAAB a e f i j k)
      + (∑ m ∈ range d.oa, ∑ e ∈ range d.ua, X.aa_voov a m i e * T₃.tAAB e b c m j k)
      + (∑ m ∈ range d.ob, ∑ e ∈ range d.ub, X.ab_voov a m i e * T₃.tABB b e c j m k)
      + 1 / 4 * (∑ m ∈ range d.oa, ∑ e ∈ range d.ua, X.ab_ovvo m c e k * T₃.tAAA a b e i j m)
      + 1 / 4 * (∑ m ∈ range d.ob, ∑ e ∈ range d.ub, X.bb_voov c m k e * T₃.tAAB a b e i j m)
      - 1 / 2 * (∑ m ∈ range d.ob, ∑ e ∈ range d.ua, X.ab_vovo a m e k * T₃.tAAB e b c i j m)
      - 1 / 2 * (∑ m ∈ range d.oa, ∑ e ∈ range d.ub, X.ab_ovov m c i e * T₃.tAAB a b e m j k) := by
  delta residualT3b
  extract_lets I2A_vvov_1 I2A_vvov_2 I2A_vvov_3 I2A_vooo_1 I2A_vooo_2 I2A_vooo_3 I2A_vooo_4 I2B_vvvo_1 I2B_vvvo_2 I2B_vvvo_3 I2B_ovoo_1 I2B_ovoo_2 I2B_ovoo_3 I2B_ovoo_4 I2B_vvov_1 I2B_vvov_2 I2B_vvov_3 I2B_vooo_1 I2B_vooo_2 I2B_vooo_3 I2B_vooo_4 dT_aab_1 dT_aab_2 dT_aab_3 dT_aab_4 dT_aab_5 dT_aab_6 dT_aab_7 dT_aab_8 dT_aab_9 dT_aab_10 dT_aab_11 dT_aab_12 dT_aab_13 dT_aab_14 dT_aab_15 dT_aab_16 dT_aab_17 dT_aab_18 dT_aab_19 dT_aab_20
  have x_I2A_vooo : I2A_vooo_4.axes = [1, 0, 0, 0] := rfl
  have v_I2A_vooo : ∀ a m i j, I2A_vooo_4.denote (dims s.n s.na s.nb) (Tensor.elements s.na s.nb s.f s.v mem) [a, m, i, j] = vooA X d T₃.tAAA T₃.tAAB a m i j := by
    intro a m i j
    have hh := congrFun (congrFun (congrFun (congrFun (congrArg Dressed.aa_vooo hX) a) m) i) j
    simp only [dressed, Setup.eval, denote_sub, es_1 ax_oaa ax_taaa, es_14 hH.a_ov ax_tab, es_15 hH.b_ov ax_tab, es_16 hH.b_ov ax_tbb, es_17 ax_oaa ax_taab, es_18 ax_oab ax_tabb, es_19 ax_oaa ax_taab, es_2 ax_oab ax_taab, es_20 ax_oab ax_tabb, es_21 ax_oab ax_taab, es_22 ax_obb ax_tabb, es_23 ax_oab ax_taab, es_24 ax_obb ax_tabb, es_3 ax_oaa ax_taaa, es_4 ax_oab ax_taab, es_5 hH.a_ov ax_taa] at hh
    simp only [I2A_vooo_4, I2A_vooo_3, I2A_vooo_2, I2A_vooo_1, denote_add, denote_sub, denote_neg, denote_half, es_1 ax_oaa ax_taaa, es_14 hH.a_ov ax_tab, es_15 hH.b_ov ax_tab, es_16 hH.b_ov ax_tbb, es_17 ax_oaa ax_taab, es_18 ax_oab ax_tabb, es_19 ax_oaa ax_taab, es_2 ax_oab ax_taab, es_20 ax_oab ax_tabb, es_21 ax_oab ax_taab, es_22 ax_obb ax_tabb, es_23 ax_oab ax_taab, es_24 ax_obb ax_tabb, es_3 ax_oaa ax_taaa, es_4 ax_oab ax_taab, es_5 hH.a_ov ax_taa, vooA, vooA_t3a, vooA_t3b, hh]
    try simp only [hAAA, hAAB, hABB, hBBB]
    simp only [← hX, ← hd, dressed, dimsOf, Setup.eval, dims_0, dims_1, dims_2, dims_3, denote_sub, es_1 ax_oaa ax_taaa, es_14 hH.a_ov ax_tab, es_15 hH.b_ov ax_tab, es_16 hH.b_ov ax_tbb, es_17 ax_oaa ax_taab, es_18 ax_oab ax_tabb, es_19 ax_oaa ax_taab, es_2 ax_oab ax_taab, es_20 ax_oab ax_tabb, es_21 ax_oab ax_taab, es_22 ax_obb ax_tabb, es_23 ax_oab ax_taab, es_24 ax_obb ax_tabb, es_3 ax_oaa ax_taaa, es_4 ax_oab ax_taab, es_5 hH.a_ov ax_taa]
    all_goals ring
  have x_I2A_vvov : I2A_vvov_3.axes = [1, 1, 0, 1] := rfl
  have v_I2A_vvov : ∀ a b i e, I2A_vvov_3.denote (dims s.n s.na s.nb) (Tensor.elements s.na s.nb s.f s.v mem) [a, b, i, e] = vvoA X d T₃.tAAA T₃.tAAB a b i e := by
    intro a b i e
    have hh := congrFun (congrFun (congrFun (congrFun (congrArg Dressed.aa_vvov hX) a) b) i) e
    simp only [dressed, Setup.eval, denote_sub, es_1 ax_oaa ax_taaa, es_14 hH.a_ov ax_tab, es_15 hH.b_ov ax_tab, es_16 hH.b_ov ax_tbb, es_17 ax_oaa ax_taab, es_18 ax_oab ax_tabb, es_19 ax_oaa ax_taab, es_2 ax_oab ax_taab, es_20 ax_oab ax_tabb, es_21 ax_oab ax_taab, es_22 ax_obb ax_tabb, es_23 ax_oab ax_taab, es_24 ax_obb ax_tabb, es_3 ax_oaa ax_taaa, es_4 ax_oab ax_taab, es_5 hH.a_ov ax_taa] at hh
    simp only [I2A_vvov_3, I2A_vvov_2, I2A_vvov_1, denote_add, denote_sub, denote_neg, denote_half, es_1 ax_oaa ax_taaa, es_14 hH.a_ov ax_tab, es_15 hH.b_ov ax_tab, es_16 hH.b_ov ax_tbb, es_17 ax_oaa ax_taab, es_18 ax_oab ax_tabb, es_19 ax_oaa ax_taab, es_2 ax_oab ax_taab, es_20 ax_oab ax_tabb, es_21 ax_oab ax_taab, es_22 ax_obb ax_tabb, es_23 ax_oab ax_taab, es_24 ax_obb ax_tabb, es_3 ax_oaa ax_taaa, es_4 ax_oab ax_taab, es_5 hH.a_ov ax_taa, vvoA, vvoA_t3a, vvoA_t3b, hh]
    try simp only [hAAA, hAAB, hABB, hBBB]
    simp only [← hX, ← hd, dressed, dimsOf, Setup.eval, dims_0, dims_1, dims_2, dims_3, denote_sub, es_1 ax_oaa ax_taaa, es_14 hH.a_ov ax_tab, es_15 hH.b_ov ax_tab, es_16 hH.b_ov ax_tbb, es_17 ax_oaa ax_taab, es_18 ax_oab ax_tabb, es_19 ax_oaa ax_taab, es_2 ax_oab ax_taab, es_20 ax_oab ax_tabb, es_21 ax_oab ax_taab, es_22 ax_obb ax_tabb, es_23 ax_oab ax_taab, es_24 ax_obb ax_tabb, es_3 ax_oaa ax_taaa, es_4 ax_oab ax_taab, es_5 hH.a_ov ax_taa]
    all_goals ring
  have x_I2B_ovoo : I2B_ovoo_4.axes = [0, 3, 0, 2] := rfl
  have v_I2B_ovoo : ∀ m b i j, I2B_ovoo_4.denote (dims s.n s.na s.nb) (Tensor.elements s.na s.nb s.f s.v mem) [m, b, i, j] = ovoB X d T₃.tAAB T₃.tABB m b i j := by
    intro m b i j
    have hh := congrFun (congrFun (congrFun (congrFun (congrArg Dressed.ab_ovoo hX) m) b) i) j
    simp only [dressed, Setup.eval, denote_sub, es_1 ax_oaa ax_taaa, es_14 hH.a_ov ax_tab, es_15 hH.b_ov ax_tab, es_16 hH.b_ov ax_tbb, es_17 ax_oaa ax_taab, es_18 ax_oab ax_tabb, es_19 ax_oaa ax_taab, es_2 ax_oab ax_taab, es_20 ax_oab ax_tabb, es_21 ax_oab ax_taab, es_22 ax_obb ax_tabb, es_23 ax_oab ax_taab, es_24 ax_obb ax_tabb, es_3 ax_oaa ax_taaa, es_4 ax_oab ax_taab, es_5 hH.a_ov ax_taa] at hh
    simp only [I2B_ovoo_4, I2B_ovoo_3, I2B_ovoo_2, I2B_ovoo_1, denote_add, denote_sub, denote_neg, denote_half, es_1 ax_oaa ax_taaa, es_14 hH.a_ov ax_tab, es_15 hH.b_ov ax_tab, es_16 hH.b_ov ax_tbb, es_17 ax_oaa ax_taab, es_18 ax_oab ax_tabb, es_19 ax_oaa ax_taab, es_2 ax_oab ax_taab, es_20 ax_oab ax_tabb, es_21 ax_oab ax_taab, es_22 ax_obb ax_tabb, es_23 ax_oab ax_taab, es_24 ax_obb ax_tabb, es_3 ax_oaa ax_taaa, es_4 ax_oab ax_taab, es_5 hH.a_ov ax_taa, ovoB, ovoB_t3b, ovoB_t3c, hh]
    try simp only [hAAA, hAAB, hABB, hBBB]
    simp only [← hX, ← hd, dressed, dimsOf, Setup.eval, dims_0, dims_1, dims_2, dims_3, denote_sub, es_1 ax_oaa ax_taaa, es_14 hH.a_ov ax_tab, es_15 hH.b_ov ax_tab, es_16 hH.b_ov ax_tbb, es_17 ax_oaa ax_taab, es_18 ax_oab ax_tabb, es_19 ax_oaa ax_taab, es_2 ax_oab ax_taab, es_20 ax_oab ax_tabb, es_21 ax_oab ax_taab, es_22 ax_obb ax_tabb, es_23 ax_oab ax_taab, es_24 ax_obb ax_tabb, es_3 ax_oaa ax_taaa, es_4 ax_oab ax_taab, es_5 hH.a_ov ax_taa]
    all_goals ring
  have x_I2B_vooo : I2B_vooo_4.axes = [1, 2, 0, 2] := rfl
  have v_I2B_vooo : ∀ a m i j, I2B_vooo_4.denote (dims s.n s.na s.nb) (Tensor.elements s.na s.nb s.f s.v mem) [a, m, i, j] = vooB X d T₃.tAAB T₃.tABB a m i j := by
    intro a m i j
    have hh := congrFun (congrFun (congrFun (congrFun (congrArg Dressed.ab_vooo hX) a) m) i) j
    simp only [dressed, Setup.eval, denote_sub, es_1 ax_oaa ax_taaa, es_14 hH.a_ov ax_tab, es_15 hH.b_ov ax_tab, es_16 hH.b_ov ax_tbb, es_17 ax_oaa ax_taab, es_18 ax_oab ax_tabb, es_19 ax_oaa ax_taab, es_2 ax_oab ax_taab, es_20 ax_oab ax_tabb, es_21 ax_oab ax_taab, es_22 ax_obb ax_tabb, es_23 ax_oab ax_taab, es_24 ax_obb ax_tabb, es_3 ax_oaa ax_taaa, es_4 ax_oab ax_taab, es_5 hH.a_ov ax_taa] at hh
    simp only [I2B_vooo_4, I2B_vooo_3, I2B_vooo_2, I2B_vooo_1, denote_add, denote_sub, denote_neg, denote_half, es_1 ax_oaa ax_taaa, es_14 hH.a_ov ax_tab, es_15 hH.b_ov ax_tab, es_16 hH.b_ov ax_tbb, es_17 ax_oaa ax_taab, es_18 ax_oab ax_tabb, es_19 ax_oaa ax_taab, es_2 ax_oab ax_taab, es_20 ax_oab ax_tabb, es_21 ax_oab ax_taab, es_22 ax_obb ax_tabb, es_23 ax_oab ax_taab, es_24 ax_obb ax_tabb, es_3 ax_oaa ax_taaa, es_4 ax_oab ax_taab, es_5 hH.a_ov ax_taa, vooB, vooB_t3b, vooB_t3c, hh]
    try simp only [hAAA, hAAB, hABB, hBBB]
    simp only [← hX, ← hd, dressed, dimsOf, Setup.eval, dims_0, dims_1, dims_2, dims_3, denote_sub, es_1 ax_oaa ax_taaa, es_14 hH.a_ov ax_tab, es_15 hH.b_ov ax_tab, es_16 hH.b_ov ax_tbb, es_17 ax_oaa ax_taab, es_18 ax_oab ax_tabb, es_19 ax_oaa ax_taab, es_2 ax_oab ax_taab, es_20 ax_oab ax_tabb, es_21 ax_oab ax_taab, es_22 ax_obb ax_tabb, es_23 ax_oab ax_taab, es_24 ax_obb ax_tabb, es_3 ax_oaa ax_taaa, es_4 ax_oab ax_taab, es_5 hH.a_ov ax_taa]
    all_goals ring
  have x_I2B_vvov : I2B_vvov_3.axes = [1, 3, 0, 3] := rfl
  have v_I2B_vvov : ∀ a b i e, I2B_vvov_3.denote (dims s.n s.na s.nb) (Tensor.elements s.na s.nb s.f s.v mem) [a, b, i, e] = vvoB X d T₃.tAAB T₃.tABB a b i e := by
    intro a b i e
    have hh := congrFun (congrFun (congrFun (congrFun (congrArg Dressed.ab_vvov hX) a) b) i) e
    simp only [dressed, Setup.eval, denote_sub, es_1 ax_oaa ax_taaa, es_14 hH.a_ov ax_tab, es_15 hH.b_ov ax_tab, es_16 hH.b_ov ax_tbb, es_17 ax_oaa ax_taab, es_18 ax_oab ax_tabb, es_19 ax_oaa ax_taab, es_2 ax_oab ax_taab, es_20 ax_oab ax_tabb, es_21 ax_oab ax_taab, es_22 ax_obb ax_tabb, es_23 ax_oab ax_taab, es_24 ax_obb ax_tabb, es_3 ax_oaa ax_taaa, es_4 ax_oab ax_taab, es_5 hH.a_ov ax_taa] at hh
    simp only [I2B_vvov_3, I2B_vvov_2, I2B_vvov_1, denote_add, denote_sub, denote_neg, denote_half, es_1 ax_oaa ax_taaa, es_14 hH.a_ov ax_tab, es_15 hH.b_ov ax_tab, es_16 hH.b_ov ax_tbb, es_17 ax_oaa ax_taab, es_18 ax_oab ax_tabb, es_19 ax_oaa ax_taab, es_2 ax_oab ax_taab, es_20 ax_oab ax_tabb, es_21 ax_oab ax_taab, es_22 ax_obb ax_tabb, es_23 ax_oab ax_taab, es_24 ax_obb ax_tabb, es_3 ax_oaa ax_taaa, es_4 ax_oab ax_taab, es_5 hH.a_ov ax_taa, vvoB, vvoB_t3b, vvoB_t3c, hh]
    try simp only [hAAA, hAAB, hABB, hBBB]
    simp only [← hX, ← hd, dressed, dimsOf, Setup.eval, dims_0, dims_1, dims_2, dims_3, denote_sub, es_1 ax_oaa ax_taaa, es_14 hH.a_ov ax_tab, es_15 hH.b_ov ax_tab, es_16 hH.b_ov ax_tbb, es_17 ax_oaa ax_taab, es_18 ax_oab ax_tabb, es_19 ax_oaa ax_taab, es_2 ax_oab ax_taab, es_20 ax_oab ax_tabb, es_21 ax_oab ax_taab, es_22 ax_obb ax_tabb, es_23 ax_oab ax_taab, es_24 ax_obb ax_tabb, es_3 ax_oaa ax_taaa, es_4 ax_oab ax_taab, es_5 hH.a_ov ax_taa]
    all_goals ring
  have x_I2B_vvvo : I2B_vvvo_3.axes = [1, 3, 1, 2] := rfl
  have v_I2B_vvvo : ∀ a b e j, I2B_vvvo_3.denote (dims s.n s.na s.nb) (Tensor.elements s.na s.nb s.f s.v mem) [a, b, e, j] = vvvB X d T₃.tAAB T₃.tABB a b e j := by
    intro a b e j
    have hh := congrFun (congrFun (congrFun (congrFun (congrArg Dressed.ab_vvvo hX) a) b) e) j
    simp only [dressed, Setup.eval, denote_sub, es_1 ax_oaa ax_taaa, es_14 hH.a_ov ax_tab, es_15 hH.b_ov ax_tab, es_16 hH.b_ov ax_tbb, es_17 ax_oaa ax_taab, es_18 ax_oab ax_tabb, es_19 ax_oaa ax_taab, es_2 ax_oab ax_taab, es_20 ax_oab ax_tabb, es_21 ax_oab ax_taab, es_22 ax_obb ax_tabb, es_23 ax_oab ax_taab, es_24 ax_obb ax_tabb, es_3 ax_oaa ax_taaa, es_4 ax_oab ax_taab, es_5 hH.a_ov ax_taa] at hh
    simp only [I2B_vvvo_3, I2B_vvvo_2, I2B_vvvo_1, denote_add, denote_sub, denote_neg, denote_half, es_1 ax_oaa ax_taaa, es_14 hH.a_ov ax_tab, es_15 hH.b_ov ax_tab, es_16 hH.b_ov ax_tbb, es_17 ax_oaa ax_taab, es_18 ax_oab ax_tabb, es_19 ax_oaa ax_taab, es_2 ax_oab ax_taab, es_20 ax_oab ax_tabb, es_21 ax_oab ax_taab, es_22 ax_obb ax_tabb, es_23 ax_oab ax_taab, es_24 ax_obb ax_tabb, es_3 ax_oaa ax_taaa, es_4 ax_oab ax_taab, es_5 hH.a_ov ax_taa, vvvB, vvvB_t3b, vvvB_t3c, hh]
    try simp only [hAAA, hAAB, hABB, hBBB]
    simp only [← hX, ← hd, dressed, dimsOf, Setup.eval, dims_0, dims_1, dims_2, dims_3, denote_sub, es_1 ax_oaa ax_taaa, es_14 hH.a_ov ax_tab, es_15 hH.b_ov ax_tab, es_16 hH.b_ov ax_tbb, es_17 ax_oaa ax_taab, es_18 ax_oab ax_tabb, es_19 ax_oaa ax_taab, es_2 ax_oab ax_taab, es_20 ax_oab ax_tabb, es_21 ax_oab ax_taab, es_22 ax_obb ax_tabb, es_23 ax_oab ax_taab, es_24 ax_obb ax_tabb, es_3 ax_oaa ax_taaa, es_4 ax_oab ax_taab, es_5 hH.a_ov ax_taa]
    all_goals ring
  simp only [dT_aab_20, dT_aab_19, dT_aab_18, dT_aab_17, dT_aab_16, dT_aab_15, dT_aab_14, dT_aab_13, dT_aab_12, dT_aab_11, dT_aab_10, dT_aab_9, dT_aab_8, dT_aab_7, dT_aab_6, dT_aab_5, dT_aab_4, dT_aab_3, dT_aab_2, dT_aab_1, Setup.eval, denote_add, denote_sub, denote_neg, denote_half, denote_quarter, denote_eighth, denote_tscale, es_25 x_I2B_vvvo ax_taa, es_26 x_I2B_ovoo ax_taa, es_27 x_I2B_vvov ax_tab, es_28 x_I2B_vooo ax_tab, es_29 x_I2A_vvov ax_tab, es_30 x_I2A_vooo ax_tab, es_31 hH.a_oo ax_taab, es_32 hH.b_oo ax_taab, es_33 hH.a_vv ax_taab, es_34 hH.b_vv ax_taab, es_35 hH.aa_oooo ax_taab, es_36 hH.ab_oooo ax_taab, es_37 hH.aa_vvvv ax_taab, es_38 hH.ab_vvvv ax_taab, es_39 hH.aa_voov ax_taab, es_40 hH.ab_voov ax_tabb, es_41 hH.ab_ovvo ax_taaa, es_42 hH.bb_voov ax_taab, es_43 hH.ab_vovo ax_taab, es_44 hH.ab_ovov ax_taab,
    v_I2A_vooo, v_I2A_vvov, v_I2B_ovoo, v_I2B_vooo, v_I2B_vvov, v_I2B_vvvo]
  simp only [hAAA, hAAB, hABB, hBBB, ← hX, ← hd, dressed, dimsOf, Setup.eval, dims_0, dims_1, dims_2, dims_3, denote_sub, es_1 ax_oaa ax_taaa, es_14 hH.a_ov ax_tab, es_15 hH.b_ov ax_tab, es_16 hH.b_ov ax_tbb, es_17 ax_oaa ax_taab, es_18 ax_oab ax_tabb, es_19 ax_oaa ax_taab, es_2 ax_oab ax_taab, es_20 ax_oab ax_tabb, es_21 ax_oab ax_taab, es_22 ax_obb ax_tabb, es_23 ax_oab ax_taab, es_24 ax_obb ax_tabb, es_3 ax_oaa ax_taaa, es_4 ax_oab ax_taab, es_5 hH.a_ov ax_taa]
  all_goals push_cast
  all_goals ring

theorem eval_residualT3c (a b c i j k : ℕ) :
    s.eval mem (residualT3c amplitudes3 H stored) [a, b, c, i, j, k] =
      1 / 2 * (∑ e ∈ range d.ub, vvoB X d T₃.tAAB T₃.tABB a b i e * X.t_bb e c j k)
      - 1 / 2 * (∑ m ∈ range d.ob, vooB X d T₃.tAAB T₃.tABB a m i j * X.t_bb b c m k)
      + 1 / 2 * (∑ e ∈ range d.ub, vvoC X d T₃.tBBB T₃.tABB c b k e * X.t_ab a e i j)
      - 1 / 2 * (∑ m ∈ range d.ob, vooC X d T₃.tBBB T₃.tABB c m k j * X.t_ab a b i m)
      + (∑ e ∈ range d.ua, vvvB X d T₃.tAAB T₃.tABB a b e j * X.t_ab e c i k)
      - (∑ m ∈ range d.oa, ovoB X d T₃.tAAB T₃.tABB m b i j * X.t_ab a c m k)
      - 1 / 4 * (∑ m ∈ range d.oa, X.a_oo m i * T₃.tABB a b c m j k)
      - 1 / 2 * (∑ m ∈ range d.ob, X.b_oo m j * T₃.tABB a b c i m k)
      + 1 / 4 * (∑ e ∈ range d.ua, X.a_vv a e * T₃.tABB e b c i j k)
      + 1 / 2 * (∑ e ∈ range d.ub, X.b_vv b e * T₃.tABB a e c i j k)
      + 1 / 8 * (∑ m ∈ range d.ob, ∑ n ∈ range d.ob, X.bb_oooo m n j k * T₃.tABB a b c i m n)
      + 1 / 2 * (∑ m ∈ range d.oa, ∑ n ∈ range d.ob, X.ab_oooo m n i j * T₃.tABB a b c m n k)
      + 1 / 8 * (∑ e ∈ range d.ub, ∑ f ∈ range d.ub, X.bb_vvvv b c e f * T₃.tABB a e f i j k)
      + 1 / 2 * (∑ e ∈ range d.ua, ∑ f ∈ range d.ub, X.ab_vvvv a b e f * T₃.tABB e f c i j k)
      + 1 / 4 * (∑ m ∈ range d.oa, ∑ e ∈ range d.ua, X.aa_voov a m i e * T₃.tABB e b c m j k)
      + 1 / 4 * (∑ m ∈ range d.ob, ∑ e ∈ range d.ub, X.ab_voov a m i e * T₃.tBBB e b c m j k)
      + (∑ m ∈ range d.oa, ∑ e ∈ range d.ua, X.ab_ovvo m b e j * T₃.tAAB a e c i m k)
      + (∑ m ∈ range d.ob, ∑ e ∈ range d.ub, X.bb_voov b m j e * T₃.tABB a e c i m k)
      - 1 / 2 * (∑ m ∈ range d.oa, ∑ e ∈ range d.ub, X.ab_ovov m b i e * T₃.tABB a e c m j k)
      - 1 / 2 * (∑ m ∈ range d.ob, ∑ e ∈ range d.ua, X.ab_vovo a m e j * T₃.tABB e b c i m k) := by
  delta residualT3c
  extract_lets I2B_vvvo_1 I2B_vvvo_2 I2B_vvvo_3 I2B_ovoo_1 I2B_ovoo_2 I2B_ovoo_3 I2B_ovoo_4 I2B_vvov_1 I2B_vvov_2 I2B_vvov_3 I2B_vooo_1 I2B_vooo_2 I2B_vooo_3 I2B_vooo_4 I2C_vvov_1 I2C_vvov_2 I2C_vvov_3 I2C_vooo_1 I2C_vooo_2 I2C_vooo_3 I2C_vooo_4 dT_abb_1 dT_abb_2 dT_abb_3 dT_abb_4 dT_abb_5 dT_abb_6 dT_abb_7 dT_abb_8 dT_abb_9 dT_abb_10 dT_abb_11 dT_abb_12 dT_abb_13 dT_abb_14 dT_abb_15 dT_abb_16 dT_abb_17 dT_abb_18 dT_abb_19 dT_abb_20
  have x_I2B_ovoo : I2B_ovoo_4.axes = [0, 3, 0, 2] := rfl
  have v_I2B_ovoo : ∀ m b i j, I2B_ovoo_4.denote (dims s.n s.na s.nb) (Tensor.elements s.na s.nb s.f s.v mem) [m, b, i, j] = ovoB X d T₃.tAAB T₃.tABB m b i j := by
    intro m b i j
    have hh := congrFun (congrFun (congrFun (congrFun (congrArg Dressed.ab_ovoo hX) m) b) i) j
    simp only [dressed, Setup.eval, denote_sub, es_14 hH.a_ov ax_tab, es_15 hH.b_ov ax_tab, es_16 hH.b_ov ax_tbb, es_17 ax_oaa ax_taab, es_18 ax_oab ax_tabb, es_19 ax_oaa ax_taab, es_20 ax_oab ax_tabb, es_21 ax_oab ax_taab, es_22 ax_obb ax_tabb, es_23 ax_oab ax_taab, es_24 ax_obb ax_tabb, es_45 hH.a_ov ax_tab, es_46 hH.b_ov ax_tab, es_47 ax_obb ax_tbbb, es_48 ax_oab ax_tabb, es_49 ax_oab ax_tabb, es_5 hH.a_ov ax_taa, es_50 ax_obb ax_tbbb, es_51 hH.b_ov ax_tbb] at hh
    simp only [I2B_ovoo_4, I2B_ovoo_3, I2B_ovoo_2, I2B_ovoo_1, denote_add, denote_sub, denote_neg, denote_half, es_14 hH.a_ov ax_tab, es_15 hH.b_ov ax_tab, es_16 hH.b_ov ax_tbb, es_17 ax_oaa ax_taab, es_18 ax_oab ax_tabb, es_19 ax_oaa ax_taab, es_20 ax_oab ax_tabb, es_21 ax_oab ax_taab, es_22 ax_obb ax_tabb, es_23 ax_oab ax_taab, es_24 ax_obb ax_tabb, es_45 hH.a_ov ax_tab, es_46 hH.b_ov ax_tab, es_47 ax_obb ax_tbbb, es_48 ax_oab ax_tabb, es_49 ax_oab ax_tabb, es_5 hH.a_ov ax_taa, es_50 ax_obb ax_tbbb, es_51 hH.b_ov ax_tbb, ovoB, ovoB_t3b, ovoB_t3c, hh]
    try simp only [hAAA, hAAB, hABB, hBBB]
    simp only [← hX, ← hd, dressed, dimsOf, Setup.eval, dims_0, dims_1, dims_2, dims_3, denote_sub, es_14 hH.a_ov ax_tab, es_15 hH.b_ov ax_tab, es_16 hH.b_ov ax_tbb, es_17 ax_oaa ax_taab, es_18 ax_oab ax_tabb, es_19 ax_oaa ax_taab, es_20 ax_oab ax_tabb, es_21 ax_oab ax_taab, es_22 ax_obb ax_tabb, es_23 ax_oab ax_taab, es_24 ax_obb ax_tabb, es_45 hH.a_ov ax_tab, es_46 hH.b_ov ax_tab, es_47 ax_obb ax_tbbb, es_48 ax_oab ax_tabb, es_49 ax_oab ax_tabb, es_5 hH.a_ov ax_taa, es_50 ax_obb ax_tbbb, es_51 hH.b_ov ax_tbb]
    all_goals ring
  have x_I2B_vooo : I2B_vooo_4.axes = [1, 2, 0, 2] := rfl
  have v_I2B_vooo : ∀ a m i j, I2B_vooo_4.denote (dims s.n s.na s.nb) (Tensor.elements s.na s.nb s.f s.v mem) [a, m, i, j] = vooB X d T₃.tAAB T₃.tABB a m i j := by
    intro a m i j
    have hh := congrFun (congrFun (congrFun (congrFun (congrArg Dressed.ab_vooo hX) a) m) i) j
    simp only [dressed, Setup.eval, denote_sub, es_14 hH.a_ov ax_tab, es_15 hH.b_ov ax_tab, es_16 hH.b_ov ax_tbb, es_17 ax_oaa ax_taab, es_18 ax_oab ax_tabb, es_19 ax_oaa ax_taab, es_20 ax_oab ax_tabb, es_21 ax_oab ax_taab, es_22 ax_obb ax_tabb, es_23 ax_oab ax_taab, es_24 ax_obb ax_tabb, es_45 hH.a_ov ax_tab, es_46 hH.b_ov ax_tab, es_47 ax_obb ax_tbbb, es_48 ax_oab ax_tabb, es_49 ax_oab ax_tabb, es_5 hH.a_ov ax_taa, es_50 ax_obb ax_tbbb, es_51 hH.b_ov ax_tbb] at hh
    simp only [I2B_vooo_4, I2B_vooo_3, I2B_vooo_2, I2B_vooo_1, denote_add, denote_sub, denote_neg, denote_half, es_14 hH.a_ov ax_tab, es_15 hH.b_ov ax_tab, es_16 hH.b_ov ax_tbb, es_17 ax_oaa ax_taab, es_18 ax_oab ax_tabb, es_19 ax_oaa ax_taab, es_20 ax_oab ax_tabb, es_21 ax_oab ax_taab, es_22 ax_obb ax_tabb, es_23 ax_oab ax_taab, es_24 ax_obb ax_tabb, es_45 hH.a_ov ax_tab, es_46 hH.b_ov ax_tab, es_47 ax_obb ax_tbbb, es_48 ax_oab ax_tabb, es_49 ax_oab ax_tabb, es_5 hH.a_ov ax_taa, es_50 ax_obb ax_tbbb, es_51 hH.b_ov ax_tbb, vooB, vooB_t3b, vooB_t3c, hh]
    try simp only [hAAA, hAAB, hABB, hBBB]
    simp only [← hX, ← hd, dressed, dimsOf, Setup.eval, dims_0, dims_1, dims_2, dims_3, denote_sub, es_14 hH.a_ov ax_tab, es_15 hH.b_ov ax_tab, es_16 hH.b_ov ax_tbb, es_17 ax_oaa ax_taab, es_18 ax_oab ax_tabb, es_19 ax_oaa ax_taab, es_20 ax_oab ax_tabb, es_21 ax_oab ax_taab, es_22 ax_obb ax_tabb, es_23 ax_oab ax_taab, es_24 ax_obb ax_tabb, es_45 hH.a_ov ax_tab, es_46 hH.b_ov ax_tab, es_47 ax_obb ax_tbbb, es_48 ax_oab ax_tabb, es_49 ax_oab ax_tabb, es_5 hH.a_ov ax_taa, es_50 ax_obb ax_tbbb, es_51 hH.b_ov ax_tbb]
    all_goals ring
  have x_I2B_vvov : I2B_vvov_3.axes = [1, 3, 0, 3] := rfl
  have v_I2B_vvov : ∀ a b i e, I2B_vvov_3.denote (dims s.n s.na s.nb) (Tensor.elements s.na s.nb s.f s.v mem) [a, b, i, e] = vvoB X d T₃.tAAB T₃.tABB a b i e := by
    intro a b i e
    have hh := congrFun (congrFun (congrFun (congrFun (congrArg Dressed.ab_vvov hX) a) b) i) e
    simp only [dressed, Setup.eval, denote_sub, es_14 hH.a_ov ax_tab, es_15 hH.b_ov ax_tab, es_16 hH.b_ov ax_tbb, es_17 ax_oaa ax_taab, es_18 ax_oab ax_tabb, es_19 ax_oaa ax_taab, es_20 ax_oab ax_tabb, es_21 ax_oab ax_taab, es_22 ax_obb ax_tabb, es_23 ax_oab ax_taab, es_24 ax_obb ax_tabb, es_45 hH.a_ov ax_tab, es_46 hH.b_ov ax_tab, es_47 ax_obb ax_tbbb, es_48 ax_oab ax_tabb, es_49 ax_oab ax_tabb, es_5 hH.a_ov ax_taa, es_50 ax_obb ax_tbbb, es_51 hH.b_ov ax_tbb] at hh
    simp only [I2B_vvov_3, I2B_vvov_2, I2B_vvov_1, denote_add, denote_sub, denote_neg, denote_half, es_14 hH.a_ov ax_tab, es_15 hH.b_ov ax_tab, es_16 hH.b_ov ax_tbb, es_17 ax_oaa ax_taab, es_18 ax_oab ax_tabb, es_19 ax_oaa ax_taab, es_20 ax_oab ax_tabb, es_21 ax_oab ax_taab, es_22 ax_obb ax_tabb, es_23 ax_oab ax_taab, es_24 ax_obb ax_tabb, es_45 hH.a_ov ax_tab, es_46 hH.b_ov ax_tab, es_47 ax_obb ax_tbbb, es_48 ax_oab ax_tabb, es_49 ax_oab ax_tabb, es_5 hH.a_ov ax_taa, es_50 ax_obb ax_tbbb, es_51 hH.b_ov ax_tbb, vvoB, vvoB_t3b, vvoB_t3c, hh]
    try simp only [hAAA, hAAB, hABB, hBBB]
    simp only [← hX, ← hd, dressed, dimsOf, Setup.eval, dims_0, dims_1, dims_2, dims_3, denote_sub, es_14 hH.a_ov ax_tab, es_15 hH.b_ov ax_tab, es_16 hH.b_ov ax_tbb, es_17 ax_oaa ax_taab, es_18 ax_oab ax_tabb, es_19 ax_oaa ax_taab, es_20 ax_oab ax_tabb, es_21 ax_oab ax_taab, es_22 ax_obb ax_tabb, es_23 ax_oab ax_taab, es_24 ax_obb ax_tabb, es_45 hH.a_ov ax_tab, es_46 hH.b_ov ax_tab, es_47 ax_obb ax_tbbb, es_48 ax_oab ax_tabb, es_49 ax_oab ax_tabb, es_5 hH.a_ov ax_taa, es_50 ax_obb ax_tbbb, es_51 hH.b_ov ax_tbb]
    all_goals ring
  have x_I2B_vvvo : I2B_vvvo_3.axes = [1, 3, 1, 2] := rfl
  have v_I2B_vvvo : ∀ a b e j, I2B_vvvo_3.denote (dims s.n s.na s.nb) (Tensor.elements s.na s.nb s.f s.v mem) [a, b, e, j] = vvvB X d T₃.tAAB T₃.tABB a b e j := by
    intro a b e j
    have hh := congrFun (congrFun (congrFun (congrFun (congrArg Dressed.ab_vvvo hX) a) b) e) j
    simp only [dressed, Setup.eval, denote_sub, es_14 hH.a_ov ax_tab, es_15 hH.b_ov ax_tab, es_16 hH.b_ov ax_tbb, es_17 ax_oaa ax_taab, es_18 ax_oab ax_tabb, es_19 ax_oaa ax_taab, es_20 ax_oab ax_tabb, es_21 ax_oab ax_taab, es_22 ax_obb ax_tabb, es_23 ax_oab ax_taab, es_24 ax_obb ax_tabb, es_45 hH.a_ov ax_tab, es_46 hH.b_ov ax_tab, es_47 ax_obb ax_tbbb, es_48 ax_oab ax_tabb, es_49 ax_oab ax_tabb, es_5 hH.a_ov ax_taa, es_50 ax_obb ax_tbbb, es_51 hH.b_ov ax_tbb] at hh
    simp only [I2B_vvvo_3, I2B_vvvo_2, I2B_vvvo_1, denote_add, denote_sub, denote_neg, denote_half, es_14 hH.a_ov ax_tab, es_15 hH.b_ov ax_tab, es_16 hH.b_ov ax_tbb, es_17 ax_oaa ax_taab, es_18 ax_oab ax_tabb, es_19 ax_oaa ax_taab, es_20 ax_oab ax_tabb, es_21 ax_oab ax_taab, es_22 ax_obb ax_tabb, es_23 ax_oab ax_taab, es_24 ax_obb ax_tabb, es_45 hH.a_ov ax_tab, es_46 hH.b_ov ax_tab, es_47 ax_obb ax_tbbb, es_48 ax_oab ax_tabb, es_49 ax_oab ax_tabb, es_5 hH.a_ov ax_taa, es_50 ax_obb ax_tbbb, es_51 hH.b_ov ax_tbb, vvvB, vvvB_t3b, vvvB_t3c, hh]
    try simp only [hAAA, hAAB, hABB, hBBB]
    simp only [← hX, ← hd, dressed, dimsOf, Setup.eval, dims_0, dims_1, dims_2, dims_3, denote_sub, es_14 hH.a_ov ax_tab, es_15 hH.b_ov ax_tab, es_16 hH.b_ov ax_tbb, es_17 ax_oaa ax_taab, es_18 ax_oab ax_tabb, es_19 ax_oaa ax_taab, es_20 ax_oab ax_tabb, es_21 ax_oab ax_taab, es_22 ax_obb ax_tabb, es_23 ax_oab ax_taab, es_24 ax_obb ax_tabb, es_45 hH.a_ov ax_tab, es_46 hH.b_ov ax_tab, es_47 ax_obb ax_tbbb, es_48 ax_oab ax_tabb, es_49 ax_oab ax_tabb, es_5 hH.a_ov ax_taa, es_50 ax_obb ax_tbbb, es_51 hH.b_ov ax_tbb]
    all_goals ring
  have x_I2C_vooo : I2C_vooo_4.axes = [3, 2, 2, 2] := rfl
  have v_I2C_vooo : ∀ a m i j, I2C_vooo_4.denote (dims s.n s.na s.nb) (Tensor.elements s.na s.nb s.f s.v mem) [a, m, i, j] = vooC X d T₃.tBBB T₃.tABB a m i j := by
    intro a m i j
    have hh := congrFun (congrFun (congrFun (congrFun (congrArg Dressed.bb_vooo hX) a) m) i) j
    simp only [dressed, Setup.eval, denote_sub, es_14 hH.a_ov ax_tab, es_15 hH.b_ov ax_tab, es_16 hH.b_ov ax_tbb, es_17 ax_oaa ax_taab, es_18 ax_oab ax_tabb, es_19 ax_oaa ax_taab, es_20 ax_oab ax_tabb, es_21 ax_oab ax_taab, es_22 ax_obb ax_tabb, es_23 ax_oab ax_taab, es_24 ax_obb ax_tabb, es_45 hH.a_ov ax_tab, es_46 hH.b_ov ax_tab, es_47 ax_obb ax_tbbb, es_48 ax_oab ax_tabb, es_49 ax_oab ax_tabb, es_5 hH.a_ov ax_taa, es_50 ax_obb ax_tbbb, es_51 hH.b_ov ax_tbb] at hh
    simp only [I2C_vooo_4, I2C_vooo_3, I2C_vooo_2, I2C_vooo_1, denote_add, denote_sub, denote_neg, denote_half, es_14 hH.a_ov ax_tab, es_15 hH.b_ov ax_tab, es_16 hH.b_ov ax_tbb, es_17 ax_oaa ax_taab, es_18 ax_oab ax_tabb, es_19 ax_oaa ax_taab, es_20 ax_oab ax_tabb, es_21 ax_oab ax_taab, es_22 ax_obb ax_tabb, es_23 ax_oab ax_taab, es_24 ax_obb ax_tabb, es_45 hH.a_ov ax_tab, es_46 hH.b_ov ax_tab, es_47 ax_obb ax_tbbb, es_48 ax_oab ax_tabb, es_49 ax_oab ax_tabb, es_5 hH.a_ov ax_taa, es_50 ax_obb ax_tbbb, es_51 hH.b_ov ax_tbb, vooC, vooC_t3d, vooC_t3c, hh]
    try simp only [hAAA, hAAB, hABB, hBBB]
    simp only [← hX, ← hd, dressed, dimsOf, Setup.eval, dims_0, dims_1, dims_2, dims_3, denote_sub, es_14 hH.a_ov ax_tab, es_15 hH.b_ov ax_tab, es_16 hH.b_ov ax_tbb, es_17 ax_oaa ax_taab, es_18 ax_oab ax_tabb, es_19 ax_oaa ax_taab, es_20 ax_oab ax_tabb, es_21 ax_oab ax_taab, es_22 ax_obb ax_tabb, es_23 ax_oab ax_taab, es_24 ax_obb ax_tabb, es_45 hH.a_ov ax_tab, es_46 hH.b_ov ax_tab, es_47 ax_obb ax_tbbb, es_48 ax_oab ax_tabb, es_49 ax_oab ax_tabb, es_5 hH.a_ov ax_taa, es_50 ax_obb ax_tbbb, es_51 hH.b_ov ax_tbb]
    all_goals ring
  have x_I2C_vvov : I2C_vvov_3.axes = [3, 3, 2, 3] := rfl
  have v_I2C_vvov : ∀ a b i e, I2C_vvov_3.denote (dims s.n s.na s.nb) (Tensor.elements s.na s.nb s.f s.v mem) [a, b, i, e] = vvoC X d T₃.tBBB T₃.tABB a b i e := by
    intro a b i e
    have hh := congrFun (congrFun (congrFun (congrFun (congrArg Dressed.bb_vvov hX) a) b) i) e
    simp only [dressed, Setup.eval, denote_sub, es_14 hH.a_ov ax_tab, es_15 hH.b_ov ax_tab, es_16 hH.b_ov ax_tbb, es_17 ax_oaa ax_taab, es_18 ax_oab ax_tabb, es_19 ax_oaa ax_taab, es_20 ax_oab ax_tabb, es_21 ax_oab ax_taab, es_22 ax_obb ax_tabb, es_23 ax_oab ax_taab, es_24 ax_obb ax_tabb, es_45 hH.a_ov ax_tab, es_46 hH.b_ov ax_tab, es_47 ax_obb ax_tbbb, es_48 ax_oab ax_tabb, es_49 ax_oab ax_tabb, es_5 hH.a_ov ax_taa, es_50 ax_obb ax_tbbb, es_51 hH.b_ov ax_tbb] at hh
    simp only [I2C_vvov_3, I2C_vvov_2, I2C_vvov_1, denote_add, denote_sub, denote_neg, denote_half, es_14 hH.a_ov ax_tab, es_15 hH.b_ov ax_tab, es_16 hH.b_ov ax_tbb, es_17 ax_oaa ax_taab, es_18 ax_oab ax_tabb, es_19 ax_oaa ax_taab, es_20 ax_oab ax_tabb, es_21 ax_oab ax_taab, es_22 ax_obb ax_tabb, es_23 ax_oab ax_taab, es_24 ax_obb ax_tabb, es_45 hH.a_ov ax_tab, es_46 hH.b_ov ax_tab, es_47 ax_obb ax_tbbb, es_48 ax_oab ax_tabb, es_49 ax_oab ax_tabb, es_5 hH.a_ov ax_taa, es_50 ax_obb ax_tbbb, es_51 hH.b_ov ax_tbb, vvoC, vvoC_t3d, vvoC_t3c, hh]
    try simp only [hAAA, hAAB, hABB, hBBB]
    simp only [← hX, ← hd, dressed, dimsOf, Setup.eval, dims_0, dims_1, dims_2, dims_3, denote_sub, es_14 hH.a_ov ax_tab, es_15 hH.b_ov ax_tab, es_16 hH.b_ov ax_tbb, es_17 ax_oaa ax_taab, es_18 ax_oab ax_tabb, es_19 ax_oaa ax_taab, es_20 ax_oab ax_tabb, es_21 ax_oab ax_taab, es_22 ax_obb ax_tabb, es_23 ax_oab ax_taab, es_24 ax_obb ax_tabb, es_45 hH.a_ov ax_tab, es_46 hH.b_ov ax_tab, es_47 ax_obb ax_tbbb, es_48 ax_oab ax_tabb, es_49 ax_oab ax_tabb, es_5 hH.a_ov ax_taa, es_50 ax_obb ax_tbbb, es_51 hH.b_ov ax_tbb]
    all_goals ring
  simp only [dT_abb_20, dT_abb_19, dT_abb_18, dT_abb_17, dT_abb_16, dT_abb_15, dT_abb_14, dT_abb_13, dT_abb_12, dT_abb_11, dT_abb_10, dT_abb_9, dT_abb_8, dT_abb_7, dT_abb_6, dT_abb_5, dT_abb_4, dT_abb_3, dT_abb_2, dT_abb_1, Setup.eval, denote_add, denote_sub, denote_neg, denote_half, denote_quarter, denote_eighth, denote_tscale, es_52 x_I2B_vvov ax_tbb, es_53 x_I2B_vooo ax_tbb, es_54 x_I2C_vvov ax_tab, es_55 x_I2C_vooo ax_tab, es_56 x_I2B_vvvo ax_tab, es_57 x_I2B_ovoo ax_tab, es_58 hH.a_oo ax_tabb, es_59 hH.b_oo ax_tabb, es_60 hH.a_vv ax_tabb, es_61 hH.b_vv ax_tabb, es_62 hH.bb_oooo ax_tabb, es_63 hH.ab_oooo ax_tabb, es_64 hH.bb_vvvv ax_tabb, es_65 hH.ab_vvvv ax_tabb, es_66 hH.aa_voov ax_tabb, es_67 hH.ab_voov ax_tbbb, es_68 hH.ab_ovvo ax_taab, es_69 hH.bb_voov ax_tabb, es_70 hH.ab_ovov ax_tabb, es_71 hH.ab_vovo ax_tabb,
    v_I2B_ovoo, v_I2B_vooo, v_I2B_vvov, v_I2B_vvvo, v_I2C_vooo, v_I2C_vvov]
  simp only [hAAA, hAAB, hABB, hBBB, ← hX, ← hd, dressed, dimsOf, Setup.eval, dims_0, dims_1, dims_2, dims_3, denote_sub, es_14 hH.a_ov ax_tab, es_15 hH.b_ov ax_tab, es_16 hH.b_ov ax_tbb, es_17 ax_oaa ax_taab, es_18 ax_oab ax_tabb, es_19 ax_oaa ax_taab, es_20 ax_oab ax_tabb, es_21 ax_oab ax_taab, es_22 ax_obb ax_tabb, es_23 ax_oab ax_taab, es_24 ax_obb ax_tabb, es_45 hH.a_ov ax_tab, es_46 hH.b_ov ax_tab, es_47 ax_obb ax_tbbb, es_48 ax_oab ax_tabb, es_49 ax_oab ax_tabb, es_5 hH.a_ov ax_taa, es_50 ax_obb ax_tbbb, es_51 hH.b_ov ax_tbb]
  all_goals push_cast
  all_goals ring

theorem eval_residualT3d (a b c i j k : ℕ) :
    s.eval mem (residualT3d amplitudes3 H stored) [a, b, c, i, j, k] =
      -(1 / 4 * (∑ m ∈ range d.ob, vooC X d T₃.tBBB T₃.tABB a m i j * X.t_bb b c m k))
      + 1 / 4 * (∑ e ∈ range d.ub, vvoC X d T₃.tBBB T₃.tABB a b i e * X.t_bb e c j k)
      - 1 / 12 * (∑ m ∈ range d.ob, X.b_oo m k * T₃.tBBB a b c i j m)
      + 1 / 12 * (∑ e ∈ range d.ub, X.b_vv c e * T₃.tBBB a b e i j k)
      + 1 / 24 * (∑ m ∈ range d.ob, ∑ n ∈ range d.ob, X.bb_oooo m n i j * T₃.tBBB a b c m n k)
      + 1 / 24 * (∑ e ∈ range d.ub, ∑ f ∈ range d.ub, X.bb_vvvv a b e f * T₃.tBBB e f c i j k)
      + 1 / 4 * (∑ m ∈ range d.oa, ∑ e ∈ range d.ua, X.ab_ovvo m a e i * T₃.tABB e b c m j k)
      + 1 / 4 * (∑ m ∈ range d.ob, ∑ e ∈ range d.ub, X.bb_voov a m i e * T₃.tBBB e b c m j k) := by
  delta residualT3d
  extract_lets I2C_vvov_1 I2C_vvov_2 I2C_vvov_3 I2C_vooo_1 I2C_vooo_2 I2C_vooo_3 I2C_vooo_4 dT_bbb_1 dT_bbb_2 dT_bbb_3 dT_bbb_4 dT_bbb_5 dT_bbb_6 dT_bbb_7 dT_bbb_8
  have x_I2C_vooo : I2C_vooo_4.axes = [3, 2, 2, 2] := rfl
  have v_I2C_vooo : ∀ a m i j, I2C_vooo_4.denote (dims s.n s.na s.nb) (Tensor.elements s.na s.nb s.f s.v mem) [a, m, i, j] = vooC X d T₃.tBBB T₃.tABB a m i j := by
    intro a m i j
    have hh := congrFun (congrFun (congrFun (congrFun (congrArg Dressed.bb_vooo hX) a) m) i) j
    simp only [dressed, Setup.eval, denote_sub, es_14 hH.a_ov ax_tab, es_15 hH.b_ov ax_tab, es_16 hH.b_ov ax_tbb, es_47 ax_obb ax_tbbb, es_48 ax_oab ax_tabb, es_49 ax_oab ax_tabb, es_5 hH.a_ov ax_taa, es_50 ax_obb ax_tbbb] at hh
    simp only [I2C_vooo_4, I2C_vooo_3, I2C_vooo_2, I2C_vooo_1, denote_add, denote_sub, denote_neg, denote_half, es_14 hH.a_ov ax_tab, es_15 hH.b_ov ax_tab, es_16 hH.b_ov ax_tbb, es_47 ax_obb ax_tbbb, es_48 ax_oab ax_tabb, es_49 ax_oab ax_tabb, es_5 hH.a_ov ax_taa, es_50 ax_obb ax_tbbb, vooC, vooC_t3d, vooC_t3c, hh]
    try simp only [hAAA, hAAB, hABB, hBBB]
    simp only [← hX, ← hd, dressed, dimsOf, Setup.eval, dims_0, dims_1, dims_2, dims_3, denote_sub, es_14 hH.a_ov ax_tab, es_15 hH.b_ov ax_tab, es_16 hH.b_ov ax_tbb, es_47 ax_obb ax_tbbb, es_48 ax_oab ax_tabb, es_49 ax_oab ax_tabb, es_5 hH.a_ov ax_taa, es_50 ax_obb ax_tbbb]
    all_goals ring
  have x_I2C_vvov : I2C_vvov_3.axes = [3, 3, 2, 3] := rfl
  have v_I2C_vvov : ∀ a b i e, I2C_vvov_3.denote (dims s.n s.na s.nb) (Tensor.elements s.na s.nb s.f s.v mem) [a, b, i, e] = vvoC X d T₃.tBBB T₃.tABB a b i e := by
    intro a b i e
    have hh := congrFun (congrFun (congrFun (congrFun (congrArg Dressed.bb_vvov hX) a) b) i) e
    simp only [dressed, Setup.eval, denote_sub, es_14 hH.a_ov ax_tab, es_15 hH.b_ov ax_tab, es_16 hH.b_ov ax_tbb, es_47 ax_obb ax_tbbb, es_48 ax_oab ax_tabb, es_49 ax_oab ax_tabb, es_5 hH.a_ov ax_taa, es_50 ax_obb ax_tbbb] at hh
    simp only [I2C_vvov_3, I2C_vvov_2, I2C_vvov_1, denote_add, denote_sub, denote_neg, denote_half, es_14 hH.a_ov ax_tab, es_15 hH.b_ov ax_tab, es_16 hH.b_ov ax_tbb, es_47 ax_obb ax_tbbb, es_48 ax_oab ax_tabb, es_49 ax_oab ax_tabb, es_5 hH.a_ov ax_taa, es_50 ax_obb ax_tbbb, vvoC, vvoC_t3d, vvoC_t3c, hh]
    try simp only [hAAA, hAAB, hABB, hBBB]
    simp only [← hX, ← hd, dressed, dimsOf, Setup.eval, dims_0, dims_1, dims_2, dims_3, denote_sub, es_14 hH.a_ov ax_tab, es_15 hH.b_ov ax_tab, es_16 hH.b_ov ax_tbb, es_47 ax_obb ax_tbbb, es_48 ax_oab ax_tabb, es_49 ax_oab ax_tabb, es_5 hH.a_ov ax_taa, es_50 ax_obb ax_tbbb]
    all_goals ring
  simp only [dT_bbb_8, dT_bbb_7, dT_bbb_6, dT_bbb_5, dT_bbb_4, dT_bbb_3, dT_bbb_2, dT_bbb_1, Setup.eval, denote_add, denote_sub, denote_neg, denote_half, denote_quarter, denote_eighth, denote_tscale, es_72 x_I2C_vooo ax_tbb, es_73 x_I2C_vvov ax_tbb, es_74 hH.b_oo ax_tbbb, es_75 hH.b_vv ax_tbbb, es_76 hH.bb_oooo ax_tbbb, es_77 hH.bb_vvvv ax_tbbb, es_78 hH.ab_ovvo ax_tabb, es_79 hH.bb_voov ax_tbbb,
    v_I2C_vooo, v_I2C_vvov]
  simp only [hAAA, hAAB, hABB, hBBB, ← hX, ← hd, dressed, dimsOf, Setup.eval, dims_0, dims_1, dims_2, dims_3, denote_sub, es_14 hH.a_ov ax_tab, es_15 hH.b_ov ax_tab, es_16 hH.b_ov ax_tbb, es_47 ax_obb ax_tbbb, es_48 ax_oab ax_tabb, es_49 ax_oab ax_tabb, es_5 hH.a_ov ax_taa, es_50 ax_obb ax_tbbb]
  all_goals push_cast
  all_goals ring

end

end Ccpy.PSpace
