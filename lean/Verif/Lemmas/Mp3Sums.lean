import Verif.Lemmas.Mp3Checks
import Verif.Lemmas.CcsdPtLinks

/-! The numbers `t_amp` of the third-order energy as sums. -/

namespace Ccpy.Mp3
open Ccpy.Fock Ccpy.Tensor Ccpy.Engine Ccpy.HbarCcsd Ccpy.Ccsdt Ccpy.PSpace Ccpy.Rdm Ccpy.Ccsd
open Finset (range)

section
variable {dim : ℕ → ℕ} {I : ℕ → List (ℕ × ℕ) → ℚ} {x y : Ex}

theorem mp_1 (hx : x.axes = [0, 0, 0, 0]) (hy : y.axes = [1, 1, 0, 0]) (a b i j : ℕ) :
    (es% "mnij,abmn->abij" x, y).denote dim I [a, b, i, j] = ∑ m ∈ range (dim 0), ∑ n ∈ range (dim 0), x.denote dim I [m, n, i, j] * y.denote dim I [a, b, m, n] := by
  simp only [Ex.denote, Body.letters, hx, hy, Body.denote, mul_one]
  rfl

theorem mp_2 (hx : x.axes = [1, 1, 1, 1]) (hy : y.axes = [1, 1, 0, 0]) (a b i j : ℕ) :
    (es% "abef,efij->abij" x, y).denote dim I [a, b, i, j] = ∑ e ∈ range (dim 1), ∑ f ∈ range (dim 1), x.denote dim I [a, b, e, f] * y.denote dim I [e, f, i, j] := by
  simp only [Ex.denote, Body.letters, hx, hy, Body.denote, mul_one]
  rfl

theorem mp_3 (hx : x.axes = [1, 0, 0, 1]) (hy : y.axes = [1, 1, 0, 0]) (a b i j : ℕ) :
    (es% "amie,ebmj->abij" x, y).denote dim I [a, b, i, j] = ∑ m ∈ range (dim 0), ∑ e ∈ range (dim 1), x.denote dim I [a, m, i, e] * y.denote dim I [e, b, m, j] := by
  simp only [Ex.denote, Body.letters, hx, hy, Body.denote, mul_one]
  rfl

theorem mp_4 (hx : x.axes = [1, 0, 0, 1]) (hy : y.axes = [1, 1, 0, 0]) (a b i j : ℕ) :
    (es% "bmie,eamj->abij" x, y).denote dim I [a, b, i, j] = ∑ m ∈ range (dim 0), ∑ e ∈ range (dim 1), x.denote dim I [b, m, i, e] * y.denote dim I [e, a, m, j] := by
  simp only [Ex.denote, Body.letters, hx, hy, Body.denote, mul_one]
  rfl

theorem mp_5 (hx : x.axes = [1, 0, 0, 1]) (hy : y.axes = [1, 1, 0, 0]) (a b i j : ℕ) :
    (es% "amje,ebmi->abij" x, y).denote dim I [a, b, i, j] = ∑ m ∈ range (dim 0), ∑ e ∈ range (dim 1), x.denote dim I [a, m, j, e] * y.denote dim I [e, b, m, i] := by
  simp only [Ex.denote, Body.letters, hx, hy, Body.denote, mul_one]
  rfl

theorem mp_6 (hx : x.axes = [1, 0, 0, 1]) (hy : y.axes = [1, 1, 0, 0]) (a b i j : ℕ) :
    (es% "bmje,eami->abij" x, y).denote dim I [a, b, i, j] = ∑ m ∈ range (dim 0), ∑ e ∈ range (dim 1), x.denote dim I [b, m, j, e] * y.denote dim I [e, a, m, i] := by
  simp only [Ex.denote, Body.letters, hx, hy, Body.denote, mul_one]
  rfl

theorem mp_7 (hx : x.axes = [1, 2, 0, 3]) (hy : y.axes = [1, 3, 0, 2]) (a b i j : ℕ) :
    (es% "amie,bejm->abij" x, y).denote dim I [a, b, i, j] = ∑ m ∈ range (dim 2), ∑ e ∈ range (dim 3), x.denote dim I [a, m, i, e] * y.denote dim I [b, e, j, m] := by
  simp only [Ex.denote, Body.letters, hx, hy, Body.denote, mul_one]
  rfl

theorem mp_8 (hx : x.axes = [1, 2, 0, 3]) (hy : y.axes = [1, 3, 0, 2]) (a b i j : ℕ) :
    (es% "bmie,aejm->abij" x, y).denote dim I [a, b, i, j] = ∑ m ∈ range (dim 2), ∑ e ∈ range (dim 3), x.denote dim I [b, m, i, e] * y.denote dim I [a, e, j, m] := by
  simp only [Ex.denote, Body.letters, hx, hy, Body.denote, mul_one]
  rfl

theorem mp_9 (hx : x.axes = [1, 2, 0, 3]) (hy : y.axes = [1, 3, 0, 2]) (a b i j : ℕ) :
    (es% "amje,beim->abij" x, y).denote dim I [a, b, i, j] = ∑ m ∈ range (dim 2), ∑ e ∈ range (dim 3), x.denote dim I [a, m, j, e] * y.denote dim I [b, e, i, m] := by
  simp only [Ex.denote, Body.letters, hx, hy, Body.denote, mul_one]
  rfl

theorem mp_10 (hx : x.axes = [1, 2, 0, 3]) (hy : y.axes = [1, 3, 0, 2]) (a b i j : ℕ) :
    (es% "bmje,aeim->abij" x, y).denote dim I [a, b, i, j] = ∑ m ∈ range (dim 2), ∑ e ∈ range (dim 3), x.denote dim I [b, m, j, e] * y.denote dim I [a, e, i, m] := by
  simp only [Ex.denote, Body.letters, hx, hy, Body.denote, mul_one]
  rfl

theorem mp_11 (hx : x.axes = [0, 2, 0, 2]) (hy : y.axes = [1, 3, 0, 2]) (a b i j : ℕ) :
    (es% "mnij,abmn->abij" x, y).denote dim I [a, b, i, j] = ∑ m ∈ range (dim 0), ∑ n ∈ range (dim 2), x.denote dim I [m, n, i, j] * y.denote dim I [a, b, m, n] := by
  simp only [Ex.denote, Body.letters, hx, hy, Body.denote, mul_one]
  rfl

theorem mp_12 (hx : x.axes = [1, 3, 1, 3]) (hy : y.axes = [1, 3, 0, 2]) (a b i j : ℕ) :
    (es% "abef,efij->abij" x, y).denote dim I [a, b, i, j] = ∑ e ∈ range (dim 1), ∑ f ∈ range (dim 3), x.denote dim I [a, b, e, f] * y.denote dim I [e, f, i, j] := by
  simp only [Ex.denote, Body.letters, hx, hy, Body.denote, mul_one]
  rfl

theorem mp_13 (hx : x.axes = [1, 0, 0, 1]) (hy : y.axes = [1, 3, 0, 2]) (a b i j : ℕ) :
    (es% "amie,ebmj->abij" x, y).denote dim I [a, b, i, j] = ∑ m ∈ range (dim 0), ∑ e ∈ range (dim 1), x.denote dim I [a, m, i, e] * y.denote dim I [e, b, m, j] := by
  simp only [Ex.denote, Body.letters, hx, hy, Body.denote, mul_one]
  rfl

theorem mp_14 (hx : x.axes = [3, 2, 2, 3]) (hy : y.axes = [1, 3, 0, 2]) (a b i j : ℕ) :
    (es% "bmje,aeim->abij" x, y).denote dim I [a, b, i, j] = ∑ m ∈ range (dim 2), ∑ e ∈ range (dim 3), x.denote dim I [b, m, j, e] * y.denote dim I [a, e, i, m] := by
  simp only [Ex.denote, Body.letters, hx, hy, Body.denote, mul_one]
  rfl

theorem mp_15 (hx : x.axes = [0, 3, 1, 2]) (hy : y.axes = [1, 1, 0, 0]) (a b i j : ℕ) :
    (es% "mbej,aeim->abij" x, y).denote dim I [a, b, i, j] = ∑ m ∈ range (dim 0), ∑ e ∈ range (dim 1), x.denote dim I [m, b, e, j] * y.denote dim I [a, e, i, m] := by
  simp only [Ex.denote, Body.letters, hx, hy, Body.denote, mul_one]
  rfl

theorem mp_16 (hx : x.axes = [1, 2, 0, 3]) (hy : y.axes = [3, 3, 2, 2]) (a b i j : ℕ) :
    (es% "amie,bejm->abij" x, y).denote dim I [a, b, i, j] = ∑ m ∈ range (dim 2), ∑ e ∈ range (dim 3), x.denote dim I [a, m, i, e] * y.denote dim I [b, e, j, m] := by
  simp only [Ex.denote, Body.letters, hx, hy, Body.denote, mul_one]
  rfl

theorem mp_17 (hx : x.axes = [0, 3, 0, 3]) (hy : y.axes = [1, 3, 0, 2]) (a b i j : ℕ) :
    (es% "mbie,aemj->abij" x, y).denote dim I [a, b, i, j] = ∑ m ∈ range (dim 0), ∑ e ∈ range (dim 3), x.denote dim I [m, b, i, e] * y.denote dim I [a, e, m, j] := by
  simp only [Ex.denote, Body.letters, hx, hy, Body.denote, mul_one]
  rfl

theorem mp_18 (hx : x.axes = [1, 2, 1, 2]) (hy : y.axes = [1, 3, 0, 2]) (a b i j : ℕ) :
    (es% "amej,ebim->abij" x, y).denote dim I [a, b, i, j] = ∑ m ∈ range (dim 2), ∑ e ∈ range (dim 1), x.denote dim I [a, m, e, j] * y.denote dim I [e, b, i, m] := by
  simp only [Ex.denote, Body.letters, hx, hy, Body.denote, mul_one]
  rfl

theorem mp_19 (hx : x.axes = [2, 2, 2, 2]) (hy : y.axes = [3, 3, 2, 2]) (a b i j : ℕ) :
    (es% "mnij,abmn->abij" x, y).denote dim I [a, b, i, j] = ∑ m ∈ range (dim 2), ∑ n ∈ range (dim 2), x.denote dim I [m, n, i, j] * y.denote dim I [a, b, m, n] := by
  simp only [Ex.denote, Body.letters, hx, hy, Body.denote, mul_one]
  rfl

theorem mp_20 (hx : x.axes = [3, 3, 3, 3]) (hy : y.axes = [3, 3, 2, 2]) (a b i j : ℕ) :
    (es% "abef,efij->abij" x, y).denote dim I [a, b, i, j] = ∑ e ∈ range (dim 3), ∑ f ∈ range (dim 3), x.denote dim I [a, b, e, f] * y.denote dim I [e, f, i, j] := by
  simp only [Ex.denote, Body.letters, hx, hy, Body.denote, mul_one]
  rfl

theorem mp_21 (hx : x.axes = [3, 2, 2, 3]) (hy : y.axes = [3, 3, 2, 2]) (a b i j : ℕ) :
    (es% "amie,ebmj->abij" x, y).denote dim I [a, b, i, j] = ∑ m ∈ range (dim 2), ∑ e ∈ range (dim 3), x.denote dim I [a, m, i, e] * y.denote dim I [e, b, m, j] := by
  simp only [Ex.denote, Body.letters, hx, hy, Body.denote, mul_one]
  rfl

theorem mp_22 (hx : x.axes = [3, 2, 2, 3]) (hy : y.axes = [3, 3, 2, 2]) (a b i j : ℕ) :
    (es% "bmie,eamj->abij" x, y).denote dim I [a, b, i, j] = ∑ m ∈ range (dim 2), ∑ e ∈ range (dim 3), x.denote dim I [b, m, i, e] * y.denote dim I [e, a, m, j] := by
  simp only [Ex.denote, Body.letters, hx, hy, Body.denote, mul_one]
  rfl

theorem mp_23 (hx : x.axes = [3, 2, 2, 3]) (hy : y.axes = [3, 3, 2, 2]) (a b i j : ℕ) :
    (es% "amje,ebmi->abij" x, y).denote dim I [a, b, i, j] = ∑ m ∈ range (dim 2), ∑ e ∈ range (dim 3), x.denote dim I [a, m, j, e] * y.denote dim I [e, b, m, i] := by
  simp only [Ex.denote, Body.letters, hx, hy, Body.denote, mul_one]
  rfl

theorem mp_24 (hx : x.axes = [3, 2, 2, 3]) (hy : y.axes = [3, 3, 2, 2]) (a b i j : ℕ) :
    (es% "bmje,eami->abij" x, y).denote dim I [a, b, i, j] = ∑ m ∈ range (dim 2), ∑ e ∈ range (dim 3), x.denote dim I [b, m, j, e] * y.denote dim I [e, a, m, i] := by
  simp only [Ex.denote, Body.letters, hx, hy, Body.denote, mul_one]
  rfl

theorem mp_25 (hx : x.axes = [0, 3, 1, 2]) (hy : y.axes = [1, 3, 0, 2]) (a b i j : ℕ) :
    (es% "maei,ebmj->abij" x, y).denote dim I [a, b, i, j] = ∑ m ∈ range (dim 0), ∑ e ∈ range (dim 1), x.denote dim I [m, a, e, i] * y.denote dim I [e, b, m, j] := by
  simp only [Ex.denote, Body.letters, hx, hy, Body.denote, mul_one]
  rfl

theorem mp_26 (hx : x.axes = [0, 3, 1, 2]) (hy : y.axes = [1, 3, 0, 2]) (a b i j : ℕ) :
    (es% "mbei,eamj->abij" x, y).denote dim I [a, b, i, j] = ∑ m ∈ range (dim 0), ∑ e ∈ range (dim 1), x.denote dim I [m, b, e, i] * y.denote dim I [e, a, m, j] := by
  simp only [Ex.denote, Body.letters, hx, hy, Body.denote, mul_one]
  rfl

theorem mp_27 (hx : x.axes = [0, 3, 1, 2]) (hy : y.axes = [1, 3, 0, 2]) (a b i j : ℕ) :
    (es% "maej,ebmi->abij" x, y).denote dim I [a, b, i, j] = ∑ m ∈ range (dim 0), ∑ e ∈ range (dim 1), x.denote dim I [m, a, e, j] * y.denote dim I [e, b, m, i] := by
  simp only [Ex.denote, Body.letters, hx, hy, Body.denote, mul_one]
  rfl

theorem mp_28 (hx : x.axes = [0, 3, 1, 2]) (hy : y.axes = [1, 3, 0, 2]) (a b i j : ℕ) :
    (es% "mbej,eami->abij" x, y).denote dim I [a, b, i, j] = ∑ m ∈ range (dim 0), ∑ e ∈ range (dim 1), x.denote dim I [m, b, e, j] * y.denote dim I [e, a, m, i] := by
  simp only [Ex.denote, Body.letters, hx, hy, Body.denote, mul_one]
  rfl

end

variable {ι : Type*}

theorem m2a_value (S : Orbitals ι) (Z : Fock.Integrals) (T : Cluster) (a b i j : ℕ) :
    value S Z (Cluster.store [T]) (m2a amplitudes stored) [a, b, i, j] =
      1 / 2 * (∑ m ∈ range S.na, ∑ n ∈ range S.na, Z.vAA m n i j * T.tAA a b m n)
      + 1 / 2 * (∑ e ∈ range S.ua, ∑ f ∈ range S.ua, Z.vAA (S.na + a) (S.na + b) (S.na + e) (S.na + f) * T.tAA e f i j)
      + (∑ m ∈ range S.na, ∑ e ∈ range S.ua, Z.vAA (S.na + a) m i (S.na + e) * T.tAA e b m j)
      - (∑ m ∈ range S.na, ∑ e ∈ range S.ua, Z.vAA (S.na + b) m i (S.na + e) * T.tAA e a m j)
      - (∑ m ∈ range S.na, ∑ e ∈ range S.ua, Z.vAA (S.na + a) m j (S.na + e) * T.tAA e b m i)
      + (∑ m ∈ range S.na, ∑ e ∈ range S.ua, Z.vAA (S.na + b) m j (S.na + e) * T.tAA e a m i)
      + (∑ m ∈ range S.nb, ∑ e ∈ range S.ub, Z.vAB (S.na + a) m i (S.nb + e) * T.tAB b e j m)
      - (∑ m ∈ range S.nb, ∑ e ∈ range S.ub, Z.vAB (S.na + b) m i (S.nb + e) * T.tAB a e j m)
      - (∑ m ∈ range S.nb, ∑ e ∈ range S.ub, Z.vAB (S.na + a) m j (S.nb + e) * T.tAB b e i m)
      + (∑ m ∈ range S.nb, ∑ e ∈ range S.ub, Z.vAB (S.na + b) m j (S.nb + e) * T.tAB a e i m) := by
  simp only [value, m2a, denote_add, denote_sub, denote_half, mp_1 (x := stored.aa.oooo) (y := amplitudes.aa) rfl rfl, mp_2 (x := stored.aa.vvvv) (y := amplitudes.aa) rfl rfl, mp_3 (x := stored.aa.voov) (y := amplitudes.aa) rfl rfl, mp_4 (x := stored.aa.voov) (y := amplitudes.aa) rfl rfl, mp_5 (x := stored.aa.voov) (y := amplitudes.aa) rfl rfl, mp_6 (x := stored.aa.voov) (y := amplitudes.aa) rfl rfl, mp_7 (x := stored.ab.voov) (y := amplitudes.ab) rfl rfl, mp_8 (x := stored.ab.voov) (y := amplitudes.ab) rfl rfl, mp_9 (x := stored.ab.voov) (y := amplitudes.ab) rfl rfl, mp_10 (x := stored.ab.voov) (y := amplitudes.ab) rfl rfl]
  rfl

theorem m2b_value (S : Orbitals ι) (Z : Fock.Integrals) (T : Cluster) (a b i j : ℕ) :
    value S Z (Cluster.store [T]) (m2b amplitudes stored) [a, b, i, j] =
      (∑ m ∈ range S.na, ∑ n ∈ range S.nb, Z.vAB m n i j * T.tAB a b m n)
      + (∑ e ∈ range S.ua, ∑ f ∈ range S.ub, Z.vAB (S.na + a) (S.nb + b) (S.na + e) (S.nb + f) * T.tAB e f i j)
      + (∑ m ∈ range S.na, ∑ e ∈ range S.ua, Z.vAA (S.na + a) m i (S.na + e) * T.tAB e b m j)
      + (∑ m ∈ range S.nb, ∑ e ∈ range S.ub, Z.vBB (S.nb + b) m j (S.nb + e) * T.tAB a e i m)
      + (∑ m ∈ range S.na, ∑ e ∈ range S.ua, Z.vAB m (S.nb + b) (S.na + e) j * T.tAA a e i m)
      + (∑ m ∈ range S.nb, ∑ e ∈ range S.ub, Z.vAB (S.na + a) m i (S.nb + e) * T.tBB b e j m)
      - (∑ m ∈ range S.na, ∑ e ∈ range S.ub, Z.vAB m (S.nb + b) i (S.nb + e) * T.tAB a e m j)
      - (∑ m ∈ range S.nb, ∑ e ∈ range S.ua, Z.vAB (S.na + a) m (S.na + e) j * T.tAB e b i m) := by
  simp only [value, m2b, denote_add, denote_sub, mp_11 (x := stored.ab.oooo) (y := amplitudes.ab) rfl rfl, mp_12 (x := stored.ab.vvvv) (y := amplitudes.ab) rfl rfl, mp_13 (x := stored.aa.voov) (y := amplitudes.ab) rfl rfl, mp_14 (x := stored.bb.voov) (y := amplitudes.ab) rfl rfl, mp_15 (x := stored.ab.ovvo) (y := amplitudes.aa) rfl rfl, mp_16 (x := stored.ab.voov) (y := amplitudes.bb) rfl rfl, mp_17 (x := stored.ab.ovov) (y := amplitudes.ab) rfl rfl, mp_18 (x := stored.ab.vovo) (y := amplitudes.ab) rfl rfl]
  rfl

theorem m2c_value (S : Orbitals ι) (Z : Fock.Integrals) (T : Cluster) (a b i j : ℕ) :
    value S Z (Cluster.store [T]) (m2c amplitudes stored) [a, b, i, j] =
      1 / 2 * (∑ m ∈ range S.nb, ∑ n ∈ range S.nb, Z.vBB m n i j * T.tBB a b m n)
      + 1 / 2 * (∑ e ∈ range S.ub, ∑ f ∈ range S.ub, Z.vBB (S.nb + a) (S.nb + b) (S.nb + e) (S.nb + f) * T.tBB e f i j)
      + (∑ m ∈ range S.nb, ∑ e ∈ range S.ub, Z.vBB (S.nb + a) m i (S.nb + e) * T.tBB e b m j)
      - (∑ m ∈ range S.nb, ∑ e ∈ range S.ub, Z.vBB (S.nb + b) m i (S.nb + e) * T.tBB e a m j)
      - (∑ m ∈ range S.nb, ∑ e ∈ range S.ub, Z.vBB (S.nb + a) m j (S.nb + e) * T.tBB e b m i)
      + (∑ m ∈ range S.nb, ∑ e ∈ range S.ub, Z.vBB (S.nb + b) m j (S.nb + e) * T.tBB e a m i)
      + (∑ m ∈ range S.na, ∑ e ∈ range S.ua, Z.vAB m (S.nb + a) (S.na + e) i * T.tAB e b m j)
      - (∑ m ∈ range S.na, ∑ e ∈ range S.ua, Z.vAB m (S.nb + b) (S.na + e) i * T.tAB e a m j)
      - (∑ m ∈ range S.na, ∑ e ∈ range S.ua, Z.vAB m (S.nb + a) (S.na + e) j * T.tAB e b m i)
      + (∑ m ∈ range S.na, ∑ e ∈ range S.ua, Z.vAB m (S.nb + b) (S.na + e) j * T.tAB e a m i) := by
  simp only [value, m2c, denote_add, denote_sub, denote_half, mp_19 (x := stored.bb.oooo) (y := amplitudes.bb) rfl rfl, mp_20 (x := stored.bb.vvvv) (y := amplitudes.bb) rfl rfl, mp_21 (x := stored.bb.voov) (y := amplitudes.bb) rfl rfl, mp_22 (x := stored.bb.voov) (y := amplitudes.bb) rfl rfl, mp_23 (x := stored.bb.voov) (y := amplitudes.bb) rfl rfl, mp_24 (x := stored.bb.voov) (y := amplitudes.bb) rfl rfl, mp_25 (x := stored.ab.ovvo) (y := amplitudes.ab) rfl rfl, mp_26 (x := stored.ab.ovvo) (y := amplitudes.ab) rfl rfl, mp_27 (x := stored.ab.ovvo) (y := amplitudes.ab) rfl rfl, mp_28 (x := stored.ab.ovvo) (y := amplitudes.ab) rfl rfl]
  rfl

end Ccpy.Mp3
